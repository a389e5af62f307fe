import Verif.Model.Config
import Verif.Model.Control

/-!
Model of `main` of `/repo/src/svg_path.rs` and of `/repo/src/image_raster.rs` after the arguments
are parsed: from the configuration, the options and the picture to the conversation with the
controller.  The printed
texts are left out.  The options are given as numbers; how a wrong number is reported is not
modelled.  Opening the port and the files is not modelled.
-/

namespace StepperPaths.Program
open Context Draw Config Control Raster

/-- The options of svg_path.rs 36-49 that take numbers. -/
structure Options where
  vMax : Option ℝ
  aMax : Option ℝ
  drawSpeed : Option ℝ
  repeats : Option ℤ
  intensity : Option ℤ

/-- The weight for a number of percent, svg_path.rs 170-184: `value * 254 / 100` in `i32`. -/
def weightOf (percent : ℤ) : ℤ := (percent * 254).tdiv 100

/-- `for _ in 0..n_repeat { ctxt.draw_curves(&path, v) }`, svg_path.rs 268-278. -/
noncomputable def drawTimes (e : Env) (path : List Seg) (v : ℝ) : ℕ → Ctx → Option Ctx
  | 0, c => some c
  | n + 1, c => do
    let (c, _) ← drawCurves e c path v
    drawTimes e path v n c

/-- The motion, svg_path.rs 206-214 and 268-288: a new context, `n` times the picture, back to the
origin, and the events.  An error of `draw_curves`, which ends the program, is `none` here. -/
noncomputable def svgEvents (e : Env) (aMax vMax : Axis → ℤ) (weight : ℤ) (path : List Seg) (v : ℝ) (n : ℕ) :
    Option Ctx := do
  let c := (Ctx.new aMax vMax).setWeight weight
  let c ← drawTimes e path v n c
  let c ← c.stepGoto 0 0
  let _ ← c.ticks
  c.readEvents

/-- `main` of svg_path.rs, lines 106-292, with a device.  The result `some none` is a program that
ends with a message because of an option, `none` is a panic, an error of `draw_curves`, or a
program that does not end. -/
noncomputable def svgMain (cfg : Xy) (o : Options) (e : Env) (path : List Seg) (port : Port) :
    Option (Option Port) :=
  let n := o.repeats.getD 1
  let percent := o.intensity.getD 5
  if n < 1 ∨ percent < 0 ∨ percent > 100 then some none
  else do
    let e := { e with stepScale := fun i => (cfg.stepper i).stepsPerMillimeter }
    let c ← svgEvents e (svgALimit cfg o.aMax) (vLimit cfg o.vMax) (weightOf percent) path
      (o.drawSpeed.getD 20 / cfg.ticksPerSecond) n.toNat
    -- `ctxt.ticks() / (config.ticks_per_second as u64)`, svg_path.rs 285
    cassert (cfg.ticksPerSecond ≠ 0)
    match ← playEvents port c.events with
    | (.ok (), port) => some (some port)
    | (.error _, _) => none

/-! ### image_raster -/

/-- The options of image_raster.rs 69-80 that take numbers. -/
structure RasterOptions where
  vMax : Option ℝ
  aMax : Option ℝ
  drawSpeed : Option ℝ
  intensity : Option ℤ
  width : Option ℝ
  height : Option ℝ
  spot : Option ℝ

/-- Width and height of the picture in mm, image_raster.rs 237-246. -/
noncomputable def pictureSize (width height : Option ℝ) (xPixels yPixels : ℕ) : ℝ × ℝ :=
  match width, height with
  | some w, some h => (w, h)
  | some w, none => (w, w * yPixels / xPixels)
  | none, some h => (h * xPixels / yPixels, h)
  | none, none => (20, 20 * yPixels / xPixels)

/-- What the options ask for, image_raster.rs 158-246. -/
noncomputable def RasterOptions.request (o : RasterOptions) (xPixels yPixels : ℕ) : Request :=
  let size := pictureSize o.width o.height xPixels yPixels
  ⟨size.1, size.2, o.spot.getD (1 / 5), o.drawSpeed.getD 20, weightOf (o.intensity.getD 5)⟩

/-- `main` of image_raster.rs, lines 116-357, with a device; results as for `svgMain`. -/
noncomputable def rasterMain (cfg : Xy) (o : RasterOptions) (img : Image) (port : Port) :
    Option (Option Port) :=
  let percent := o.intensity.getD 5
  if percent < 0 ∨ percent > 100 then some none
  else do
    let c ← raster (params cfg (o.request img.width img.height) img.width img.height) img
      (Ctx.new (rasterALimit cfg o.aMax) (vLimit cfg o.vMax))
    -- `ctxt.ticks() / (config.ticks_per_second as u64)`, image_raster.rs 350
    cassert (cfg.ticksPerSecond ≠ 0)
    match ← playEvents port c.events with
    | (.ok (), port) => some (some port)
    | (.error _, _) => none

end StepperPaths.Program
