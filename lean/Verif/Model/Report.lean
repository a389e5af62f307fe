import Verif.Model.Special

/-!
What the two programs print about what they have computed, with the numbers of `Model/Special.lean`.

Only the values are modelled, not the texts around them.  `Segments` of svg_path.rs 263 and `Group` of line 229 are left out.
-/

namespace StepperPaths.Special
open Coords Curves Context IntegerCurve Config Control Program Raster StepperPaths.Svg Rounded StepperPaths.Cli
open Draw (Seg)

variable (fl : ℝ → ℝ)

/-- What svg_path.rs prints in lines 279, 281 and 283-286. -/
structure SvgReport where
  maxErrors : Axis → ℤ
  pos : ℤ × ℤ
  endTime : ℕ

/-- The loop with its variable `res`, svg_path.rs 268-278. -/
noncomputable def drawReport (e : Env) (path : List Seg) (v : Num) : ℕ → Ctx × (Axis → ℤ) → Option (Ctx × (Axis → ℤ))
  | 0, s => some s
  | n + 1, s => do
    let s ← drawCurves fl e s.1 path v
    drawReport e path v n s

/-- svg_path.rs 206-214 and 267-288: what is printed, and the events. -/
noncomputable def svgReport (e : Env) (aMax vMax : Axis → ℤ) (weight : ℤ) (path : List Seg) (v : Num) (n ticksPerSecond : ℕ) :
    Option (SvgReport × Ctx) := do
  let c := (Ctx.new aMax vMax).setWeight weight
  let (c, err) ← drawReport fl e path v n (c, fun _ => 0)
  let pos := c.position
  let c ← Checked.stepGotoSpeed c 0 0 0 0
  let ticks ← c.ticks
  cassert (ticksPerSecond ≠ 0)
  let c ← c.readEvents
  return (⟨err, pos, ticks / ticksPerSecond⟩, c)

/-- What image_raster.rs prints in lines 235, 293, 295 and 348-351. -/
structure RasterReport where
  pixels : ℕ × ℕ
  width : Num
  height : Num
  resX : ℕ
  resY : ℕ
  endTime : ℕ

/-- image_raster.rs 235-353: what is printed, and the events.  (`events` of line 353 does not change what `ticks` of line 350 gives.) -/
noncomputable def rasterReport (cfg : Xy) (o : RasterNumbers) (img : Image) : Option (RasterReport × Ctx) := do
  let p := params fl cfg (ask fl o img.width img.height) img.width img.height
  let interval ← mulU32 img.width p.resX
  let v2 ← mulU32 (asU32 p.vX) 2
  let w ← mulU32 v2 interval
  let h ← realHeight p img
  let c ← Checked.raster p img
    (Ctx.new (rasterALimit fl cfg (o.aMax.map (.ofF64 fl))) (vLimit fl cfg (o.vMax.map (.ofF64 fl))))
  let ticks ← c.ticks
  cassert (cfg.ticksPerSecond ≠ 0)
  return (⟨(img.width, img.height), .div fl (.fin w) (.fin (cfg.stepper .x).stepsPerMillimeter),
    .div fl (.fin (fl h)) (.fin (cfg.stepper .y).stepsPerMillimeter), p.resX, p.resY, ticks / cfg.ticksPerSecond⟩, c)

end StepperPaths.Special
