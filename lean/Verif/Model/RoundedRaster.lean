import Verif.Model.RoundedProgram

/-!
A second model of `main` of `/repo/src/image_raster.rs`, with rounding: the models `Config` and `Program`
with every `f64` operation followed by a rounding function `fl`.  The numbers of the configuration and
of the options are given as they are after their text has been read.  The `u32` and `i64` products
that the other models leave out are checked.

Not rounded, since exact in `f64`: `abs`, `round`, `u32` numbers as `f64`.  A quotient with denominator
zero, which is infinite or not a number in the source, is zero here: a picture has at least one
pixel, and `step_y` is not used when `res_y` is zero.
-/

namespace StepperPaths.Rounded
open Context Draw Config Control Program Raster

variable (fl : ℝ → ℝ)

/-- `ax_scale` and `ay_scale`, image_raster.rs 139-140: both are derived from `vx_scale`. -/
noncomputable def rasterAScaleF (c : Xy) : ℝ := fl (cfgVScale fl c .x / c.ticksPerSecond)

/-- `ax_max` and `ay_max`, image_raster.rs 142-156; `opt` is `--a-max`. -/
noncomputable def rasterALimitF (c : Xy) (opt : Option ℝ) (i : Axis) : ℤ :=
  match opt with
  | none => satI32 (Draw.round (fl (|rasterAScaleF fl c| * (c.stepper i).maxAcceleration)))
  | some value => satI32 (trunc |fl (value * rasterAScaleF fl c)|)

/-- Width and height of the picture in mm, image_raster.rs 237-246. -/
noncomputable def pictureSizeF (width height : Option ℝ) (xPixels yPixels : ℕ) : ℝ × ℝ :=
  match width, height with
  | some w, some h => (w, h)
  | some w, none => (w, fl (fl (w * yPixels) / xPixels))
  | none, some h => (fl (fl (h * xPixels) / yPixels), h)
  | none, none => (20, fl (fl (20 * yPixels) / xPixels))

/-- What the options ask for, image_raster.rs 158-246; `DEFAULT_SPOT_DIAMETER` is `0.2`, line 29. -/
noncomputable def requestF (o : RasterOptions) (xPixels yPixels : ℕ) : Request :=
  let size := pictureSizeF fl o.width o.height xPixels yPixels
  ⟨size.1, size.2, o.spot.getD (fl (1 / 5)), o.drawSpeed.getD 20, weightOf (o.intensity.getD 5)⟩

/-- `width`, image_raster.rs 277. -/
noncomputable def widthF (c : Xy) (r : Request) : ℝ := fl (r.width * (c.stepper .x).stepsPerMillimeter)

/-- `res_x`, image_raster.rs 278-281. -/
noncomputable def resXF (c : Xy) (r : Request) (xPixels : ℕ) : ℕ :=
  max 1 (satU32 (Draw.round (fl (fl (widthF fl c r * c.ticksPerSecond) /
    fl (xPixels * fl (r.speed * (c.stepper .x).stepsPerMillimeter))))))

/-- `v_x`, image_raster.rs 283. -/
noncomputable def vXF (c : Xy) (r : Request) (xPixels : ℕ) : ℤ :=
  satI32 (Draw.round (fl (widthF fl c r / (2 * (xPixels * resXF fl c r xPixels) : ℕ))))

/-- `res_y`, image_raster.rs 285. -/
noncomputable def resYF (r : Request) (yPixels : ℕ) : ℕ :=
  satU32 (Draw.round (fl (r.height / fl (yPixels * r.spot))))

/-- `step_y`, image_raster.rs 286-287. -/
noncomputable def stepYF (c : Xy) (r : Request) (yPixels : ℕ) : ℤ :=
  satI64 (Draw.round (fl (fl (r.height * (c.stepper .y).stepsPerMillimeter) / (resYF fl r yPixels * yPixels : ℕ))))

/-- The parameters of the scan. -/
noncomputable def paramsF (c : Xy) (r : Request) (xPixels yPixels : ℕ) : Params :=
  ⟨resXF fl c r xPixels, vXF fl c r xPixels, resYF fl r yPixels, stepYF fl c r yPixels, r.weight⟩

/-- `res_y as i64 * step_y * y_pixels as i64`, image_raster.rs 292. -/
def realHeight (p : Params) (img : Image) : Option ℤ := do
  let a := p.resY * p.stepY
  cassert (-9223372036854775808 ≤ a ∧ a ≤ 9223372036854775807)
  let b := a * img.height
  cassert (-9223372036854775808 ≤ b ∧ b ≤ 9223372036854775807)
  return b

/-- `main` of image_raster.rs, lines 120-357, with a device; results as for `svgMain`.  The checks of
lines 282-290 are those of `raster`. -/
noncomputable def rasterMainF (cfg : Xy) (o : RasterOptions) (img : Image) (port : Port) :
    Option (Option Port) := do
  -- `2 * config.ticks_per_second`, image_raster.rs 120
  let _ ← mulU32 2 cfg.ticksPerSecond
  let percent := o.intensity.getD 5
  if percent < 0 ∨ percent > 100 then some none
  else do
    let p := paramsF fl cfg (requestF fl o img.width img.height) img.width img.height
    let _ ← realHeight p img
    let c ← raster p img (Ctx.new (rasterALimitF fl cfg o.aMax) (vLimitF fl cfg o.vMax))
    -- `ctxt.ticks() / (config.ticks_per_second as u64)`, image_raster.rs 350
    cassert (cfg.ticksPerSecond ≠ 0)
    match ← playEvents port c.events with
    | (.ok (), port) => some (some port)
    | (.error _, _) => none

end StepperPaths.Rounded
