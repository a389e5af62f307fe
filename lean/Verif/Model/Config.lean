import Verif.Model.Draw
import Verif.Model.Raster

/-!
How the two programs turn the configuration file and the options into integers.  Floats are exact
reals; `as i32`, `as u32` and `as i64` saturate.  `2 * ticks_per_second` is a `u32` product in the
source; here it does not overflow.
-/

namespace StepperPaths.Config
open Context Draw

/-- `StepperConfig`, stepper_config.rs 5-9. -/
structure Stepper where
  stepsPerMillimeter : ℝ
  maxVelocity : ℝ
  maxAcceleration : ℝ

/-- `XyStepperConfig`, stepper_config.rs 21-26, without the laser. -/
structure Xy where
  ticksPerSecond : ℕ
  stepper : Axis → Stepper

def satU32 (x : ℤ) : ℕ := (max 0 (min x 4294967295)).toNat
def satI64 (x : ℤ) : ℤ := max (-9223372036854775808) (min x 9223372036854775807)

/-- `vx_scale` and `vy_scale`, svg_path.rs 106 and 109, image_raster.rs 120 and 123. -/
noncomputable def vScale (c : Xy) (i : Axis) : ℝ :=
  (c.stepper i).stepsPerMillimeter / (2 * c.ticksPerSecond)

/-- `vx_max` and `vy_max`, svg_path.rs 107-122, image_raster.rs 121-136; `opt` is `--v-max`. -/
noncomputable def vLimit (c : Xy) (opt : Option ℝ) (i : Axis) : ℤ :=
  match opt with
  | none => satI32 (Draw.round (|vScale c i| * (c.stepper i).maxVelocity))
  | some value => satI32 (trunc (|vScale c i| * value))

/-- `ax_scale` and `ay_scale` of svg_path.rs 125-126. -/
noncomputable def svgAScale (c : Xy) (i : Axis) : ℝ := vScale c i / c.ticksPerSecond

/-- `ax_max` and `ay_max` of svg_path.rs 128-141; `opt` is `--a-max`. -/
noncomputable def svgALimit (c : Xy) (opt : Option ℝ) (i : Axis) : ℤ :=
  match opt with
  | none => satI32 (Draw.round |svgAScale c i * (c.stepper i).maxAcceleration|)
  | some value => satI32 (trunc |value * svgAScale c i|)

/-- `ax_scale` and `ay_scale` of image_raster.rs 139-140: both are derived from `vx_scale`. -/
noncomputable def rasterAScale (c : Xy) (_ : Axis) : ℝ := vScale c .x / c.ticksPerSecond

/-- `ax_max` and `ay_max` of image_raster.rs 142-156; `opt` is `--a-max`. -/
noncomputable def rasterALimit (c : Xy) (opt : Option ℝ) (i : Axis) : ℤ :=
  match opt with
  | none => satI32 (Draw.round (|rasterAScale c i| * (c.stepper i).maxAcceleration))
  | some value => satI32 (trunc |value * rasterAScale c i|)

/-- What the user asks for: size of the picture and of the spot in mm, speed in mm/s, weight. -/
structure Request where
  width : ℝ
  height : ℝ
  spot : ℝ
  speed : ℝ
  weight : ℤ

/-- `res_x`, image_raster.rs 278-281. -/
noncomputable def resX (c : Xy) (r : Request) (xPixels : ℕ) : ℕ :=
  max 1 (satU32 (Draw.round (r.width * (c.stepper .x).stepsPerMillimeter * c.ticksPerSecond /
    (xPixels * (r.speed * (c.stepper .x).stepsPerMillimeter)))))

/-- `v_x`, image_raster.rs 283. -/
noncomputable def vX (c : Xy) (r : Request) (xPixels : ℕ) : ℤ :=
  satI32 (Draw.round (r.width * (c.stepper .x).stepsPerMillimeter / (2 * (xPixels * resX c r xPixels : ℕ))))

/-- `res_y`, image_raster.rs 285. -/
noncomputable def resY (r : Request) (yPixels : ℕ) : ℕ :=
  satU32 (Draw.round (r.height / (yPixels * r.spot)))

/-- `step_y`, image_raster.rs 286-287. (When `res_y = 0` the quotient is not finite in the source;
the value is not used then.) -/
noncomputable def stepY (c : Xy) (r : Request) (yPixels : ℕ) : ℤ :=
  satI64 (Draw.round (r.height * (c.stepper .y).stepsPerMillimeter / (resY r yPixels * yPixels : ℕ)))

/-- The parameters of the scan. -/
noncomputable def params (c : Xy) (r : Request) (xPixels yPixels : ℕ) : Raster.Params :=
  ⟨resX c r xPixels, vX c r xPixels, resY r yPixels, stepY c r yPixels, r.weight⟩

end StepperPaths.Config
