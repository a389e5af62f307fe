import Verif.Model.CommandLine
import Verif.Model.CheckedSvg
import Verif.Model.CheckedRaster

/-!
The programs behind the command lines of `Model/CommandLine.lean` once more, with rounded `f64` operations and checked
integers: `run` of `svgCommand` and `rasterCommand`.  The numbers of the command line are rounded to `f64`
(`f64::from_str` rounds correctly); infinite ones are not modelled.  `2 * ticks_per_second` is checked by the commands.
-/

namespace StepperPaths.Cli
open Control Config Context IntegerCurve Program Raster StepperPaths.Svg Rounded

variable (fl : ℝ → ℝ)

/-- The options of svg_path.rs, as `f64`. -/
noncomputable def SvgNumbers.rounded (o : SvgNumbers) : Option Options :=
  o.options.map fun r => ⟨r.vMax.map fl, r.aMax.map fl, r.drawSpeed.map fl, r.repeats, r.intensity⟩

/-- The options of image_raster.rs, as `f64`. -/
noncomputable def RasterNumbers.rounded (o : RasterNumbers) : Option RasterOptions :=
  o.options.map fun r => ⟨r.vMax.map fl, r.aMax.map fl, r.drawSpeed.map fl, r.intensity, r.width.map fl, r.height.map fl,
    r.spot.map fl⟩

/-- svg_path.rs 170-292.  Without a device nothing is sent. -/
noncomputable def svgChecked (lib : Lib) (e : Rounded.Env) (cfg : Xy) (o : SvgNumbers) (layer : Option Arg) (doc : List XmlEvent)
    (port : Option Port) : Option (Option Port) := do
  let o ← o.rounded fl
  let w ← CheckedSvg.weight (o.intensity.getD 5)
  match parseDocumentF fl lib (keepOf layer) .identity doc with
  | some (.ok path) => do
    let e := { e with stepScale := fun i => (cfg.stepper i).stepsPerMillimeter }
    let c ← CheckedSvg.svgEvents fl e (svgALimitF fl cfg o.aMax) (vLimitF fl cfg o.vMax) w path
      (drawSpeedF fl cfg o.drawSpeed) (o.repeats.getD 1).toNat
    cassert (cfg.ticksPerSecond ≠ 0)
    match port with
    | none => some none
    | some port =>
      match ← playEvents port c.events with
      | (.ok (), port) => some (some port)
      | (.error _, _) => none
  | _ => none

/-- image_raster.rs 268-357.  Without a device nothing is sent. -/
noncomputable def rasterChecked (cfg : Xy) (o : RasterNumbers) (img : Image) (port : Option Port) :
    Option (Option Port) := do
  let o ← o.rounded fl
  let p := paramsF fl cfg (requestF fl o img.width img.height) img.width img.height
  let _ ← realHeight p img
  let c ← Checked.raster p img (Ctx.new (rasterALimitF fl cfg o.aMax) (vLimitF fl cfg o.vMax))
  cassert (cfg.ticksPerSecond ≠ 0)
  match port with
  | none => some none
  | some port =>
    match ← playEvents port c.events with
    | (.ok (), port) => some (some port)
    | (.error _, _) => none

end StepperPaths.Cli
