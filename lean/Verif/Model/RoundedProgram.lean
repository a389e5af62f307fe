import Verif.Model.SvgProgram
import Verif.Model.RoundedSvg

/-!
A second model of `main` of `/repo/src/svg_path.rs`, with rounding: the models `Config`, `Program` and
`SvgProgram` with every `f64` operation followed by a rounding function `fl`.  The numbers of the
configuration and of the options are given as they are after their text has been read.

Not rounded, since exact in `f64`: `abs`, `round`, integers below `2^53` as `f64`.
-/

namespace StepperPaths.Rounded
open Context Draw Config Control Program StepperPaths.Svg

variable (fl : ℝ → ℝ)

/-- `vx_scale` and `vy_scale`, svg_path.rs 106 and 109. -/
noncomputable def cfgVScale (c : Xy) (i : Axis) : ℝ := fl ((c.stepper i).stepsPerMillimeter / (2 * c.ticksPerSecond))

/-- `vx_max` and `vy_max`, svg_path.rs 107-122; `opt` is `--v-max`. -/
noncomputable def vLimitF (c : Xy) (opt : Option ℝ) (i : Axis) : ℤ :=
  match opt with
  | none => satI32 (Draw.round (fl (|cfgVScale fl c i| * (c.stepper i).maxVelocity)))
  | some value => satI32 (trunc (fl (|cfgVScale fl c i| * value)))

/-- `ax_scale` and `ay_scale`, svg_path.rs 125-126. -/
noncomputable def svgAScaleF (c : Xy) (i : Axis) : ℝ := fl (cfgVScale fl c i / c.ticksPerSecond)

/-- `ax_max` and `ay_max`, svg_path.rs 128-141; `opt` is `--a-max`. -/
noncomputable def svgALimitF (c : Xy) (opt : Option ℝ) (i : Axis) : ℤ :=
  match opt with
  | none => satI32 (Draw.round |fl (svgAScaleF fl c i * (c.stepper i).maxAcceleration)|)
  | some value => satI32 (trunc |fl (value * svgAScaleF fl c i)|)

/-- `v_draw / (config.ticks_per_second as f64)`, svg_path.rs 144-153 and 270. -/
noncomputable def drawSpeedF (c : Xy) (opt : Option ℝ) : ℝ := fl (opt.getD 20 / c.ticksPerSecond)

/-- `for _ in 0..n_repeat { ctxt.draw_curves(&path, v) }`, svg_path.rs 268-278. -/
noncomputable def drawTimesF (e : Env) (path : List Seg) (v : ℝ) : ℕ → Ctx → Option Ctx
  | 0, c => some c
  | n + 1, c => do
    let (c, _) ← drawCurves fl e c path v
    drawTimesF e path v n c

/-- The motion, svg_path.rs 206-214 and 268-288; compare `svgEvents`. -/
noncomputable def svgEventsF (e : Env) (aMax vMax : Axis → ℤ) (weight : ℤ) (path : List Seg) (v : ℝ) (n : ℕ) :
    Option Ctx := do
  let c := (Ctx.new aMax vMax).setWeight weight
  let c ← drawTimesF fl e path v n c
  let c ← c.stepGoto 0 0
  let _ ← c.ticks
  c.readEvents

/-- `main` of svg_path.rs, lines 106-292, with a device; results as for `svgProgram`. -/
noncomputable def svgProgramF (lib : Lib) (cfg : Xy) (o : Options) (layer : Option (List Char)) (e : Env) (doc : List XmlEvent)
    (port : Port) : Option (Option Port) :=
  let n := o.repeats.getD 1
  let percent := o.intensity.getD 5
  if n < 1 ∨ percent < 0 ∨ percent > 100 then some none
  else
    match parseDocumentF fl lib (keepOf layer) .identity doc with
    | some (.ok path) => do
      let e := { e with stepScale := fun i => (cfg.stepper i).stepsPerMillimeter }
      let c ← svgEventsF fl e (svgALimitF fl cfg o.aMax) (vLimitF fl cfg o.vMax) (weightOf percent) path
        (drawSpeedF fl cfg o.drawSpeed) n.toNat
      -- `ctxt.ticks() / (config.ticks_per_second as u64)`, svg_path.rs 285
      cassert (cfg.ticksPerSecond ≠ 0)
      match ← playEvents port c.events with
      | (.ok (), port) => some (some port)
      | (.error _, _) => none
    | _ => none

end StepperPaths.Rounded
