import Verif.Model.CheckedMotion
import Verif.Model.RoundedProgram
import Verif.Model.Raster

/-!
`draw_curves` of `/repo/src/stepper_context.rs` and `main` of `/repo/src/svg_path.rs` once more, with the
`f64` operations followed by a rounding function, as in the models `Rounded` and `RoundedProgram`, and with
every `i64`, `i32` and `u32` operation checked as in a debug build: an overflow is a panic, `none`.
Functions without integer arithmetic are shared with the other models.  Tick counts (`u64`) stay unbounded.
-/

namespace StepperPaths.CheckedSvg
open Coords Curves Context IntegerCurve Config Control Program StepperPaths.Svg Rounded
open Draw hiding Env wantedAcc nextErr accForPos approxSteps gotoSpeed approxPass approxLoop approxCurve drawCurve drawPen drawCurves

variable (fl : ℝ → ℝ)

/-- `goto_speed`, stepper_context.rs 359-366. -/
noncomputable def gotoSpeed (e : Env) (c : Ctx) (x y vx vy : ℝ) : Option Ctx := do
  let x ← toSteps fl e x .x
  let y ← toSteps fl e y .y
  let vx ← toStepV fl e vx .x
  let vy ← toStepV fl e vy .y
  Checked.stepGotoSpeed c x y vx vy

/-- One pass of the loop of `approx_curve` at length `p`, stepper_context.rs 412-462.  The integer operations are
those of `Checked.ahead`, `Checked.approxTick` and `Checked.passErr`. -/
noncomputable def approxPass (e : Env) (start : Vec) (curve : Curve) (v : ℝ) (p : ℝ) (s : Approx) :
    Option Approx := do
  let pos := (curve.value p).1
  let dir := (curve.value p).2
  let _ ← Checked.ahead (s.ctx.channels .x)
  let _ ← Checked.ahead (s.ctx.channels .y)
  let err := fun i => nextErr fl (s.err i)
    (accForPos fl (s.ctx.channels i) (s.ctx.aMax i) (stepPos fl e start pos i))
  let acc := fun i => wantedAcc fl (s.ctx.channels i) (s.ctx.aMax i) (stepPos fl e start pos i)
    (stepV fl e dir v i) (err i)
  let c ← Checked.approxTick s.ctx (acc .x) (acc .y)
  let ex ← Checked.passErr (c.channels .x) (stepPos fl e start pos .x)
  let ey ← Checked.passErr (c.channels .y) (stepPos fl e start pos .y)
  return ⟨c, err, fun i => accMax (s.maxErr i) (match i with | .x => ex | .y => ey)⟩

/-- The loop of `approx_curve`, stepper_context.rs 411-462. -/
noncomputable def approxLoop (e : Env) (start : Vec) (curve : Curve) (v stepLen : ℝ) (t : ℕ) :
    ℕ → Approx → Option Approx
  | 0, s => some s
  | n + 1, s => do
    let s ← approxPass fl e start curve v (fl (t * stepLen)) s
    approxLoop e start curve v stepLen (t + 1) n s

/-- `approx_curve`, stepper_context.rs 400-464. -/
noncomputable def approxCurve (e : Env) (c : Ctx) (start : Vec) (curve : Curve) (v : ℝ) :
    Option (Ctx × (Axis → ℤ)) := do
  let steps := Draw.round (fl (curve.length / v))
  let s ← approxLoop fl e start curve v (fl (curve.length / steps)) 1 (approxSteps fl curve v)
    ⟨c, fun _ => 0, fun _ => 0⟩
  return (s.ctx, s.maxErr)

/-- `draw_curve`, stepper_context.rs 471-490. -/
noncomputable def drawCurve (e : Env) (c : Ctx) (start : Vec) (curve : Concat) (v : ℝ) :
    Option (Ctx × (Axis → ℤ)) :=
  if curve.isEmpty then some (c, fun _ => 0)
  else do
    let dir := ((concatInfo fl e curve).value 0).2
    let vStart := vmul fl dir v
    let c ← c.addWeightChange c.moveWeight (c.channels .x).ticks
    let c ← gotoSpeed fl e c start.x start.y vStart.x vStart.y
    let c ← c.addWeightChange c.curveWeight (c.channels .x).ticks
    approxCurve fl e c start (concatInfo fl e curve) v

/-- `let err = self.draw_curve(start, &mut curves, v)?; acc_max_err(&mut max_err, &err);` -/
noncomputable def flush (e : Env) (v : ℝ) (s : Pen) : Option Pen := do
  let (c, err) ← drawCurve fl e s.ctx s.start s.curves v
  return { s with ctx := c, maxErr := fun i => accMax (s.maxErr i) (err i), curves := [],
                  drawn := s.drawn ++ [(s.start, s.curves)] }

/-- `GoTo` in the loop of `draw_curves`, stepper_context.rs 512-522. -/
noncomputable def goTo (e : Env) (v : ℝ) (s : Pen) (p : Vec) : Option Pen := do
  if ← atMachine fl e s p then return { s with skipped := s.skipped ++ [(p, s.current)] }
  let s ← flush fl e v s
  return { s with current := p, start := p, prevDir := none }

open Classical in
/-- A drawing segment in the loop of `draw_curves`, stepper_context.rs 527-551. -/
noncomputable def add (e : Env) (v : ℝ) (s : Pen) (info : Curve) (next : Vec) : Option Pen := do
  let s ← if turns fl s (info.value 0).2 then
      (flush fl e v s).map fun s => { s with start := s.current }
    else some s
  return { s with current := next, prevDir := some (info.value info.length).2,
                  curves := concatAdd fl s.curves info }

open Classical in
/-- One pass of the loop of `draw_curves`, stepper_context.rs 509-552. -/
noncomputable def step (e : Env) (v : ℝ) (s : Pen) (seg : Seg) : Option Pen :=
  match seg with
  | .goTo p => goTo fl e v s p
  | .closeTo p2 =>
    if vlength fl (vsub fl s.current p2) < fl (1 / 1000000) then some { s with current := p2 }
    else do
      let (info, next) ← segInfo fl e s.current (.closeTo p2)
      add fl e v s info next
  | seg => do
    let (info, next) ← segInfo fl e s.current seg
    add fl e v s info next

/-- The loop of `draw_curves`, stepper_context.rs 508-561. -/
noncomputable def run (e : Env) (v : ℝ) : List Seg → Pen → Option Pen
  | [], s => some s
  | seg :: segs, s => do
    let s ← step fl e v s seg
    run e v segs s

/-- `draw_curves` up to the last weight change, stepper_context.rs 497-562. -/
noncomputable def drawPen (e : Env) (c : Ctx) (segs : List Seg) (v : ℝ) : Option Pen := do
  let s ← run fl e v segs (init fl e c)
  flush fl e v s

/-- `draw_curves`, stepper_context.rs 492-565. -/
noncomputable def drawCurves (e : Env) (c : Ctx) (segs : List Seg) (v : ℝ) :
    Option (Ctx × (Axis → ℤ)) :=
  if segs.isEmpty then some (c, fun _ => 0)
  else do
    let s ← drawPen fl e c segs v
    let c ← s.ctx.addWeightChange s.ctx.moveWeight (s.ctx.channels .x).ticks
    return (c, s.maxErr)

/-- `for _ in 0..n_repeat { ctxt.draw_curves(&path, v) }`, svg_path.rs 268-278. -/
noncomputable def drawTimes (e : Env) (path : List Seg) (v : ℝ) : ℕ → Ctx → Option Ctx
  | 0, c => some c
  | n + 1, c => do
    let (c, _) ← drawCurves fl e c path v
    drawTimes e path v n c

/-- The motion, svg_path.rs 206-214 and 268-288; `step_goto(0, 0)` is `step_goto_speed(0, 0, 0, 0)`,
stepper_context.rs 355-357. -/
noncomputable def svgEvents (e : Env) (aMax vMax : Axis → ℤ) (weight : ℤ) (path : List Seg) (v : ℝ) (n : ℕ) :
    Option Ctx := do
  let c := (Ctx.new aMax vMax).setWeight weight
  let c ← drawTimes fl e path v n c
  let c ← Checked.stepGotoSpeed c 0 0 0 0
  let _ ← c.ticks
  c.readEvents

/-- `value * 254 / 100` in `i32`, svg_path.rs 170-184. -/
def weight (percent : ℤ) : Option ℤ := do
  let a ← toI32 (percent * 254)
  return a.tdiv 100

/-- `main` of svg_path.rs, lines 106-292, with a device; results as for `svgProgram`.  First `2 *
config.ticks_per_second` in `u32`, line 106. -/
noncomputable def svgProgram (lib : Lib) (cfg : Xy) (o : Options) (layer : Option (List Char)) (e : Env) (doc : List XmlEvent)
    (port : Port) : Option (Option Port) := do
  let _ ← Raster.mulU32 2 cfg.ticksPerSecond
  let n := o.repeats.getD 1
  let percent := o.intensity.getD 5
  if n < 1 ∨ percent < 0 ∨ percent > 100 then some none
  else do
    let w ← weight percent
    match parseDocumentF fl lib (keepOf layer) .identity doc with
    | some (.ok path) => do
      let e := { e with stepScale := fun i => (cfg.stepper i).stepsPerMillimeter }
      let c ← svgEvents fl e (svgALimitF fl cfg o.aMax) (vLimitF fl cfg o.vMax) w path
        (drawSpeedF fl cfg o.drawSpeed) n.toNat
      cassert (cfg.ticksPerSecond ≠ 0)
      match ← playEvents port c.events with
      | (.ok (), port) => some (some port)
      | (.error _, _) => none
    | _ => none

end StepperPaths.CheckedSvg
