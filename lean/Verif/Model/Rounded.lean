import Verif.Model.Draw

/-!
A second model of the curve drawing part of `/repo/src/stepper_context.rs` and of the lines and
joined curves in `/repo/src/curves`, with rounding: every `f64` operation is followed by a rounding
function `fl`.  The arguments (coordinates, speed, step scale) are any reals, so also the `f64`
values.  There is still no overflow to infinity and no NaN.  Bezier curves and arcs (which use
functions of the mathematical library) come from an unspecified function `other`.

Not rounded, since exact in `f64`: `f64::round`, `i32 as f64`, comparisons, `1.0 - 0.5`.
-/

namespace StepperPaths.Rounded
open Coords Curves Context Draw

variable (fl : ℝ → ℝ)

/-! ### coords.rs -/

/-- `Add`, coords.rs 114-122. -/
noncomputable def vadd (a b : Vec) : Vec := ⟨fl (a.x + b.x), fl (a.y + b.y)⟩
/-- `Sub`, coords.rs 130-138. -/
noncomputable def vsub (a b : Vec) : Vec := ⟨fl (a.x - b.x), fl (a.y - b.y)⟩
/-- `Mul<f64>`, coords.rs 145-153. -/
noncomputable def vmul (a : Vec) (s : ℝ) : Vec := ⟨fl (a.x * s), fl (a.y * s)⟩
/-- `Vector::length`, coords.rs 10-12. -/
noncomputable def vlength (a : Vec) : ℝ := fl √(fl (fl (a.x * a.x) + fl (a.y * a.y)))
/-- `Vector::unit`, coords.rs 23-29. -/
noncomputable def vunit (a : Vec) : Vec := ⟨fl (a.x / vlength fl a), fl (a.y / vlength fl a)⟩

/-! ### line.rs and concat_curve.rs -/

/-- `Line::new` and `impl CurveInfo for Line`, line.rs 10-29. -/
noncomputable def line (e : Vec) : Curve :=
  let length := vlength fl e
  let dir : Vec := if length = 0 then ⟨1, 0⟩ else vunit fl e
  ⟨length, fun pos => (vmul fl dir pos, dir)⟩

/-- `ConcatCurve::add`, concat_curve.rs 32-45. -/
noncomputable def concatAdd (c : Concat) (curve : Curve) : Concat :=
  let clen := curve.length
  let endCoord : Vec := match c.getLast? with
    | none => ⟨0, 0⟩
    | some seg => seg.endCoord
  c ++ [⟨vadd fl (curve.value clen).1 endCoord, fl (clen + Concat.totalLength c), curve⟩]

/-- `ConcatCurve::value`, concat_curve.rs 73-90, when the binary search answers `i`. -/
noncomputable def concatValue (c : Concat) (i : ℕ) (pos : ℝ) : Option (Vec × Vec) := do
  if c.length = 0 then none
  let i := min i (c.length - 1)
  let seg ← c[i]?
  if i > 0 then
    let prev ← c[i - 1]?
    let r := seg.curve.value (fl (pos - prev.endLen))
    return (vadd fl r.1 prev.endCoord, r.2)
  else
    let r := seg.curve.value (fl (pos - 0))
    return (vadd fl r.1 (⟨0, 0⟩ : Vec), r.2)

/-! ### stepper_context.rs -/

/-- The step scale, the answers of the binary search in `ConcatCurve::value`, and
`curve_segment_to_info` for Bezier curves and arcs. -/
structure Env where
  stepScale : Axis → ℝ
  find : Concat → ℝ → ℕ
  other : Vec → Seg → Option (Curve × Vec)

/-- `v_scale`, stepper_context.rs 169-172. -/
noncomputable def vScale (e : Env) (i : Axis) : ℝ := fl (e.stepScale i / 2)

/-- `to_steps`, stepper_context.rs 287-294. -/
noncomputable def toSteps (e : Env) (coord : ℝ) (i : Axis) : Option ℤ := do
  let s := Draw.round (fl (coord * e.stepScale i))
  cassert (s < 9223372036854775808 ∧ s > -9223372036854775808)
  return s

/-- `to_step_v`, stepper_context.rs 296-303. -/
noncomputable def toStepV (e : Env) (v : ℝ) (i : Axis) : Option ℤ := do
  let s := Draw.round (fl (v * vScale fl e i))
  cassert (s < 2147483647 ∧ s > -2147483648)
  return s

/-- `coord_from_steps`, stepper_context.rs 305-307. -/
noncomputable def coordFromSteps (e : Env) (steps : ℤ) (i : Axis) : ℝ := fl (fl steps / e.stepScale i)

/-- `goto_speed`, stepper_context.rs 359-366. -/
noncomputable def gotoSpeed (e : Env) (c : Ctx) (x y vx vy : ℝ) : Option Ctx := do
  let x ← toSteps fl e x .x
  let y ← toSteps fl e y .y
  let vx ← toStepV fl e vx .x
  let vy ← toStepV fl e vy .y
  c.stepGotoSpeed x y vx vy

/-- `a_pos`, stepper_context.rs 424-429. -/
noncomputable def accForPos (ch : Channel) (aMax : ℤ) (stepPos : ℝ) : ℝ :=
  limit (fl (fl (stepPos - fl ((ch.pos + 2 * ch.v : ℤ) : ℝ)) / 2)) (-aMax) aMax

/-- The new `pos_err_acc`, stepper_context.rs 430-435. -/
noncomputable def nextErr (err aPos : ℝ) : ℝ :=
  let err := fl (err + fl (aPos * fl (1 / 10)))
  if (err > 0 ∧ aPos < 0) ∨ (err < 0 ∧ aPos > 0) then 0 else err

/-- `a_v`, stepper_context.rs 438. -/
noncomputable def accForSpeed (ch : Channel) (aMax : ℤ) (stepV : ℝ) : ℝ :=
  limit (fl (stepV - (ch.v : ℝ))) (-aMax) aMax

/-- The acceleration before the speed limit, stepper_context.rs 441, given the new `pos_err_acc`. -/
noncomputable def wantedAcc (ch : Channel) (aMax : ℤ) (stepPos stepV err : ℝ) : ℤ :=
  satI16 (Draw.round (fl (fl (accForSpeed fl ch aMax stepV * (1 / 2)) +
    fl (fl (accForPos fl ch aMax stepPos + err) * (1 / 2)))))

/-- `step_v` and `step_pos`, stepper_context.rs 421-422. -/
noncomputable def stepV (e : Env) (dir : Vec) (v : ℝ) (i : Axis) : ℝ := fl (fl (coord dir i * v) * vScale fl e i)
noncomputable def stepPos (e : Env) (start pos : Vec) (i : Axis) : ℝ :=
  fl (fl (coord pos i + coord start i) * e.stepScale i)

/-- One pass of the loop of `approx_curve` at length `p`, stepper_context.rs 412-462. -/
noncomputable def approxPass (e : Env) (start : Vec) (curve : Curve) (v : ℝ) (p : ℝ) (s : Approx) :
    Option Approx := do
  let pos := (curve.value p).1
  let dir := (curve.value p).2
  let err := fun i => nextErr fl (s.err i)
    (accForPos fl (s.ctx.channels i) (s.ctx.aMax i) (stepPos fl e start pos i))
  let acc := fun i => wantedAcc fl (s.ctx.channels i) (s.ctx.aMax i) (stepPos fl e start pos i)
    (stepV fl e dir v i) (err i)
  let c ← s.ctx.approxTick (acc .x) (acc .y)
  return ⟨c, err, fun i => accMax (s.maxErr i) |(c.channels i).pos - trunc (stepPos fl e start pos i)|⟩

/-- The loop of `approx_curve`, stepper_context.rs 411-462: ticks `t`, …, `t + n - 1`. -/
noncomputable def approxLoop (e : Env) (start : Vec) (curve : Curve) (v stepLen : ℝ) (t : ℕ) :
    ℕ → Approx → Option Approx
  | 0, s => some s
  | n + 1, s => do
    let s ← approxPass fl e start curve v (fl (t * stepLen)) s
    approxLoop e start curve v stepLen (t + 1) n s

/-- The number of passes, `steps as i32` of stepper_context.rs 402 and 411. -/
noncomputable def approxSteps (curve : Curve) (v : ℝ) : ℕ := (satI32 (Draw.round (fl (curve.length / v)))).toNat

/-- `approx_curve`, stepper_context.rs 400-464: the new context and the returned errors. -/
noncomputable def approxCurve (e : Env) (c : Ctx) (start : Vec) (curve : Curve) (v : ℝ) :
    Option (Ctx × (Axis → ℤ)) := do
  let steps := Draw.round (fl (curve.length / v))
  let s ← approxLoop fl e start curve v (fl (curve.length / steps)) 1 (approxSteps fl curve v)
    ⟨c, fun _ => 0, fun _ => 0⟩
  return (s.ctx, s.maxErr)

/-- `curve_segment_to_info`, stepper_context.rs 101-128. -/
noncomputable def segInfo (e : Env) (pos : Vec) : Seg → Option (Curve × Vec)
  | .lineTo p2 | .closeTo p2 => some (line fl (vsub fl p2 pos), p2)
  | .goTo _ => none
  | seg => e.other pos seg

/-- A `ConcatCurve` as `dyn CurveInfo`. -/
noncomputable def concatInfo (e : Env) (c : Concat) : Curve :=
  ⟨c.totalLength, fun pos => (concatValue fl c (e.find c pos) pos).getD (⟨0, 0⟩, ⟨0, 0⟩)⟩

/-- `draw_curve`, stepper_context.rs 471-490. -/
noncomputable def drawCurve (e : Env) (c : Ctx) (start : Vec) (curve : Concat) (v : ℝ) :
    Option (Ctx × (Axis → ℤ)) :=
  if curve.isEmpty then some (c, fun _ => 0)
  else do
    let dir := ((concatInfo fl e curve).value 0).2
    let vStart := vmul fl dir v
    let c ← c.addWeightChange c.moveWeight (c.channels .x).ticks
    let c ← gotoSpeed fl e c start.x start.y vStart.x vStart.y
    let c ← c.addWeightChange c.curveWeight (c.channels .x).ticks
    approxCurve fl e c start (concatInfo fl e curve) v

/-- `let err = self.draw_curve(start, &mut curves, v)?; acc_max_err(&mut max_err, &err);` -/
noncomputable def flush (e : Env) (v : ℝ) (s : Pen) : Option Pen := do
  let (c, err) ← drawCurve fl e s.ctx s.start s.curves v
  return { s with ctx := c, maxErr := fun i => accMax (s.maxErr i) (err i), curves := [],
                  drawn := s.drawn ++ [(s.start, s.curves)] }

/-- The test of stepper_context.rs 514-515: the machine is already at `p`. -/
noncomputable def atMachine (e : Env) (s : Pen) (p : Vec) : Option Bool := do
  let x ← toSteps fl e p.x .x
  if x ≠ (s.ctx.channels .x).pos then return false
  let y ← toSteps fl e p.y .y
  return y = (s.ctx.channels .y).pos

/-- The test of stepper_context.rs 533-537. -/
def turns (s : Pen) (startDir : Vec) : Prop :=
  ∃ d, s.prevDir = some d ∧ fl (fl (startDir.x * d.x) + fl (startDir.y * d.y)) < fl minCosConnect

/-- `GoTo` in the loop of `draw_curves`, stepper_context.rs 512-522. -/
noncomputable def goTo (e : Env) (v : ℝ) (s : Pen) (p : Vec) : Option Pen := do
  if ← atMachine fl e s p then return { s with skipped := s.skipped ++ [(p, s.current)] }
  let s ← flush fl e v s
  return { s with current := p, start := p, prevDir := none }

open Classical in
/-- A drawing segment in the loop of `draw_curves`, stepper_context.rs 527-551. -/
noncomputable def add (e : Env) (v : ℝ) (s : Pen) (info : Curve) (next : Vec) : Option Pen := do
  let s ← if turns fl s (info.value 0).2 then
      (flush fl e v s).map fun s => { s with start := s.current }
    else some s
  return { s with current := next, prevDir := some (info.value info.length).2,
                  curves := concatAdd fl s.curves info }

open Classical in
/-- One pass of the loop of `draw_curves`, stepper_context.rs 509-552. -/
noncomputable def step (e : Env) (v : ℝ) (s : Pen) (seg : Seg) : Option Pen :=
  match seg with
  | .goTo p => goTo fl e v s p
  | .closeTo p2 =>
    if vlength fl (vsub fl s.current p2) < fl (1 / 1000000) then some { s with current := p2 }
    else do
      let (info, next) ← segInfo fl e s.current (.closeTo p2)
      add fl e v s info next
  | seg => do
    let (info, next) ← segInfo fl e s.current seg
    add fl e v s info next

/-- The loop of `draw_curves`, stepper_context.rs 508-561. -/
noncomputable def run (e : Env) (v : ℝ) : List Seg → Pen → Option Pen
  | [], s => some s
  | seg :: segs, s => do
    let s ← step fl e v s seg
    run e v segs s

/-- The variables at the start of `draw_curves`, stepper_context.rs 497-507. -/
noncomputable def init (e : Env) (c : Ctx) : Pen :=
  let p : Vec := ⟨coordFromSteps fl e (c.channels .x).pos .x, coordFromSteps fl e (c.channels .y).pos .y⟩
  ⟨c, fun _ => 0, p, p, none, [], [], []⟩

/-- `draw_curves` up to the last weight change, stepper_context.rs 497-562. -/
noncomputable def drawPen (e : Env) (c : Ctx) (segs : List Seg) (v : ℝ) : Option Pen := do
  let s ← run fl e v segs (init fl e c)
  flush fl e v s

/-- `draw_curves`, stepper_context.rs 492-565. -/
noncomputable def drawCurves (e : Env) (c : Ctx) (segs : List Seg) (v : ℝ) :
    Option (Ctx × (Axis → ℤ)) :=
  if segs.isEmpty then some (c, fun _ => 0)
  else do
    let s ← drawPen fl e c segs v
    let c ← s.ctx.addWeightChange s.ctx.moveWeight (s.ctx.channels .x).ticks
    return (c, s.maxErr)

end StepperPaths.Rounded
