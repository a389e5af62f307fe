import Verif.Model.Bezier
import Verif.Model.Curves
import Verif.Model.StepperContext

/-!
Model of the part of `/repo/src/stepper_context.rs` that turns coordinates and curves into
motion: `to_steps`, `goto`, `approx_curve`, `draw_curve` and `draw_curves`.  Coordinates are
exact reals (see `Verif.Model.Coords`); the integer side is `Verif.Model.StepperContext`.
`println!` is left out.
-/

namespace StepperPaths.Draw
open Coords Curves Context IntegerCurve

/-- `f64::round`: to the nearest integer, half away from zero. -/
noncomputable def round (x : ℝ) : ℤ := if 0 ≤ x then ⌊x + 1 / 2⌋ else -⌊-x + 1 / 2⌋

/-- Truncation towards zero, as in `x as i64` (values outside of `i64` saturate in the source;
here they stay). -/
noncomputable def trunc (x : ℝ) : ℤ := if 0 ≤ x then ⌊x⌋ else -⌊-x⌋

/-- `x as i16` of an integral float: saturates. -/
def satI16 (n : ℤ) : ℤ := if n > 32767 then 32767 else if n < -32768 then -32768 else n

/-- `x as i32` of an integral float: saturates. -/
def satI32 (n : ℤ) : ℤ := if n > 2147483647 then 2147483647 else if n < -2147483648 then -2147483648 else n

/-- `limit`, stepper_context.rs 130-141. -/
noncomputable def limit (a lo hi : ℝ) : ℝ := if a > hi then hi else if a < lo then lo else a

/-- `acc_max`, stepper_context.rs 143-150. -/
def accMax (acc b : ℤ) : ℤ := if acc < b then b else acc

/-- `point[d]`, coords.rs 124-138. -/
def coord (p : Vec) : Axis → ℝ
  | .x => p.x
  | .y => p.y

/-- The float fields of `StepperContext`, stepper_context.rs 89-97, and the two things that are
not computed exactly in this model: the arc length of a Bezier curve and its inverse
(`Bezier::length` and `find_param`, sqrt_poly.rs), and the index a binary search returns
(concat_curve.rs 74-77). -/
structure Env where
  stepScale : Axis → ℝ
  bezierLength : Bezier → ℝ
  bezierParam : Bezier → ℝ → ℝ
  find : Concat → ℝ → ℕ

/-- `v_scale`, stepper_context.rs 169-172. -/
noncomputable def Env.vScale (e : Env) (i : Axis) : ℝ := e.stepScale i / 2

/-- `INITIAL_MIN_COS_CONNECT`, stepper_context.rs 159; the field is never changed. -/
noncomputable def minCosConnect : ℝ := 99619 / 100000

/-- `to_steps`, stepper_context.rs 287-294.  `i64::max_value() as f64` is `2^63`. -/
noncomputable def Env.toSteps (e : Env) (coord : ℝ) (i : Axis) : Option ℤ := do
  let s := round (coord * e.stepScale i)
  cassert (s < 9223372036854775808 ∧ s > -9223372036854775808)
  return s

/-- `to_step_v`, stepper_context.rs 296-303. -/
noncomputable def Env.toStepV (e : Env) (v : ℝ) (i : Axis) : Option ℤ := do
  let s := round (v * e.vScale i)
  cassert (s < 2147483647 ∧ s > -2147483648)
  return s

/-- `coord_from_steps`, stepper_context.rs 305-307. -/
noncomputable def Env.coordFromSteps (e : Env) (steps : ℤ) (i : Axis) : ℝ := steps / e.stepScale i

/-- `goto_speed`, stepper_context.rs 359-366. -/
noncomputable def gotoSpeed (e : Env) (c : Ctx) (x y vx vy : ℝ) : Option Ctx := do
  let x ← e.toSteps x .x
  let y ← e.toSteps y .y
  let vx ← e.toStepV vx .x
  let vy ← e.toStepV vy .y
  c.stepGotoSpeed x y vx vy

/-- `goto`, stepper_context.rs 368-370. -/
noncomputable def goto (e : Env) (c : Ctx) (x y : ℝ) : Option Ctx := do
  let x ← e.toSteps x .x
  let y ← e.toSteps y .y
  c.stepGotoSpeed x y 0 0

/-! ### approx_curve -/

/-- `a_pos`, stepper_context.rs 424-429. -/
noncomputable def accForPos (ch : Channel) (aMax : ℤ) (stepPos : ℝ) : ℝ :=
  limit ((stepPos - ((ch.pos + 2 * ch.v : ℤ) : ℝ)) / 2) (-aMax) aMax

/-- The new `pos_err_acc`, stepper_context.rs 430-435. -/
noncomputable def nextErr (err aPos : ℝ) : ℝ :=
  let err := err + aPos * (1 / 10)
  if (err > 0 ∧ aPos < 0) ∨ (err < 0 ∧ aPos > 0) then 0 else err

/-- `a_v`, stepper_context.rs 438. -/
noncomputable def accForSpeed (ch : Channel) (aMax : ℤ) (stepV : ℝ) : ℝ :=
  limit (stepV - (ch.v : ℝ)) (-aMax) aMax

/-- The acceleration of one axis before the speed limit, stepper_context.rs 441, given the
new `pos_err_acc`. -/
noncomputable def wantedAcc (ch : Channel) (aMax : ℤ) (stepPos stepV err : ℝ) : ℤ :=
  satI16 (round (accForSpeed ch aMax stepV * (1 - 1 / 2) +
    (accForPos ch aMax stepPos + err) * (1 / 2)))

/-- The variables of the loop of `approx_curve`. -/
structure Approx where
  ctx : Ctx
  err : Axis → ℝ
  maxErr : Axis → ℤ

/-- `step_v` and `step_pos`, stepper_context.rs 421-422. -/
noncomputable def Env.stepV (e : Env) (dir : Vec) (v : ℝ) (i : Axis) : ℝ := coord dir i * v * e.vScale i
noncomputable def Env.stepPos (e : Env) (start pos : Vec) (i : Axis) : ℝ :=
  (coord pos i + coord start i) * e.stepScale i

/-- One pass of the loop of `approx_curve` at length `p`, stepper_context.rs 412-462. -/
noncomputable def approxPass (e : Env) (start : Vec) (curve : Curve) (v : ℝ) (p : ℝ) (s : Approx) :
    Option Approx := do
  let pos := (curve.value p).1
  let dir := (curve.value p).2
  let err := fun i => nextErr (s.err i) (accForPos (s.ctx.channels i) (s.ctx.aMax i) (e.stepPos start pos i))
  let acc := fun i => wantedAcc (s.ctx.channels i) (s.ctx.aMax i) (e.stepPos start pos i)
    (e.stepV dir v i) (err i)
  let c ← s.ctx.approxTick (acc .x) (acc .y)
  return ⟨c, err, fun i => accMax (s.maxErr i) |(c.channels i).pos - trunc (e.stepPos start pos i)|⟩

/-- The loop of `approx_curve`, stepper_context.rs 411-462: ticks `t`, …, `t + n - 1`. -/
noncomputable def approxLoop (e : Env) (start : Vec) (curve : Curve) (v stepLen : ℝ) (t : ℕ) :
    ℕ → Approx → Option Approx
  | 0, s => some s
  | n + 1, s => do
    let s ← approxPass e start curve v (t * stepLen) s
    approxLoop e start curve v stepLen (t + 1) n s

/-- The number of passes, `steps as i32` of stepper_context.rs 402 and 411. -/
noncomputable def approxSteps (curve : Curve) (v : ℝ) : ℕ := (satI32 (round (curve.length / v))).toNat

/-- `approx_curve`, stepper_context.rs 400-464: the new context and the returned errors. -/
noncomputable def approxCurve (e : Env) (c : Ctx) (start : Vec) (curve : Curve) (v : ℝ) :
    Option (Ctx × (Axis → ℤ)) := do
  let steps := round (curve.length / v)
  let s ← approxLoop e start curve v (curve.length / steps) 1 (approxSteps curve v)
    ⟨c, fun _ => 0, fun _ => 0⟩
  return (s.ctx, s.maxErr)

/-! ### draw_curves -/

/-- `enum CurveSegment`, stepper_context.rs 15-22. -/
inductive Seg
  | goTo (p : Vec)
  | lineTo (p : Vec)
  | closeTo (p : Vec)
  | curveTo (p2 c1 c2 : Vec)
  | arc (rx ry start stop rotation : ℝ)

/-- `CurveSegment::transform`, stepper_context.rs 25-47. -/
noncomputable def Seg.transform (t : Transform) : Seg → Seg
  | .goTo p => .goTo (t * p)
  | .lineTo p => .lineTo (t * p)
  | .closeTo p => .closeTo (t * p)
  | .curveTo p2 c1 c2 => .curveTo (t * p2) (t.noTranslation * c1) (t.noTranslation * c2)
  | .arc rx ry start stop rotation =>
    let d := t.decompose
    .arc (d.scale.x * rx) (d.scale.y * ry) start stop (rotation + d.rot)

/-- `Bezier` as `dyn CurveInfo`, bezier.rs 60-75. -/
noncomputable def Env.bezierInfo (e : Env) (b : Bezier) : Curve :=
  ⟨e.bezierLength b, fun pos =>
    b.bezierValue (if pos ≤ 0 then 0 else if pos ≥ e.bezierLength b then 1 else e.bezierParam b pos)⟩

/-- `f64::EPSILON`. -/
noncomputable def epsilon : ℝ := 1 / 4503599627370496

/-- `curve_segment_to_info`, stepper_context.rs 101-128: the curve and the new current
position. -/
noncomputable def Env.segInfo (e : Env) (pos : Vec) : Seg → Option (Curve × Vec)
  | .lineTo p2 | .closeTo p2 => some ((Line.new (p2 - pos)).info, p2)
  | .curveTo p2 c1 c2 => some (e.bezierInfo ⟨c1, p2 - pos + c2, p2 - pos⟩, p2)
  | .arc rx ry start stop _ =>
    if |rx - ry| > epsilon then none
    else
      let circle := Circle.new rx start stop
      some (circle.info, pos + (circle.value circle.length).1)
  | .goTo _ => none

/-- A `ConcatCurve` as `dyn CurveInfo`.  It is not asked when it is empty (the source panics). -/
noncomputable def Env.concatInfo (e : Env) (c : Concat) : Curve :=
  ⟨c.totalLength, fun pos => (c.valueAt (e.find c pos) pos).getD (⟨0, 0⟩, ⟨0, 0⟩)⟩

/-- `draw_curve`, stepper_context.rs 471-490.  (`curve.clear()` is in the caller.) -/
noncomputable def drawCurve (e : Env) (c : Ctx) (start : Vec) (curve : Concat) (v : ℝ) :
    Option (Ctx × (Axis → ℤ)) :=
  if curve.isEmpty then some (c, fun _ => 0)
  else do
    let dir := ((e.concatInfo curve).value 0).2
    let vStart := dir * v
    let c ← c.addWeightChange c.moveWeight (c.channels .x).ticks
    let c ← gotoSpeed e c start.x start.y vStart.x vStart.y
    let c ← c.addWeightChange c.curveWeight (c.channels .x).ticks
    approxCurve e c start (e.concatInfo curve) v

/-- The variables of the loop of `draw_curves`.  `drawn` and `skipped` are not in the source;
they record the arguments of the calls of `draw_curve`, and for the `GoTo`s that were skipped
their target and the current position. -/
structure Pen where
  ctx : Ctx
  maxErr : Axis → ℤ
  current : Vec
  start : Vec
  prevDir : Option Vec
  curves : Concat
  drawn : List (Vec × Concat)
  skipped : List (Vec × Vec)

/-- `let err = self.draw_curve(start, &mut curves, v)?; acc_max_err(&mut max_err, &err);` -/
noncomputable def Pen.flush (e : Env) (v : ℝ) (s : Pen) : Option Pen := do
  let (c, err) ← drawCurve e s.ctx s.start s.curves v
  return { s with ctx := c, maxErr := fun i => accMax (s.maxErr i) (err i), curves := [],
                  drawn := s.drawn ++ [(s.start, s.curves)] }

/-- The test of stepper_context.rs 514-515: the machine is already at `p`. -/
noncomputable def Pen.atMachine (e : Env) (s : Pen) (p : Vec) : Option Bool := do
  let x ← e.toSteps p.x .x
  if x ≠ (s.ctx.channels .x).pos then return false
  let y ← e.toSteps p.y .y
  return y = (s.ctx.channels .y).pos

/-- The test of stepper_context.rs 533-537: the new curve does not continue in the direction
of the previous one. -/
noncomputable def Pen.turns (s : Pen) (startDir : Vec) : Prop :=
  ∃ d, s.prevDir = some d ∧ startDir.x * d.x + startDir.y * d.y < minCosConnect

/-- `GoTo` in the loop of `draw_curves`, stepper_context.rs 512-522. -/
noncomputable def Pen.goTo (e : Env) (v : ℝ) (s : Pen) (p : Vec) : Option Pen := do
  if ← s.atMachine e p then return { s with skipped := s.skipped ++ [(p, s.current)] }
  let s ← s.flush e v
  return { s with current := p, start := p, prevDir := none }

open Classical in
/-- A drawing segment in the loop of `draw_curves`, stepper_context.rs 527-551. -/
noncomputable def Pen.add (e : Env) (v : ℝ) (s : Pen) (info : Curve) (next : Vec) : Option Pen := do
  let s ← if s.turns (info.value 0).2 then
      (s.flush e v).map fun s => { s with start := s.current }
    else some s
  return { s with current := next, prevDir := some (info.value info.length).2,
                  curves := s.curves.add info }

open Classical in
/-- One pass of the loop of `draw_curves`, stepper_context.rs 509-552. -/
noncomputable def Pen.step (e : Env) (v : ℝ) (s : Pen) (seg : Seg) : Option Pen :=
  match seg with
  | .goTo p => s.goTo e v p
  | .closeTo p2 =>
    if (s.current - p2).length < 1 / 1000000 then some { s with current := p2 }
    else do
      let (info, next) ← e.segInfo s.current (.closeTo p2)
      s.add e v info next
  | seg => do
    let (info, next) ← e.segInfo s.current seg
    s.add e v info next

/-- The loop of `draw_curves`, stepper_context.rs 508-561. -/
noncomputable def Pen.run (e : Env) (v : ℝ) : List Seg → Pen → Option Pen
  | [], s => some s
  | seg :: segs, s => do
    let s ← s.step e v seg
    s.run e v segs

/-- The variables at the start of `draw_curves`, stepper_context.rs 497-507. -/
noncomputable def Pen.init (e : Env) (c : Ctx) : Pen :=
  let p : Vec := ⟨e.coordFromSteps (c.channels .x).pos .x, e.coordFromSteps (c.channels .y).pos .y⟩
  ⟨c, fun _ => 0, p, p, none, [], [], []⟩

/-- `draw_curves` up to the last weight change, stepper_context.rs 497-562. -/
noncomputable def drawPen (e : Env) (c : Ctx) (segs : List Seg) (v : ℝ) : Option Pen := do
  let s ← (Pen.init e c).run e v segs
  s.flush e v

/-- `draw_curves`, stepper_context.rs 492-565. -/
noncomputable def drawCurves (e : Env) (c : Ctx) (segs : List Seg) (v : ℝ) :
    Option (Ctx × (Axis → ℤ)) :=
  if segs.isEmpty then some (c, fun _ => 0)
  else do
    let s ← drawPen e c segs v
    let c ← s.ctx.addWeightChange s.ctx.moveWeight (s.ctx.channels .x).ticks
    return (c, s.maxErr)

end StepperPaths.Draw
