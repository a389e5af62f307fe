import Verif.Model.Checked
import Verif.Model.Draw

/-!
The motion part of `/repo/src/stepper_context.rs` and `acc_distance` of `/repo/src/acc_vector.rs`
once more, with every `i64` operation checked as in a debug build: an overflow is a panic, `none`.
The `i32` checks are the same as in the unbounded model.  Functions without `i64` arithmetic are
shared with it.  Tick counts (`u64`) stay unbounded.
-/

namespace StepperPaths.Checked
open Coords Curves Context IntegerCurve Draw

/-- `x as i64` of an integral float: saturates. -/
def satI64 (n : ℤ) : ℤ :=
  if n > 9223372036854775807 then 9223372036854775807
  else if n < -9223372036854775808 then -9223372036854775808 else n

/-- The loop of `acc_distance`, acc_vector.rs 109-117. -/
def accDistanceFrom (s v : Int) : List AccSegment → Option (Int × Int)
  | [] => some (s, v)
  | seg :: rest => do
    let vNext ← toI32 (v + seg.acc * seg.interval)
    let sum ← toI32 (v + vNext)
    let s ← some s +? some sum *? some (seg.interval : Int)
    accDistanceFrom s vNext rest

/-- `acc_distance`, acc_vector.rs 106-119. -/
def accDistance (segs : List AccSegment) (v0 : Int) : Option (Int × Int) := accDistanceFrom 0 v0 segs

/-- The loop body of `add_acc_interval`, stepper_context.rs 192-207. -/
def addAccChannel (c : Ctx) (i : Axis) (acc : Int) (interval : Nat) : Option Ctx := do
  let ch := c.channels i
  let dt : Option Int := some (interval : Int)
  let pos ← some ch.pos +? (2 *? dt *? some ch.v +? dt *? dt *? some acc)
  let dv ← toI32 (asI32 interval * acc)
  let v ← toI32 (ch.v + dv)
  let c ← c.push ch.ticks (.acc i acc)
  return c.setCh i ⟨pos, v, ch.ticks + interval⟩

/-- `add_acc_interval`, stepper_context.rs 189-209. -/
def addAccInterval (c : Ctx) (accX accY : Int) (interval : Nat) : Option Ctx := do
  cassert (interval ≥ 1)
  let c ← addAccChannel c .x accX interval
  let c ← addAccChannel c .y accY interval
  cassert ((c.channels .x).ticks = (c.channels .y).ticks)
  return c

/-- The `PathLimits` of one axis in `step_goto_speed`, stepper_context.rs 319-334. -/
def limits (c : Ctx) (i : Axis) (target v : Int) : Option PathLimits := do
  let ds ← some target -? some (c.channels i).pos
  return ⟨ds, (c.channels i).v, v, c.aMax i, c.vMax i⟩

/-- The position update of `step_goto_speed` for one axis, stepper_context.rs 338-343. -/
def gotoChannel (c : Ctx) (i : Axis) (seq : List AccSegment) (vEnd : Int) : Option Ctx := do
  let ch := c.channels i
  let (s, v) ← accDistance seq ch.v
  let pos ← some ch.pos +? some s
  cassert (v = vEnd)
  return c.setCh i ⟨pos, ch.v, ch.ticks⟩

/-- The part of `step_goto_speed` after the sequences have been computed,
stepper_context.rs 337-347. -/
def gotoFollow (c : Ctx) (sx sy : List AccSegment) (vx vy : Int) : Option Ctx := do
  let c ← gotoChannel c .x sx vx
  let c ← gotoChannel c .y sy vy
  let c := c.setCh .x { c.channels .x with v := vx }
  let c := c.setCh .y { c.channels .y with v := vy }
  let c ← c.accSegsToEvents sx sy
  cassert ((c.channels .x).ticks = (c.channels .y).ticks)
  return c

/-- `step_goto_speed`, stepper_context.rs 310-353. -/
def stepGotoSpeed (c : Ctx) (x y vx vy : Int) : Option Ctx := do
  cassert (c.vMax .x ≥ vx)
  cassert (c.vMax .y ≥ vy)
  let c ← c.push (c.channels .x).ticks (.weight c.moveWeight)
  let lx ← limits c .x x vx
  let ly ← limits c .y y vy
  let seq ← shortestCurveSequences [lx, ly]
  match seq with
  | [sx, sy] => gotoFollow c sx sy vx vy
  | _ => none

/-- The loop body of `speed`, stepper_context.rs 375-395. -/
def speedChannel (ch : Channel) (aMax v : Int) : Option (Channel × List AccSegment) := do
  let d ← toI32 (v - ch.v)
  let t ← cdiv d aMax
  let dt ← crem d aMax
  let a ← speedAcc ch.v v aMax
  let seg : AccSegment := ⟨asU16 t.natAbs, asI16 a⟩
  let v2 ← toI32 (2 * ch.v)
  let dv ← toI32 (aMax * t)
  let sum ← toI32 (v2 + dv)
  let ds ← toI32 (sum * |t|)
  let pos ← some ch.pos +? some ds
  if dt ≠ 0 then
    let vt ← toI32 (ch.v + dv)
    let ds ← toI32 (vt + v)
    let pos ← some pos +? some ds
    return (⟨pos, v, ch.ticks⟩, [seg, ⟨1, asI16 dt⟩])
  else return (⟨pos, v, ch.ticks⟩, [seg])

/-- `speed`, stepper_context.rs 372-398, with the velocities already converted. -/
def speed (c : Ctx) (vx vy : Int) : Option Ctx := do
  let (chx, sx) ← speedChannel (c.channels .x) (c.aMax .x) vx
  let (chy, sy) ← speedChannel (c.channels .y) (c.aMax .y) vy
  let c := (c.setCh .x chx).setCh .y chy
  c.accSegsToEvents sx sy

/-! ### Curves -/

/-- The speed limit and the motion of one pass of `approx_curve`, stepper_context.rs 445-452. -/
def approxTick (c : Ctx) (ax ay : Int) : Option Ctx := do
  let ax ← limitSpeed (c.channels .x).v (c.vMax .x) ax
  let ay ← limitSpeed (c.channels .y).v (c.vMax .y) ay
  addAccInterval c ax ay 1

/-- `self.channels[d].pos + 2 * self.channels[d].v as i64`, stepper_context.rs 425. -/
def ahead (ch : Channel) : Option Int := some ch.pos +? 2 *? some ch.v

/-- The error of one axis, stepper_context.rs 453-460. -/
noncomputable def passErr (ch : Channel) (stepPos : ℝ) : Option Int :=
  abs (some ch.pos -? some (satI64 (trunc stepPos)))

/-- One pass of the loop of `approx_curve` at length `p`, stepper_context.rs 412-462. -/
noncomputable def approxPass (e : Env) (start : Vec) (curve : Curve) (v : ℝ) (p : ℝ) (s : Approx) :
    Option Approx := do
  let pos := (curve.value p).1
  let dir := (curve.value p).2
  let _ ← ahead (s.ctx.channels .x)
  let _ ← ahead (s.ctx.channels .y)
  let err := fun i => nextErr (s.err i) (accForPos (s.ctx.channels i) (s.ctx.aMax i) (e.stepPos start pos i))
  let acc := fun i => wantedAcc (s.ctx.channels i) (s.ctx.aMax i) (e.stepPos start pos i)
    (e.stepV dir v i) (err i)
  let c ← approxTick s.ctx (acc .x) (acc .y)
  let ex ← passErr (c.channels .x) (e.stepPos start pos .x)
  let ey ← passErr (c.channels .y) (e.stepPos start pos .y)
  return ⟨c, err, fun i => accMax (s.maxErr i) (match i with | .x => ex | .y => ey)⟩

/-- The loop of `approx_curve`, stepper_context.rs 411-462. -/
noncomputable def approxLoop (e : Env) (start : Vec) (curve : Curve) (v stepLen : ℝ) (t : ℕ) :
    ℕ → Approx → Option Approx
  | 0, s => some s
  | n + 1, s => do
    let s ← approxPass e start curve v (t * stepLen) s
    approxLoop e start curve v stepLen (t + 1) n s

/-- `approx_curve`, stepper_context.rs 400-464. -/
noncomputable def approxCurve (e : Env) (c : Ctx) (start : Vec) (curve : Curve) (v : ℝ) :
    Option (Ctx × (Axis → ℤ)) := do
  let steps := Draw.round (curve.length / v)
  let s ← approxLoop e start curve v (curve.length / steps) 1 (approxSteps curve v)
    ⟨c, fun _ => 0, fun _ => 0⟩
  return (s.ctx, s.maxErr)

/-- `goto_speed`, stepper_context.rs 359-366. -/
noncomputable def gotoSpeed (e : Env) (c : Ctx) (x y vx vy : ℝ) : Option Ctx := do
  let x ← e.toSteps x .x
  let y ← e.toSteps y .y
  let vx ← e.toStepV vx .x
  let vy ← e.toStepV vy .y
  stepGotoSpeed c x y vx vy

/-- `draw_curve`, stepper_context.rs 471-490. -/
noncomputable def drawCurve (e : Env) (c : Ctx) (start : Vec) (curve : Concat) (v : ℝ) :
    Option (Ctx × (Axis → ℤ)) :=
  if curve.isEmpty then some (c, fun _ => 0)
  else do
    let dir := ((e.concatInfo curve).value 0).2
    let vStart := dir * v
    let c ← c.addWeightChange c.moveWeight (c.channels .x).ticks
    let c ← gotoSpeed e c start.x start.y vStart.x vStart.y
    let c ← c.addWeightChange c.curveWeight (c.channels .x).ticks
    approxCurve e c start (e.concatInfo curve) v

/-- `let err = self.draw_curve(start, &mut curves, v)?; acc_max_err(&mut max_err, &err);` -/
noncomputable def flush (e : Env) (v : ℝ) (s : Pen) : Option Pen := do
  let (c, err) ← drawCurve e s.ctx s.start s.curves v
  return { s with ctx := c, maxErr := fun i => accMax (s.maxErr i) (err i), curves := [],
                  drawn := s.drawn ++ [(s.start, s.curves)] }

/-- `GoTo` in the loop of `draw_curves`, stepper_context.rs 512-522. -/
noncomputable def penGoTo (e : Env) (v : ℝ) (s : Pen) (p : Vec) : Option Pen := do
  if ← s.atMachine e p then return { s with skipped := s.skipped ++ [(p, s.current)] }
  let s ← flush e v s
  return { s with current := p, start := p, prevDir := none }

open Classical in
/-- A drawing segment in the loop of `draw_curves`, stepper_context.rs 527-551. -/
noncomputable def penAdd (e : Env) (v : ℝ) (s : Pen) (info : Curve) (next : Vec) : Option Pen := do
  let s ← if s.turns (info.value 0).2 then
      (flush e v s).map fun s => { s with start := s.current }
    else some s
  return { s with current := next, prevDir := some (info.value info.length).2,
                  curves := s.curves.add info }

open Classical in
/-- One pass of the loop of `draw_curves`, stepper_context.rs 509-552. -/
noncomputable def penStep (e : Env) (v : ℝ) (s : Pen) (seg : Seg) : Option Pen :=
  match seg with
  | .goTo p => penGoTo e v s p
  | .closeTo p2 =>
    if (s.current - p2).length < 1 / 1000000 then some { s with current := p2 }
    else do
      let (info, next) ← e.segInfo s.current (.closeTo p2)
      penAdd e v s info next
  | seg => do
    let (info, next) ← e.segInfo s.current seg
    penAdd e v s info next

/-- The loop of `draw_curves`, stepper_context.rs 508-561. -/
noncomputable def penRun (e : Env) (v : ℝ) : List Seg → Pen → Option Pen
  | [], s => some s
  | seg :: segs, s => do
    let s ← penStep e v s seg
    penRun e v segs s

/-- `draw_curves` up to the last weight change, stepper_context.rs 497-562. -/
noncomputable def drawPen (e : Env) (c : Ctx) (segs : List Seg) (v : ℝ) : Option Pen := do
  let s ← penRun e v segs (Pen.init e c)
  flush e v s

/-- `draw_curves`, stepper_context.rs 492-565. -/
noncomputable def drawCurves (e : Env) (c : Ctx) (segs : List Seg) (v : ℝ) :
    Option (Ctx × (Axis → ℤ)) :=
  if segs.isEmpty then some (c, fun _ => 0)
  else do
    let s ← drawPen e c segs v
    let c ← s.ctx.addWeightChange s.ctx.moveWeight (s.ctx.channels .x).ticks
    return (c, s.maxErr)

end StepperPaths.Checked
