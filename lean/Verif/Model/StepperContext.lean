import Verif.Model.IntegerCurve

/-!
Model of the motion part of `/repo/src/stepper_context.rs`.

`N_CHANNELS` is 2; an index is an `Axis` and an array of channels is a function.
Positions are unbounded `Int` (the source uses `i64`), velocities are checked `i32`,
ticks are `Nat` (`u64`); an unsigned subtraction that would underflow is a panic,
`as u32` truncates.
-/

namespace StepperPaths.Context

open IntegerCurve

/-- A channel index, `X_INDEX` or `Y_INDEX`, stepper_context.rs 62-63. -/
inductive Axis
  | x
  | y
deriving DecidableEq, Repr

/-- `enum Command`, stepper_context.rs 50-53. -/
inductive Command
  | acc (channel : Axis) (a : Int)
  | weight (w : Int)
deriving DecidableEq, Repr

/-- `struct StepperEvent`, stepper_context.rs 56-59. -/
structure Event where
  ticks : Nat
  cmd : Command
deriving DecidableEq, Repr

/-- `struct ChannelContext`, stepper_context.rs 67-71. -/
structure Channel where
  pos : Int
  v : Int
  ticks : Nat
deriving DecidableEq, Repr

/-- `struct StepperContext`, stepper_context.rs 75-98, without the float fields
`step_scale`, `v_scale` and `min_cos_connect`. -/
structure Ctx where
  channels : Axis → Channel
  aMax : Axis → Int
  vMax : Axis → Int
  events : List Event
  eventTicks : Nat
  moveWeight : Int
  curveWeight : Int

/-- `StepperContext::new`, stepper_context.rs 164-187. -/
def Ctx.new (aMax vMax : Axis → Int) : Ctx :=
  ⟨fun _ => ⟨0, 0, 0⟩, aMax, vMax, [], 0, 0, 255⟩

/-- `(t - event_ticks) as u32`: checked `u64` subtraction, then truncation. -/
def tickDiff (t e : Nat) : Option Nat := if e ≤ t then some ((t - e) % 4294967296) else none

/-- `x as i32` for an unsigned `x`. -/
def asI32 (n : Nat) : Int :=
  let r := n % 4294967296
  if r < 2147483648 then r else (r : Int) - 4294967296

/-- `self.events.push(StepperEvent {ticks: (t - self.event_ticks) as u32, cmd});
self.event_ticks = t;` -/
def Ctx.push (c : Ctx) (t : Nat) (cmd : Command) : Option Ctx := do
  let d ← tickDiff t c.eventTicks
  return { c with events := c.events ++ [⟨d, cmd⟩], eventTicks := t }

/-- `self.channels[i] = ch` -/
def Ctx.setCh (c : Ctx) (i : Axis) (ch : Channel) : Ctx :=
  { c with channels := fun j => if j = i then ch else c.channels j }

/-- The loop body of `add_acc_interval`, stepper_context.rs 192-207. -/
def Ctx.addAccChannel (c : Ctx) (i : Axis) (acc : Int) (interval : Nat) : Option Ctx := do
  let ch := c.channels i
  let dv ← toI32 (asI32 interval * acc)
  let v ← toI32 (ch.v + dv)
  let c ← c.push ch.ticks (.acc i acc)
  return c.setCh i ⟨ch.pos + (2 * interval * ch.v + interval * interval * acc), v,
    ch.ticks + interval⟩

/-- `add_acc_interval`, stepper_context.rs 189-209. -/
def Ctx.addAccInterval (c : Ctx) (accX accY : Int) (interval : Nat) : Option Ctx := do
  cassert (interval ≥ 1)
  let c ← c.addAccChannel .x accX interval
  let c ← c.addAccChannel .y accY interval
  cassert ((c.channels .x).ticks = (c.channels .y).ticks)
  return c

/-- `add_weight_change`, stepper_context.rs 211-219. -/
def Ctx.addWeightChange (c : Ctx) (weight : Int) (w : Nat) : Option Ctx := do
  cassert (w ≥ (c.channels .x).ticks)
  cassert (w ≥ (c.channels .y).ticks)
  c.push w (.weight weight)

/-- Taking the next segment of one channel, stepper_context.rs 236-243. -/
def Ctx.takeSegment (c : Ctx) (i : Axis) (seg : AccSegment) : Option Ctx := do
  cassert ((c.channels i).ticks ≥ c.eventTicks)
  let c ← c.push (c.channels i).ticks (.acc i seg.acc)
  let ch := c.channels i
  return c.setCh i ⟨ch.pos, ch.v, ch.ticks + seg.interval⟩

/-- `acc_segs_to_events`, stepper_context.rs 221-249.  The search of lines 227-234 picks
the earlier of the channels that have a segment left, the first one when they are equal
(`u64::MAX` is never reached as a tick count). -/
def Ctx.accSegsToEvents (c : Ctx) (sx sy : List AccSegment) : Option Ctx :=
  match sx, sy with
  | [], [] => some c
  | a :: sx, [] => do
    let c ← c.takeSegment .x a
    c.accSegsToEvents sx []
  | [], b :: sy => do
    let c ← c.takeSegment .y b
    c.accSegsToEvents [] sy
  | a :: sx, b :: sy =>
    if (c.channels .y).ticks < (c.channels .x).ticks then do
      let c ← c.takeSegment .y b
      c.accSegsToEvents (a :: sx) sy
    else do
      let c ← c.takeSegment .x a
      c.accSegsToEvents sx (b :: sy)
termination_by sx.length + sy.length

/-- The `PathLimits` of one axis in `step_goto_speed`, stepper_context.rs 319-334. -/
def Ctx.limits (c : Ctx) (i : Axis) (target v : Int) : PathLimits :=
  ⟨target - (c.channels i).pos, (c.channels i).v, v, c.aMax i, c.vMax i⟩

/-- The position update of `step_goto_speed` for one axis, stepper_context.rs 338-343. -/
def Ctx.gotoChannel (c : Ctx) (i : Axis) (seq : List AccSegment) (vEnd : Int) : Option Ctx := do
  let ch := c.channels i
  let (s, v) ← accDistance seq ch.v
  cassert (v = vEnd)
  return c.setCh i ⟨ch.pos + s, ch.v, ch.ticks⟩

/-- The part of `step_goto_speed` after the sequences have been computed,
stepper_context.rs 337-347. -/
def Ctx.gotoFollow (c : Ctx) (sx sy : List AccSegment) (vx vy : Int) : Option Ctx := do
  let c ← c.gotoChannel .x sx vx
  let c ← c.gotoChannel .y sy vy
  let c := c.setCh .x { c.channels .x with v := vx }
  let c := c.setCh .y { c.channels .y with v := vy }
  let c ← c.accSegsToEvents sx sy
  cassert ((c.channels .x).ticks = (c.channels .y).ticks)
  return c

/-- `step_goto_speed`, stepper_context.rs 310-353. -/
def Ctx.stepGotoSpeed (c : Ctx) (x y vx vy : Int) : Option Ctx := do
  cassert (c.vMax .x ≥ vx)
  cassert (c.vMax .y ≥ vy)
  let c ← c.push (c.channels .x).ticks (.weight c.moveWeight)
  let seq ← shortestCurveSequences [c.limits .x x vx, c.limits .y y vy]
  match seq with
  | [sx, sy] => c.gotoFollow sx sy vx vy
  | _ => none

/-- `step_goto`, stepper_context.rs 355-357. -/
def Ctx.stepGoto (c : Ctx) (x y : Int) : Option Ctx := c.stepGotoSpeed x y 0 0

/-- `x as u16` of a non-negative number. -/
def asU16 (n : Nat) : Nat := n % 65536

/-- `x as i16` of an integer (two's complement truncation). -/
def asI16 (x : Int) : Int :=
  let r := x % 65536
  if r < 32768 then r else r - 65536

/-- The acceleration chosen by `speed`, stepper_context.rs 377-381. -/
def speedAcc (from_ to_ aMax : Int) : Option Int := if to_ ≥ from_ then some aMax else toI32 (-aMax)

/-- The loop body of `speed`, stepper_context.rs 375-395, for the velocity `v` already
converted to steps (`to_step_v`).  Returns the new channel and its segments. -/
def speedChannel (ch : Channel) (aMax v : Int) : Option (Channel × List AccSegment) := do
  let d ← toI32 (v - ch.v)
  let t ← cdiv d aMax
  let dt ← crem d aMax
  let a ← speedAcc ch.v v aMax
  let seg : AccSegment := ⟨asU16 t.natAbs, asI16 a⟩
  let v2 ← toI32 (2 * ch.v)
  let dv ← toI32 (aMax * t)
  let sum ← toI32 (v2 + dv)
  let ds ← toI32 (sum * |t|)
  let pos := ch.pos + ds
  if dt ≠ 0 then
    let vt ← toI32 (ch.v + dv)
    let ds ← toI32 (vt + v)
    return (⟨pos + ds, v, ch.ticks⟩, [seg, ⟨1, asI16 dt⟩])
  else return (⟨pos, v, ch.ticks⟩, [seg])

/-- `speed`, stepper_context.rs 372-398, with the velocities already converted. -/
def Ctx.speed (c : Ctx) (vx vy : Int) : Option Ctx := do
  let (chx, sx) ← speedChannel (c.channels .x) (c.aMax .x) vx
  let (chy, sy) ← speedChannel (c.channels .y) (c.aMax .y) vy
  let c := (c.setCh .x chx).setCh .y chy
  c.accSegsToEvents sx sy

/-- The speed limit in `approx_curve`, stepper_context.rs 446-450.  `acc` is the `i16`
computed with floats. -/
def limitSpeed (v vMax acc : Int) : Option Int :=
  if acc < 0 then do
    let s ← toI32 (v + acc)
    if s < -vMax then (toI32 (-vMax - v)).map asI16 else some acc
  else if acc > 0 then do
    let s ← toI32 (v + acc)
    if s > vMax then (toI32 (vMax - v)).map asI16 else some acc
  else some acc

/-- One pass of the loop of `approx_curve`, stepper_context.rs 411-462; `ax`, `ay`
are the accelerations from the float computation of line 443. -/
def Ctx.approxTick (c : Ctx) (ax ay : Int) : Option Ctx := do
  let ax ← limitSpeed (c.channels .x).v (c.vMax .x) ax
  let ay ← limitSpeed (c.channels .y).v (c.vMax .y) ay
  c.addAccInterval ax ay 1

/-- The loop of `approx_curve`, stepper_context.rs 411-462.  `request` stands for the
curve and the float computation: it may depend on the tick number and on everything the
context knows. -/
def Ctx.approxCurve (c : Ctx) (request : Nat → Ctx → Int × Int) (t : Nat) : Nat → Option Ctx
  | 0 => some c
  | n + 1 => do
    let r := request t c
    let c ← c.approxTick r.1 r.2
    c.approxCurve request (t + 1) n

/-- `set_weight`, stepper_context.rs 466-468. -/
def Ctx.setWeight (c : Ctx) (w : Int) : Ctx := { c with curveWeight := w }

/-- `position`, stepper_context.rs 567-569. -/
def Ctx.position (c : Ctx) : Int × Int := ((c.channels .x).pos, (c.channels .y).pos)

/-- `velocity`, stepper_context.rs 571-573. -/
def Ctx.velocity (c : Ctx) : Int × Int := ((c.channels .x).v, (c.channels .y).v)

/-- `ticks`, stepper_context.rs 575-578. -/
def Ctx.ticks (c : Ctx) : Option Nat := do
  cassert ((c.channels .x).ticks = (c.channels .y).ticks)
  return (c.channels .x).ticks

/-- `events`, stepper_context.rs 580-597.  The returned reference is the `events` field
of the new state. -/
def Ctx.readEvents (c : Ctx) : Option Ctx := do
  cassert ((c.channels .x).ticks = (c.channels .y).ticks)
  let c ← c.push (c.channels .x).ticks (.weight c.moveWeight)
  let c ← c.push (c.channels .x).ticks (.acc .x 0)
  c.push (c.channels .y).ticks (.acc .y 0)

/-- `reset`, stepper_context.rs 599-609. -/
def Ctx.reset (c : Ctx) : Ctx :=
  { c with channels := fun _ => ⟨0, 0, 0⟩, events := [], eventTicks := 0 }

end StepperPaths.Context
