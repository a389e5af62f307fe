import Verif.Model.IntegerCurve

/-!
`/repo/src/solve.rs` and `/repo/src/integer_curve.rs` once more, with every `i64` operation
checked as in a debug build: an overflow is a panic, `none`.  The operators with a question mark
work on results that may already be a panic.  `or`, `and`, `and_range`, `bounds` and `acc_push`
contain no `i64` arithmetic; they are shared with the unbounded model, and so are the `u16` and
`i16` conversions.
-/

namespace StepperPaths.Checked
open Solve IntegerCurve

/-- An `i64` result. -/
def ck (x : Int) : Option Int := if i64Min ≤ x ∧ x ≤ i64Max then some x else none

def add (x y : Option Int) : Option Int := x.bind fun a => y.bind fun b => ck (a + b)
def sub (x y : Option Int) : Option Int := x.bind fun a => y.bind fun b => ck (a - b)
def mul (x y : Option Int) : Option Int := x.bind fun a => y.bind fun b => ck (a * b)
/-- Panics for a zero divisor and for `i64::MIN / -1`. -/
def div (x y : Option Int) : Option Int := x.bind fun a => y.bind fun b => (cdiv a b).bind ck
/-- Panics for a zero divisor and for `i64::MIN % -1`. -/
def rem (x y : Option Int) : Option Int :=
  x.bind fun a => y.bind fun b => (cdiv a b).bind fun q => (ck q).bind fun _ => crem a b
def neg (x : Option Int) : Option Int := x.bind fun a => ck (-a)
def abs (x : Option Int) : Option Int := x.bind fun a => ck |a|

scoped infixl:65 " +? " => Checked.add
scoped infixl:65 " -? " => Checked.sub
scoped infixl:70 " *? " => Checked.mul
scoped infixl:70 " /? " => Checked.div
scoped infixl:70 " %? " => Checked.rem

scoped instance (n : Nat) : OfNat (Option Int) n := ⟨some n⟩

/-! ### solve.rs -/

/-- `sqpoly`, solve.rs 11-13. -/
def sqpoly (a b c x : Int) : Option Int := a *? x *? x +? b *? x -? c

/-- The `loop` of `find_root`, solve.rs 33-53. -/
def findRootLoop (a b c minx maxx miny maxy : Int) : Option Int :=
  if miny = 0 then some minx
  else if maxy = 0 then some maxx
  else do
    let d ← maxx -? minx
    if d ≤ 1 then (if maxy ≥ 0 then some maxx else some minx)
    else
      let midx ← (minx +? maxx) /? 2
      let midy ← sqpoly a b c midx
      if sameSign maxy midy then findRootLoop a b c minx midx miny midy
      else findRootLoop a b c midx maxx midy maxy
partial_fixpoint

/-- `find_root`, solve.rs 18-54; the outer `Option` is a panic. -/
def findRoot (a b c min max : Int) : Option (Option Int) := do
  let miny ← sqpoly a b c min
  let maxy ← sqpoly a b c max
  if miny = 0 then some (some min)
  else if maxy = 0 then some (some max)
  else if sameSign miny maxy then some none
  else do
    let x ← findRootLoop a b c min max miny maxy
    some (some x)

/-- The search for a limit, solve.rs 82-84 and integer_curve.rs 306-308. -/
def growLimit (a b c xmin limit : Int) : Option Int := do
  let x ← xmin +? limit
  let y ← sqpoly a b c x
  if y ≤ 0 then
    let limit ← limit *? 2
    growLimit a b c xmin limit
  else some limit
partial_fixpoint

/-! ### integer_curve.rs -/

/-- `div_rem_away`, integer_curve.rs 352-360. -/
def divRemAway (a b : Int) : Option (Int × Int) := do
  cassert (b > 0)
  let q1 ← a /? b
  let r1 ← a %? b
  if r1 = 0 then return (q1, r1)
  else if r1 > 0 then
    let q ← q1 +? 1
    let r ← r1 -? b
    return (q, r)
  else
    let q ← q1 -? 1
    let r ← r1 +? b
    return (q, r)

/-- `path_distance`, integer_curve.rs 362-371. -/
def pathDistance (v0 vn vflat a t : Int) : Option Int := do
  let d1 ← vflat -? v0
  let (t1, dv1) ← divRemAway d1 a
  let d4 ← vflat -? vn
  let (t4, dv4) ← divRemAway d4 a
  let t1 ← abs t1
  let t4 ← abs t4
  (vflat -? dv1 +? v0) *? t1 +? dv1 +? 2 *? vflat *? (t -? t1 -? t4) +? dv4 +? (vflat -? dv4 +? vn) *? t4

/-- `DistancePath::distance`, integer_curve.rs 139-141. -/
def distance (p : DistancePath) : Option Int :=
  pathDistance p.v0 p.vn p.vflat p.amax p.tTotal +? 2 *? p.tAdjust

/-- integer_curve.rs 156-193. -/
def stepChoice (p : DistancePath) : Option (Int × Int × Int) :=
  if p.tAdjust > 0 then
    if p.vn > p.vflat then do
      let e ← p.vflat +? 1
      let s ← neg p.tAdjust
      let r ← (e -? p.vn) %? p.amax
      let s' ← if r = 0 then s -? 1 else some s
      return (p.vflat, e, s')
    else do
      cassert (p.v0 > p.vflat)
      let e ← p.vflat +? 1
      let r ← (e -? p.v0) %? p.amax
      let s' ← if r = 0 then p.tAdjust +? 1 else some p.tAdjust
      return (e, p.vflat, s')
  else if p.tAdjust < 0 then
    if p.vn < p.vflat then do
      let e ← p.vflat -? 1
      let r ← (e -? p.vn) %? p.amax
      let s' ← if r = 0 then p.tAdjust -? 1 else some p.tAdjust
      return (p.vflat, e, s')
    else do
      cassert (p.v0 < p.vflat)
      let e ← p.vflat -? 1
      let s ← neg p.tAdjust
      let r ← (e -? p.v0) %? p.amax
      let s' ← if r = 0 then s +? 1 else some s
      return (e, p.vflat, s')
  else some (p.vflat, p.vflat, 0)

/-- `s.acc_push(u16::try_from(t).unwrap(), i16::try_from(a).unwrap())` -/
def pushI (s : List AccSegment) (t a : Option Int) : Option (List AccSegment) := do
  let t ← t
  let t ← toU16 t
  let a ← a
  let a ← toI16 a
  accPush s t a

/-- integer_curve.rs 207-215. -/
def pushUp (s : List AccSegment) (v0 vs a1 t1 dv1 : Int) : Option (List AccSegment) :=
  if dv1 = 0 then pushI s t1 a1
  else do
    let s ← pushI s (t1 -? 1) a1
    pushI s 1 (vs -? (a1 *? (t1 -? 1) +? v0))

/-- integer_curve.rs 218-232. -/
def pushFlat (s : List AccSegment) (vs ve tFlat tStep : Int) : Option (List AccSegment) :=
  if tStep > 0 then do
    let s ← pushI s (tStep -? 1) 0
    let s ← pushI s 1 (ve -? vs)
    pushI s (tFlat -? tStep) 0
  else if tStep < 0 then do
    let s ← pushI s (tFlat +? tStep) 0
    let s ← pushI s 1 (ve -? vs)
    pushI s (neg tStep -? 1) 0
  else pushI s tFlat 0

/-- integer_curve.rs 234-242. -/
def pushDown (s : List AccSegment) (vn ve a4 t4 dv4 : Int) : Option (List AccSegment) :=
  if dv4 = 0 then pushI s t4 a4
  else do
    let s ← pushI s 1 ((vn -? a4 *? (t4 -? 1)) -? ve)
    pushI s (t4 -? 1) a4

/-- integer_curve.rs 199-200. -/
def signed (up : Prop) [Decidable up] (a : Int) : Option Int := if up then some a else neg a

/-- `DistancePath::acc_seq`, integer_curve.rs 144-244. -/
def accSeq (p : DistancePath) : Option (List AccSegment) := do
  let a := p.amax
  if p.tTotal ≤ 1 then
    if p.tTotal = 0 then
      cassert (p.v0 = p.vn)
      return []
    else
      let d ← p.v0 -? p.vn
      cassert (d ≤ a)
      pushI [] 1 (p.vn -? p.v0)
  else
    let (vs, ve, tStep) ← stepChoice p
    let d1 ← vs -? p.v0
    let (t1, dv1) ← divRemAway d1 a
    let d4 ← ve -? p.vn
    let (t4, dv4) ← divRemAway d4 a
    let t1 ← abs t1
    let t4 ← abs t4
    let a1 ← signed (vs ≥ p.v0) a
    let a4 ← signed (ve ≤ p.vn) a
    let t14 ← t1 +? t4
    cassert (p.tTotal ≥ t14)
    let tFlat ← p.tTotal -? t1 -? t4
    let s ← pushUp [] p.v0 vs a1 t1 dv1
    cassert (p.tAdjust ≤ tFlat)
    let s ← pushFlat s vs ve tFlat tStep
    pushDown s p.vn ve a4 t4 dv4

/-- integer_curve.rs 291-297. -/
def roundSpeed (v0 vn a : Int) : Option Int := do
  let u ← v0 +? vn
  if u ≥ 0 then neg ((2 *? (v0 +? vn) +? a) /? (2 *? a))
  else (neg 2 *? (v0 +? vn) +? a) /? (2 *? a)

/-- integer_curve.rs 311-323. -/
def gapRange (tmin : Int) : Option Int → Option Int → Option (MultiRange Int)
  | some mn, some mx => IntegerCurve.gapRange tmin (some mn) (some mx)
  | _, _ => none

/-- integer_curve.rs 272-276. -/
def minTime (v0 vn a : Int) : Option Int :=
  if v0 ≠ vn then (abs (v0 -? vn) +? a -? 1) /? a else some 1

/-- `max_acceleration_curve`, integer_curve.rs 270-324. -/
def maxAccelerationCurve (ds v0 vn a : Int) : Option (MultiRange Int) := do
  let tmin ← minTime v0 vn a
  let cx2 ← a *? a
  let cx ← 2 *? a *? (v0 +? vn)
  let c ← (v0 -? vn) *? (v0 -? vn) +? a *? (a +? 2 *? ds)
  let s ← c +? (v0 +? vn) *? (v0 +? vn)
  if s < 0 then return MultiRange.range tmin i64Max
  let xmin ← roundSpeed v0 vn a
  let ymin ← sqpoly cx2 cx c xmin
  if ymin ≥ 0 then return MultiRange.range tmin i64Max
  let limit ← growLimit cx2 cx c xmin 16
  let limit ← limit +? 1
  let lo ← xmin -? limit
  let r1 ← findRoot cx2 cx c lo xmin
  let hi ← xmin +? limit
  let r2 ← findRoot cx2 cx c xmin hi
  gapRange tmin r1 r2

/-- `speed_limited_curve`, integer_curve.rs 337-347. -/
def speedLimitedCurve (ds v0 vn a vmax : Int) : Option (MultiRange Int) := do
  let n1 ← vmax -? v0 +? a -? 1
  cassert (a ≠ 0)
  let t1 ← ck (Int.fdiv n1 a)
  let dv1 ← ck (Int.fmod n1 a)
  let n4 ← vmax -? vn +? a -? 1
  let t4 ← ck (Int.fdiv n4 a)
  let dv4 ← ck (Int.fmod n4 a)
  let s0 ← (2 *? v0 +? t1 *? a) *? t1 +? (dv1 -? (a -? 1)) +? (2 *? vn +? t4 *? a) *? t4 +? (dv4 -? (a -? 1))
  if ds ≥ s0 then
    let q ← (ds -? s0 +? 2 *? vmax -? 1) /? (2 *? vmax)
    let t ← t1 +? t4 +? q
    (MultiRange.new : MultiRange Int).or t i64Max
  else return MultiRange.new

/-- integer_curve.rs 376-430. -/
def midFlat (tTotal ds vLow vHigh a : Int) : Option (Option (Int × Int)) := do
  let tAcc ← (vHigh -? vLow -? 1) /? a
  let k ← 2 *? (vLow -? vHigh +? a *? tTotal)
  let m ← vLow -? vHigh +? a *? tAcc +? 2 *? (vHigh -? a *? tAcc) *? tTotal +? a *? tAcc *? tAcc
  if k = 0 then
    let v ← vLow +? a
    return some (v, 0)
  let smax ← k *? tAcc +? m
  let smin ← (2 *? vHigh -? tAcc *? a) *? tAcc +? vHigh -? tAcc *? a +? vLow
    +? 2 *? vLow *? (tTotal -? tAcc -? 1)
  if smax < ds ∨ smin > ds then return none
  cassert (k > 0)
  let n ← ds -? m +? k
  cassert (n ≥ 0)
  let t ← (ds -? m +? k) /? k
  let sHigh ← k *? t +? m
  let sSplit ← (2 *? vLow +? a *? t) *? t +? 2 *? (vLow +? a *? t) *? (tTotal -? tAcc -? 1)
    +? vHigh -? (tAcc -? t) *? a +? vLow +? t *? a +? (2 *? vHigh -? (tAcc -? t) *? a) *? (tAcc -? t)
  if ds ≥ sSplit then
    let vMax ← vHigh -? a *? (tAcc -? t)
    let q ← (sHigh -? ds) /? (2 *? (tTotal -? tAcc -? 1))
    let vFlat ← vMax -? q
    let s ← sHigh -? 2 *? (vMax -? vFlat) *? (tTotal -? tAcc -? 1)
    let adj ← (ds -? s) /? 2
    return some (vFlat, adj)
  else
    let vMin ← vLow +? a *? t
    let q ← (sSplit -? ds) /? (2 *? (tTotal -? tAcc))
    let vFlat ← vMin -? q
    let s ← sSplit -? 2 *? (vMin -? vFlat) *? (tTotal -? tAcc)
    let adj ← (ds -? s) /? 2
    return some (vFlat, adj)

/-- `adjust_curve_mid`, integer_curve.rs 374-431. -/
def adjustCurveMid (tTotal ds v0 vn a : Int) : Option (Option DistancePath) := do
  let vLow := if v0 ≤ vn then v0 else vn
  let vHigh := if v0 ≤ vn then vn else v0
  let r ← midFlat tTotal ds vLow vHigh a
  return r.map (fun x => ⟨v0, vn, a, x.1, tTotal, x.2⟩)

/-- integer_curve.rs 485-499. -/
def searchFlat (tTotal ds v0 vn a mn mx smin smax : Int) : Option (Int × Int × Int × Int) := do
  let d ← mx -? mn
  if d ≤ 1 then some (mn, mx, smin, smax)
  else
    let mid ← (mx +? mn) /? 2
    let s ← pathDistance v0 vn mid a tTotal
    if s ≥ ds then searchFlat tTotal ds v0 vn a mn mid smin s
    else searchFlat tTotal ds v0 vn a mid mx s smax
partial_fixpoint

/-- integer_curve.rs 500-512. -/
def pickFlat (ds v0 vn mn mx smin smax : Int) : Option (Int × Int) :=
  if smax = ds then some (mx, 0)
  else if smin = ds then some (mn, 0)
  else if v0 > mn ∨ vn > mn then do
    let t ← (ds -? smin) /? 2
    return (mn, t)
  else do
    let t ← (ds -? smax) /? 2
    return (mx, t)

/-- integer_curve.rs 465-471. -/
def peakVel (v0 vn a tmidLow tmidHigh : Int) : Option Int :=
  if tmidHigh = 0 then v0 +? tmidLow *? a
  else if tmidLow = 0 then vn +? tmidHigh *? a
  else do
    let x ← v0 +? tmidLow *? a
    let y ← vn +? tmidHigh *? a
    return max x y

/-- integer_curve.rs 472-478. -/
def valleyVel (v0 vn a tmidLow tmidHigh : Int) : Option Int :=
  if tmidHigh = 0 then vn +? tmidLow *? neg a
  else if tmidLow = 0 then v0 +? tmidHigh *? neg a
  else do
    let x ← v0 +? tmidHigh *? neg a
    let y ← vn +? tmidLow *? neg a
    return min x y

/-- `adjust_curve`, integer_curve.rs 433-522. -/
def adjustCurve (tTotal ds v0 vn a : Int) : Option DistancePath := do
  if tTotal = 1 then
    let s ← v0 +? vn
    let d ← abs (s -? ds)
    cassert (d ≤ 1)
    return ⟨v0, vn, a, v0, 1, 0⟩
  match ← adjustCurveMid tTotal ds v0 vn a with
  | some path => return path
  | none =>
    let tmidLow ← (tTotal *? a -? (v0 -? vn)) /? (2 *? a)
    let tmidHigh ← (tTotal *? a -? (vn -? v0)) /? (2 *? a)
    let sum ← tmidLow +? tmidHigh
    cassert (sum ≤ tTotal)
    let t' ← tTotal -? 1
    cassert (sum ≥ t')
    let mx ← peakVel v0 vn a tmidLow tmidHigh
    let mn ← valleyVel v0 vn a tmidLow tmidHigh
    cassert (mx ≥ mn)
    let smax ← pathDistance v0 vn mx a tTotal
    let smin ← pathDistance v0 vn mn a tTotal
    cassert (smax ≥ ds)
    cassert (smin ≤ ds)
    let (mn, mx, smin, smax) ← searchFlat tTotal ds v0 vn a mn mx smin smax
    let (vflat, tAdjust) ← pickFlat ds v0 vn mn mx smin smax
    return ⟨v0, vn, a, vflat, tTotal, tAdjust⟩

/-- integer_curve.rs 535-538 and 539-542. -/
def sideLengths (ds v0 vn a vmax : Int) : Option (MultiRange Int) := do
  let r ← speedLimitedCurve ds v0 vn a vmax
  if r.isEmpty then maxAccelerationCurve ds v0 vn a else return r

/-- `shortest_curve_length`, integer_curve.rs 534-544. -/
def shortestCurveLength (ds v0 vn a vmax : Int) : Option (MultiRange Int) := do
  let pos ← sideLengths ds v0 vn a vmax
  let ds' ← neg ds
  let v0' ← neg v0
  let vn' ← neg vn
  let neg ← sideLengths ds' v0' vn' a vmax
  return pos.andRange neg

/-- `shortest_curve`, integer_curve.rs 557-560. -/
def shortestCurve (ds v0 vn a vmax : Int) : Option DistancePath := do
  let r ← shortestCurveLength ds v0 vn a vmax
  let (t, _) ← r.bounds
  adjustCurve t ds v0 vn a

/-- integer_curve.rs 590-600. -/
def commonLengths (r : MultiRange Int) : List PathLimits → Option (MultiRange Int)
  | [] => some r
  | l :: ls => do
    let m ← shortestCurveLength l.ds l.v0 l.vn l.a l.vmax
    commonLengths (r.andRange m) ls

/-- `shortest_curve_sequences`, integer_curve.rs 589-608. -/
def shortestCurveSequences (limits : List PathLimits) : Option (List (List AccSegment)) := do
  let r ← (MultiRange.new : MultiRange Int).or i64Min i64Max
  let r ← commonLengths r limits
  let (t, _) ← r.bounds
  limits.mapM (fun l => do
    let path ← adjustCurve t l.ds l.v0 l.vn l.a
    accSeq path)

end StepperPaths.Checked
