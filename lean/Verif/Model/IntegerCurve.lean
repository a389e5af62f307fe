import Verif.Model.Rust
import Verif.Model.MultiRange
import Verif.Model.Solve
import Verif.Model.AccVector
import Mathlib.Algebra.Order.Ring.Int

/-!
Model of `/repo/src/integer_curve.rs`.  `i64` is unbounded `Int`; every other way
to panic (`assert!`, `unwrap`, `try_from`, division by zero, the explicit `panic!`)
is `none`, and so is an endless loop.
-/

namespace StepperPaths.IntegerCurve

open Solve

/-- `struct DistancePath`, integer_curve.rs 35-51. -/
structure DistancePath where
  v0 : Int
  vn : Int
  amax : Int
  vflat : Int
  tTotal : Int
  tAdjust : Int
deriving DecidableEq, Repr

/-- `split_acc`, integer_curve.rs 61-73. -/
def splitAcc (vDiff maxAcc : Int) : Option (Int × Int) :=
  if vDiff > 0 then do
    let q ← cdiv (vDiff - 1) maxAcc
    let r ← crem (vDiff - 1) maxAcc
    return (|q|, r + 1)
  else if vDiff < 0 then do
    let q ← cdiv (vDiff + 1) maxAcc
    let r ← crem (vDiff + 1) maxAcc
    return (|q|, r - 1)
  else some (0, 0)

/-- `div_rem_away`, integer_curve.rs 352-360. -/
def divRemAway (a b : Int) : Option (Int × Int) := do
  cassert (b > 0)
  let q1 := Int.tdiv a b
  let r1 := Int.tmod a b
  if r1 = 0 then return (q1, r1)
  else if r1 > 0 then return (q1 + 1, r1 - b)
  else return (q1 - 1, r1 + b)

/-- `path_distance`, integer_curve.rs 362-371. -/
def pathDistance (v0 vn vflat a t : Int) : Option Int := do
  let (t1, dv1) ← divRemAway (vflat - v0) a
  let (t4, dv4) ← divRemAway (vflat - vn) a
  let t1 := |t1|
  let t4 := |t4|
  return (vflat - dv1 + v0) * t1 + dv1 + 2 * vflat * (t - t1 - t4) + dv4 + (vflat - dv4 + vn) * t4

/-- `DistancePath::distance`, integer_curve.rs 139-141. -/
def DistancePath.distance (p : DistancePath) : Option Int := do
  let d ← pathDistance p.v0 p.vn p.vflat p.amax p.tTotal
  return d + 2 * p.tAdjust

/-- `s.acc_push(u16::try_from(t).unwrap(), i16::try_from(a).unwrap())`. -/
def pushI (s : List AccSegment) (t a : Int) : Option (List AccSegment) := do
  let t ← toU16 t
  let a ← toI16 a
  accPush s t a

/-- The choice of `vflat_start`, `vflat_end` and `t_step` in `acc_seq`,
integer_curve.rs 156-193. -/
def stepChoice (p : DistancePath) : Option (Int × Int × Int) :=
  if p.tAdjust > 0 then
    if p.vn > p.vflat then do
      let r ← crem (p.vflat + 1 - p.vn) p.amax
      return (p.vflat, p.vflat + 1, if r = 0 then -p.tAdjust - 1 else -p.tAdjust)
    else do
      cassert (p.v0 > p.vflat)
      let r ← crem (p.vflat + 1 - p.v0) p.amax
      return (p.vflat + 1, p.vflat, if r = 0 then p.tAdjust + 1 else p.tAdjust)
  else if p.tAdjust < 0 then
    if p.vn < p.vflat then do
      let r ← crem (p.vflat - 1 - p.vn) p.amax
      return (p.vflat, p.vflat - 1, if r = 0 then p.tAdjust - 1 else p.tAdjust)
    else do
      cassert (p.v0 < p.vflat)
      let r ← crem (p.vflat - 1 - p.v0) p.amax
      return (p.vflat - 1, p.vflat, if r = 0 then -p.tAdjust + 1 else -p.tAdjust)
  else some (p.vflat, p.vflat, 0)

/-- The ramp before the flat part, integer_curve.rs 207-215. -/
def pushUp (s : List AccSegment) (v0 vs a1 t1 dv1 : Int) : Option (List AccSegment) :=
  if dv1 = 0 then pushI s t1 a1
  else do
    let s ← pushI s (t1 - 1) a1
    pushI s 1 (vs - (a1 * (t1 - 1) + v0))

/-- The flat part with its step, integer_curve.rs 218-232. -/
def pushFlat (s : List AccSegment) (vs ve tFlat tStep : Int) : Option (List AccSegment) :=
  if tStep > 0 then do
    let s ← pushI s (tStep - 1) 0
    let s ← pushI s 1 (ve - vs)
    pushI s (tFlat - tStep) 0
  else if tStep < 0 then do
    let s ← pushI s (tFlat + tStep) 0
    let s ← pushI s 1 (ve - vs)
    pushI s (-tStep - 1) 0
  else pushI s tFlat 0

/-- The ramp after the flat part, integer_curve.rs 234-242. -/
def pushDown (s : List AccSegment) (vn ve a4 t4 dv4 : Int) : Option (List AccSegment) :=
  if dv4 = 0 then pushI s t4 a4
  else do
    let s ← pushI s 1 ((vn - a4 * (t4 - 1)) - ve)
    pushI s (t4 - 1) a4

/-- `DistancePath::acc_seq`, integer_curve.rs 144-244. -/
def DistancePath.accSeq (p : DistancePath) : Option (List AccSegment) := do
  let a := p.amax
  if p.tTotal ≤ 1 then
    if p.tTotal = 0 then
      cassert (p.v0 = p.vn)
      return []
    else
      cassert (p.v0 - p.vn ≤ a)
      pushI [] 1 (p.vn - p.v0)
  else
    let (vs, ve, tStep) ← stepChoice p
    let (t1, dv1) ← divRemAway (vs - p.v0) a
    let (t4, dv4) ← divRemAway (ve - p.vn) a
    let t1 := |t1|
    let t4 := |t4|
    let a1 := if vs ≥ p.v0 then a else -a
    let a4 := if ve ≤ p.vn then a else -a
    cassert (p.tTotal ≥ t1 + t4)
    let tFlat := p.tTotal - t1 - t4
    let s ← pushUp [] p.v0 vs a1 t1 dv1
    cassert (p.tAdjust ≤ tFlat)
    let s ← pushFlat s vs ve tFlat tStep
    pushDown s p.vn ve a4 t4 dv4

/-- `-(v0 + vn) / a` rounded to the nearest integer, integer_curve.rs 291-297. -/
def roundSpeed (v0 vn a : Int) : Option Int :=
  if v0 + vn ≥ 0 then (cdiv (2 * (v0 + vn) + a) (2 * a)).map (fun q => -q)
  else cdiv (-2 * (v0 + vn) + a) (2 * a)

/-- The final `match` of `max_acceleration_curve`, integer_curve.rs 311-323. -/
def gapRange (tmin : Int) : Option Int → Option Int → Option (MultiRange Int)
  | some mn, some mx => do
    let r ← (MultiRange.new : MultiRange Int).or i64Min mn
    let r ← r.or mx i64Max
    return r.and tmin i64Max
  | _, _ => none

/-- `t_min` in `max_acceleration_curve`, integer_curve.rs 272-276. -/
def minTime (v0 vn a : Int) : Option Int :=
  if v0 ≠ vn then cdiv (|v0 - vn| + a - 1) a else some 1

/-- `max_acceleration_curve`, integer_curve.rs 270-324. -/
def maxAccelerationCurve (ds v0 vn a : Int) : Option (MultiRange Int) := do
  let tmin ← minTime v0 vn a
  let cx2 := a * a
  let cx := 2 * a * (v0 + vn)
  let c := (v0 - vn) * (v0 - vn) + a * (a + 2 * ds)
  let s := c + (v0 + vn) * (v0 + vn)
  if s < 0 then return MultiRange.range tmin i64Max
  let xmin ← roundSpeed v0 vn a
  let ymin := sqpoly cx2 cx c xmin
  if ymin ≥ 0 then return MultiRange.range tmin i64Max
  let limit ← growLimit cx2 cx c xmin 16
  let limit := limit + 1
  gapRange tmin (findRoot cx2 cx c (xmin - limit) xmin) (findRoot cx2 cx c xmin (xmin + limit))

/-- `speed_limited_curve`, integer_curve.rs 337-347. -/
def speedLimitedCurve (ds v0 vn a vmax : Int) : Option (MultiRange Int) := do
  cassert (a ≠ 0)
  let t1 := Int.fdiv (vmax - v0 + a - 1) a
  let dv1 := Int.fmod (vmax - v0 + a - 1) a
  let t4 := Int.fdiv (vmax - vn + a - 1) a
  let dv4 := Int.fmod (vmax - vn + a - 1) a
  let s0 := (2 * v0 + t1 * a) * t1 + (dv1 - (a - 1)) + (2 * vn + t4 * a) * t4 + (dv4 - (a - 1))
  if ds ≥ s0 then
    let q ← cdiv (ds - s0 + 2 * vmax - 1) (2 * vmax)
    (MultiRange.new : MultiRange Int).or (t1 + t4 + q) i64Max
  else return MultiRange.new

/-- The body of `adjust_curve_mid` after sorting the velocities, integer_curve.rs
376-430.  The outer `Option` is a panic; the result is `(vflat, t_adjust)`, the
other fields of the returned path are the arguments. -/
def midFlat (tTotal ds vLow vHigh a : Int) : Option (Option (Int × Int)) := do
  let tAcc ← cdiv (vHigh - vLow - 1) a
  let k := 2 * (vLow - vHigh + a * tTotal)
  let m := vLow - vHigh + a * tAcc + 2 * (vHigh - a * tAcc) * tTotal + a * tAcc * tAcc
  if k = 0 then return some (vLow + a, 0)
  let smax := k * tAcc + m
  let smin := (2 * vHigh - tAcc * a) * tAcc + vHigh - tAcc * a + vLow
    + 2 * vLow * (tTotal - tAcc - 1)
  if smax < ds ∨ smin > ds then return none
  cassert (k > 0)
  cassert (ds - m + k ≥ 0)
  let t ← cdiv (ds - m + k) k
  let sHigh := k * t + m
  let sSplit := (2 * vLow + a * t) * t + 2 * (vLow + a * t) * (tTotal - tAcc - 1)
    + vHigh - (tAcc - t) * a + vLow + t * a + (2 * vHigh - (tAcc - t) * a) * (tAcc - t)
  if ds ≥ sSplit then
    let vMax := vHigh - a * (tAcc - t)
    let q ← cdiv (sHigh - ds) (2 * (tTotal - tAcc - 1))
    let vFlat := vMax - q
    let s := sHigh - 2 * (vMax - vFlat) * (tTotal - tAcc - 1)
    return some (vFlat, Int.tdiv (ds - s) 2)
  else
    let vMin := vLow + a * t
    let q ← cdiv (sSplit - ds) (2 * (tTotal - tAcc))
    let vFlat := vMin - q
    let s := sSplit - 2 * (vMin - vFlat) * (tTotal - tAcc)
    return some (vFlat, Int.tdiv (ds - s) 2)

/-- `adjust_curve_mid`, integer_curve.rs 374-431.  The outer `Option` is a panic. -/
def adjustCurveMid (tTotal ds v0 vn a : Int) : Option (Option DistancePath) := do
  let vLow := if v0 ≤ vn then v0 else vn
  let vHigh := if v0 ≤ vn then vn else v0
  let r ← midFlat tTotal ds vLow vHigh a
  return r.map (fun x => ⟨v0, vn, a, x.1, tTotal, x.2⟩)

/-- The binary search of `adjust_curve`, integer_curve.rs 485-499.  Returns
`(min, max, smin, smax)`. -/
def searchFlat (tTotal ds v0 vn a mn mx smin smax : Int) : Option (Int × Int × Int × Int) :=
  if mx - mn ≤ 1 then some (mn, mx, smin, smax)
  else do
    let mid := Int.tdiv (mx + mn) 2
    let s ← pathDistance v0 vn mid a tTotal
    if s ≥ ds then searchFlat tTotal ds v0 vn a mn mid smin s
    else searchFlat tTotal ds v0 vn a mid mx s smax
partial_fixpoint

/-- The selection after the search, integer_curve.rs 500-512: `(vflat, t_adjust)`. -/
def pickFlat (ds v0 vn mn mx smin smax : Int) : Int × Int :=
  if smax = ds then (mx, 0)
  else if smin = ds then (mn, 0)
  else if v0 > mn ∨ vn > mn then (mn, Int.tdiv (ds - smin) 2)
  else (mx, Int.tdiv (ds - smax) 2)

/-- The initial `max` of `adjust_curve`, integer_curve.rs 465-471. -/
def peakVel (v0 vn a tmidLow tmidHigh : Int) : Int :=
  if tmidHigh = 0 then v0 + tmidLow * a
  else if tmidLow = 0 then vn + tmidHigh * a
  else max (v0 + tmidLow * a) (vn + tmidHigh * a)

/-- The initial `min` of `adjust_curve`, integer_curve.rs 472-478. -/
def valleyVel (v0 vn a tmidLow tmidHigh : Int) : Int :=
  if tmidHigh = 0 then vn + tmidLow * -a
  else if tmidLow = 0 then v0 + tmidHigh * -a
  else min (v0 + tmidHigh * -a) (vn + tmidLow * -a)

/-- `adjust_curve`, integer_curve.rs 433-522. -/
def adjustCurve (tTotal ds v0 vn a : Int) : Option DistancePath := do
  if tTotal = 1 then
    cassert (|v0 + vn - ds| ≤ 1)
    return ⟨v0, vn, a, v0, 1, 0⟩
  match ← adjustCurveMid tTotal ds v0 vn a with
  | some path => return path
  | none =>
    let tmidLow ← cdiv (tTotal * a - (v0 - vn)) (2 * a)
    let tmidHigh ← cdiv (tTotal * a - (vn - v0)) (2 * a)
    cassert (tmidLow + tmidHigh ≤ tTotal)
    cassert (tmidLow + tmidHigh ≥ tTotal - 1)
    let mx := peakVel v0 vn a tmidLow tmidHigh
    let mn := valleyVel v0 vn a tmidLow tmidHigh
    cassert (mx ≥ mn)
    let smax ← pathDistance v0 vn mx a tTotal
    let smin ← pathDistance v0 vn mn a tTotal
    cassert (smax ≥ ds)
    cassert (smin ≤ ds)
    let (mn, mx, smin, smax) ← searchFlat tTotal ds v0 vn a mn mx smin smax
    let (vflat, tAdjust) := pickFlat ds v0 vn mn mx smin smax
    return ⟨v0, vn, a, vflat, tTotal, tAdjust⟩

/-- One half of `shortest_curve_length`, integer_curve.rs 535-538 and 539-542. -/
def sideLengths (ds v0 vn a vmax : Int) : Option (MultiRange Int) := do
  let r ← speedLimitedCurve ds v0 vn a vmax
  if r.isEmpty then maxAccelerationCurve ds v0 vn a else return r

/-- `shortest_curve_length`, integer_curve.rs 534-544. -/
def shortestCurveLength (ds v0 vn a vmax : Int) : Option (MultiRange Int) := do
  let pos ← sideLengths ds v0 vn a vmax
  let neg ← sideLengths (-ds) (-v0) (-vn) a vmax
  return pos.andRange neg

/-- `shortest_curve`, integer_curve.rs 557-560. -/
def shortestCurve (ds v0 vn a vmax : Int) : Option DistancePath := do
  let r ← shortestCurveLength ds v0 vn a vmax
  let (t, _) ← r.bounds
  adjustCurve t ds v0 vn a

/-- `struct PathLimits`, integer_curve.rs 564-575. -/
structure PathLimits where
  ds : Int
  v0 : Int
  vn : Int
  a : Int
  vmax : Int
deriving DecidableEq, Repr

/-- The first loop of `shortest_curve_sequences`, integer_curve.rs 590-600. -/
def commonLengths (r : MultiRange Int) : List PathLimits → Option (MultiRange Int)
  | [] => some r
  | l :: ls => do
    let m ← shortestCurveLength l.ds l.v0 l.vn l.a l.vmax
    commonLengths (r.andRange m) ls

/-- `shortest_curve_sequences`, integer_curve.rs 589-608. -/
def shortestCurveSequences (limits : List PathLimits) : Option (List (List AccSegment)) := do
  let r ← (MultiRange.new : MultiRange Int).or i64Min i64Max
  let r ← commonLengths r limits
  let (t, _) ← r.bounds
  limits.mapM (fun l => do
    let path ← adjustCurve t l.ds l.v0 l.vn l.a
    path.accSeq)

end StepperPaths.IntegerCurve
