import Verif.Model.Rust

/-!
Model of `/repo/src/acc_vector.rs`.
-/

namespace StepperPaths

/-- `struct AccSegment`, acc_vector.rs 4-10.  `interval` is a `u16`, `acc` an `i16`;
the constructors of the model keep them in range (`toU16`, `toI16`). -/
structure AccSegment where
  interval : Nat
  acc : Int
deriving DecidableEq, Repr

/-- `AccVector::acc_push`, acc_vector.rs 81-104.  `none`: `*interval += t` overflows `u16`. -/
def accPush (v : List AccSegment) (t : Nat) (a : Int) : Option (List AccSegment) :=
  if t = 0 then some v
  else
    match v.getLast? with
    | some s =>
      if s.acc = a then
        if s.interval + t < 65536 then some (v.dropLast ++ [⟨s.interval + t, s.acc⟩]) else none
      else some (v ++ [⟨t, a⟩])
    | none => some (v ++ [⟨t, a⟩])

/-- The loop of `AccVector::acc_distance`, acc_vector.rs 109-117, with the `i32`
overflow checks of a debug build on `v_next` and on `v + v_next`.  (The product
`a as i32 * i as i32` cannot overflow, the `i64` sum is unbounded here.) -/
def accDistanceFrom (s v : Int) : List AccSegment → Option (Int × Int)
  | [] => some (s, v)
  | seg :: rest => do
    let vNext ← toI32 (v + seg.acc * seg.interval)
    let sum ← toI32 (v + vNext)
    accDistanceFrom (s + sum * seg.interval) vNext rest

/-- `AccVector::acc_distance`, acc_vector.rs 106-119. -/
def accDistance (segs : List AccSegment) (v0 : Int) : Option (Int × Int) :=
  accDistanceFrom 0 v0 segs

/-- `struct AccIter`, acc_vector.rs 29-36. -/
structure AccIter where
  count : Nat
  acc : Int
  seg : List AccSegment
deriving DecidableEq, Repr

/-- `AccIter::next`, acc_vector.rs 43-55.  `none`: `self.count -= 1` underflows. -/
def AccIter.next (it : AccIter) : Option (Option Int × AccIter) :=
  if it.count = 0 then none
  else
    let count := it.count - 1
    if count = 0 then
      match it.seg with
      | s :: rest => some (some s.acc, ⟨s.interval, s.acc, rest⟩)
      | [] => some (none, ⟨count, it.acc, []⟩)
    else some (some it.acc, ⟨count, it.acc, it.seg⟩)

/-- `Iterator::collect` over an `AccIter`: call `next` until it returns `None`. -/
def AccIter.collect (it : AccIter) : Option (List Int) :=
  do
    let r ← it.next
    match r.1 with
    | none => some []
    | some a =>
      let l ← AccIter.collect r.2
      some (a :: l)
partial_fixpoint

/-- The search loop of `AccVector::acc_iter`, acc_vector.rs 63-78.  `none`: `u16`
overflow of `start + i` or of `end - t + 1`, or the final `panic!`. -/
def accIterFrom (start t : Nat) : List AccSegment → Option AccIter
  | [] => none
  | s :: rest => do
    let e ← toU16 (start + s.interval)
    if start ≤ t ∧ t < e then
      let c ← toU16 ((e : Int) - t + 1)
      return ⟨c, s.acc, rest⟩
    else accIterFrom e t rest

/-- `AccVector::acc_iter`, acc_vector.rs 60-79. -/
def accIter (segs : List AccSegment) (t : Nat) : Option AccIter := accIterFrom 0 t segs

end StepperPaths
