import Mathlib.Order.Defs.LinearOrder

/-!
Model of `/repo/src/multi_range.rs`.

A `MultiRange<T>` is its `ranges` vector (lines 34-38), here a list of
`(low, high)` pairs.  The Rust type only asks for `PartialOrd`; the model uses a
linear order (so `f64` NaNs are excluded).
-/

namespace StepperPaths

variable {α : Type*} [LinearOrder α]

/-- `struct MultiRange`, multi_range.rs 34-38; `struct Range`, 5-10. -/
structure MultiRange (α : Type*) where
  ranges : List (α × α)
deriving DecidableEq, Repr

namespace MultiRange

/-- `fn min`, multi_range.rs 18-24. -/
def rmin (a b : α) : α := if a < b then a else b

/-- `fn max`, multi_range.rs 26-32. -/
def rmax (a b : α) : α := if a > b then a else b

/-- `MultiRange::new`, multi_range.rs 42-44. -/
def new : MultiRange α := ⟨[]⟩

/-- `MultiRange::range`, multi_range.rs 52-56 (no check of the arguments). -/
def range (low high : α) : MultiRange α := ⟨[(low, high)]⟩

/-- The replacement step of `MultiRange::or`, multi_range.rs 92-101: `mid` are the
ranges at positions `first..last`, `pre` and `post` the ones before and after. -/
def orJoin (pre mid post : List (α × α)) (low high : α) : List (α × α) :=
  match mid with
  | [] => pre ++ (low, high) :: post
  | r :: rs => pre ++ (rmin r.1 low, rmax ((r :: rs).getLast (by simp)).2 high) :: post

/-- Body of `MultiRange::or` after the assertion, multi_range.rs 78-102.  The
index searches of lines 78-91 are `takeWhile`/`dropWhile`. -/
def orBody (m : MultiRange α) (low high : α) : MultiRange α :=
  let rest := m.ranges.dropWhile (fun r => decide (¬ low ≤ r.2))
  ⟨orJoin (m.ranges.takeWhile (fun r => decide (¬ low ≤ r.2)))
    (rest.takeWhile (fun r => decide (¬ r.1 > high)))
    (rest.dropWhile (fun r => decide (¬ r.1 > high))) low high⟩

/-- `MultiRange::or`, multi_range.rs 76-103; `none` is the failed `assert!`. -/
def or (m : MultiRange α) (low high : α) : Option (MultiRange α) :=
  if low ≤ high then some (m.orBody low high) else none

/-- `MultiRange::or_slice`, multi_range.rs 63-68. -/
def orSlice (m : MultiRange α) : List (α × α) → Option (MultiRange α)
  | [] => some m
  | (low, high) :: rest =>
    match m.or low high with
    | none => none
    | some m' => m'.orSlice rest

/-- `MultiRange::and`, multi_range.rs 112-132. -/
def and (m : MultiRange α) (low high : α) : MultiRange α :=
  let rest := m.ranges.dropWhile (fun r => decide (¬ r.2 > low))
  ⟨(rest.takeWhile (fun r => decide (r.1 < high))).map
    (fun r => (rmax low r.1, rmin high r.2))⟩

/-- The `while r2.high <= r1.low` loop of `and_range`, multi_range.rs 149-154.
`none` is `break 'match_ranges`. -/
def skipTo (lo : α) : α × α → List (α × α) → Option ((α × α) × List (α × α))
  | r2, rest =>
    if r2.2 ≤ lo then
      match rest with
      | [] => none
      | r :: rs => skipTo lo r rs
    else some (r2, rest)
  termination_by _ rest => rest.length

/-- The inner `loop` of `and_range`, multi_range.rs 159-174.  Returns the pushed
ranges, the new `r2` and the remaining iterator. -/
def gather (r1 : α × α) : α × α → List (α × α) →
    List (α × α) × (α × α) × List (α × α)
  | r2, [] => ([], r2, [])
  | r2, rn :: rs =>
    if rn.1 ≥ r1.2 then ([], r2, rn :: rs)
    else
      let (ps, q, t) := gather r1 rn rs
      ((rmax r1.1 rn.1, rmin r1.2 rn.2) :: ps, q, t)

/-- The `for r1 in &self.ranges` loop of `and_range`, multi_range.rs 148-175. -/
def andLoop : List (α × α) → α × α → List (α × α) → List (α × α)
  | [], _, _ => []
  | r1 :: rs1, r2, rest =>
    match skipTo r1.1 r2 rest with
    | none => []
    | some (r2', rest') =>
      let first := if r2'.1 < r1.2 then [(rmax r1.1 r2'.1, rmin r1.2 r2'.2)] else []
      let (ps, q, t) := gather r1 r2' rest'
      first ++ ps ++ andLoop rs1 q t

/-- `MultiRange::and_range`, multi_range.rs 139-177. -/
def andRange (m other : MultiRange α) : MultiRange α :=
  match other.ranges with
  | [] => ⟨[]⟩
  | r2 :: rest => ⟨andLoop m.ranges r2 rest⟩

/-- `MultiRange::is_empty`, multi_range.rs 181-183. -/
def isEmpty (m : MultiRange α) : Bool := m.ranges.isEmpty

/-- `MultiRange::bounds`, multi_range.rs 187-192. -/
def bounds (m : MultiRange α) : Option (α × α) :=
  match m.ranges.head?, m.ranges.getLast? with
  | some f, some l => some (f.1, l.2)
  | _, _ => none

end MultiRange
end StepperPaths
