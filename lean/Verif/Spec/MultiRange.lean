import Mathlib.Order.Defs.LinearOrder

/-!
Specification vocabulary for range lists: which points a list of half-open
ranges contains and what "ordered, disjoint, gapped" means.  Independent of the
functions of the model.
-/

namespace StepperPaths.Spec

variable {α : Type*} [LinearOrder α]

/-- `x` lies in one of the half-open ranges `[low, high)`. -/
def Contains (rs : List (α × α)) (x : α) : Prop := ∃ r ∈ rs, r.1 ≤ x ∧ x < r.2

/-- Increasing, pairwise disjoint, never touching, each with `low ≤ high`. -/
def Ordered (rs : List (α × α)) : Prop :=
  rs.Pairwise (fun a b => a.2 < b.1) ∧ ∀ r ∈ rs, r.1 ≤ r.2

/-- Every range holds at least one point. -/
def AllNonempty (rs : List (α × α)) : Prop := ∀ r ∈ rs, r.1 < r.2

end StepperPaths.Spec
