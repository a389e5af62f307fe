import Verif.Proof.MultiRange

/-!
Properties C01-C06: `MultiRange` is a faithful finite representation of sets of
half-open ranges.
-/

namespace StepperPaths.Props
open StepperPaths Spec MultiRange

variable {α : Type*} [LinearOrder α]

/-- A value built by API calls: `new`, `range`, and any nesting of the updating
calls.  `andRange a b` intersects two values that were built by separate histories. -/
inductive RangeExpr (α : Type*) where
  | new
  | range (low high : α)
  | or (e : RangeExpr α) (low high : α)
  | orSlice (e : RangeExpr α) (s : List (α × α))
  | and (e : RangeExpr α) (low high : α)
  | andRange (a b : RangeExpr α)

/-- Running a history of calls; `none` is a panic. -/
def RangeExpr.run : RangeExpr α → Option (MultiRange α)
  | .new => some MultiRange.new
  | .range lo hi => some (MultiRange.range lo hi)
  | .or e lo hi => e.run.bind (fun m => m.or lo hi)
  | .orSlice e s => e.run.bind (fun m => m.orSlice s)
  | .and e lo hi => e.run.bind (fun m => some (m.and lo hi))
  | .andRange a b => a.run.bind (fun m => b.run.bind (fun n => some (m.andRange n)))

/-- All arguments are given with `low ≤ high`. -/
def RangeExpr.ArgsOk : RangeExpr α → Prop
  | .new => True
  | .range lo hi => lo ≤ hi
  | .or e lo hi => e.ArgsOk ∧ lo ≤ hi
  | .orSlice e s => e.ArgsOk ∧ ∀ p ∈ s, p.1 ≤ p.2
  | .and e lo hi => e.ArgsOk ∧ lo ≤ hi
  | .andRange a b => a.ArgsOk ∧ b.ArgsOk

/-- All ranges given are non-empty. -/
def RangeExpr.ArgsStrict : RangeExpr α → Prop
  | .new => True
  | .range lo hi => lo < hi
  | .or e lo hi => e.ArgsStrict ∧ lo < hi
  | .orSlice e s => e.ArgsStrict ∧ ∀ p ∈ s, p.1 < p.2
  | .and e lo hi => e.ArgsStrict ∧ lo < hi
  | .andRange a b => a.ArgsStrict ∧ b.ArgsStrict

/-- The set a history denotes, computed on predicates instead of range lists. -/
def RangeExpr.denote : RangeExpr α → α → Prop
  | .new, _ => False
  | .range lo hi, x => lo ≤ x ∧ x < hi
  | .or e lo hi, x => e.denote x ∨ (lo ≤ x ∧ x < hi)
  | .orSlice e s, x => e.denote x ∨ ∃ r ∈ s, r.1 ≤ x ∧ x < r.2
  | .and e lo hi, x => e.denote x ∧ lo ≤ x ∧ x < hi
  | .andRange a b, x => a.denote x ∧ b.denote x

/-- C01: `or` is set union with `[low, high)`. -/
theorem C01_or_is_union (m : MultiRange α) (hm : Ordered m.ranges) (low high : α)
    (h : low ≤ high) :
    ∃ m', m.or low high = some m' ∧
      ∀ x, Contains m'.ranges x ↔ Contains m.ranges x ∨ (low ≤ x ∧ x < high) :=
  ⟨m.orBody low high, by simp [MultiRange.or, h], (orBody_spec m low high h hm).2.1⟩

/-- C01: `or_slice` is set union with all its ranges. -/
theorem C01_or_slice_is_union (m : MultiRange α) (hm : Ordered m.ranges) (s : List (α × α))
    (h : ∀ p ∈ s, p.1 ≤ p.2) :
    ∃ m', m.orSlice s = some m' ∧
      ∀ x, Contains m'.ranges x ↔ Contains m.ranges x ∨ ∃ r ∈ s, r.1 ≤ x ∧ x < r.2 := by
  obtain ⟨m', e, _, c, _⟩ := orSlice_spec m s h hm
  exact ⟨m', e, c⟩

/-- C01: `or` panics exactly when `low > high`. -/
theorem C01_or_panics_iff (m : MultiRange α) (low high : α) :
    m.or low high = none ↔ high < low := by
  simp [MultiRange.or]

/-- C02: any history of calls with `low ≤ high` arguments runs without panic,
yields an ordered, disjoint, gapped list, and that list contains exactly the
points the set operations denote (so C01, C03, C04 hold along any history). -/
theorem C02_ordered_after_any_history (e : RangeExpr α) (ha : e.ArgsOk) :
    ∃ m, e.run = some m ∧ Ordered m.ranges ∧ (∀ x, Contains m.ranges x ↔ e.denote x) ∧
      (e.ArgsStrict → AllNonempty m.ranges) := by
  induction e with
  | new =>
    exact ⟨_, rfl, ordered_nil, fun x => by simp [MultiRange.new, Contains, RangeExpr.denote],
      fun _ => by simp [MultiRange.new, AllNonempty]⟩
  | range lo hi =>
    refine ⟨_, rfl, ?_, fun x => by simp [MultiRange.range, Contains, RangeExpr.denote], ?_⟩
    · have : lo ≤ hi := ha
      simp [MultiRange.range, Ordered, this]
    · intro (h : lo < hi)
      simp [MultiRange.range, AllNonempty, h]
  | or e lo hi ih =>
    obtain ⟨m, r, o, c, n⟩ := ih ha.1
    have h := orBody_spec m lo hi ha.2 o
    refine ⟨m.orBody lo hi, by simp [RangeExpr.run, r, MultiRange.or, ha.2], h.1, ?_, ?_⟩
    · intro x; rw [h.2.1, c]; rfl
    · intro hs; exact h.2.2 hs.2 (n hs.1)
  | orSlice e s ih =>
    obtain ⟨m, r, o, c, n⟩ := ih ha.1
    obtain ⟨m1, e1, o1, c1, n1⟩ := orSlice_spec m s ha.2 o
    refine ⟨m1, by simp [RangeExpr.run, r, e1], o1, ?_, ?_⟩
    · intro x; rw [c1, c]; rfl
    · intro hs; exact n1 hs.2 (n hs.1)
  | and e lo hi ih =>
    obtain ⟨m, r, o, c, n⟩ := ih ha.1
    have h := and_spec m lo hi o
    refine ⟨m.and lo hi, by simp [RangeExpr.run, r], h.2.1 ha.2, ?_, ?_⟩
    · intro x; rw [h.1, c]; rfl
    · intro hs; exact h.2.2 hs.2 (n hs.1)
  | andRange a b iha ihb =>
    obtain ⟨m, r, o, c, n⟩ := iha ha.1
    obtain ⟨m', r', o', c', n'⟩ := ihb ha.2
    have h := andRange_spec m m' o o'
    refine ⟨m.andRange m', by simp [RangeExpr.run, r, r'], h.2.1, ?_, ?_⟩
    · intro x; rw [h.1, c, c']; rfl
    · intro hs; exact h.2.2 (n hs.1) (n' hs.2)

/-- C02: the `low ≤ high` requirement is needed — `and` and `range` do not check
their arguments and can produce an inverted range. -/
theorem C02_unchecked_arguments :
    ¬ Ordered ((MultiRange.range (0 : Int) 10).and 7 3).ranges ∧
    ¬ Ordered (MultiRange.range (7 : Int) 3).ranges := by
  constructor
  · have : ((MultiRange.range (0 : Int) 10).and 7 3).ranges = [(7, 3)] := by decide
    rw [this]; simp [Ordered]
  · simp [Ordered, MultiRange.range]

/-- C03: `and` intersects with `[low, high)` (also when that is empty). -/
theorem C03_and_is_intersection (m : MultiRange α) (hm : Ordered m.ranges) (low high x : α) :
    Contains (m.and low high).ranges x ↔ Contains m.ranges x ∧ low ≤ x ∧ x < high :=
  (and_spec m low high hm).1 x

/-- C04: `and_range` is set intersection. -/
theorem C04_and_range_is_intersection (a b : MultiRange α) (ha : Ordered a.ranges)
    (hb : Ordered b.ranges) (x : α) :
    Contains (a.andRange b).ranges x ↔ Contains a.ranges x ∧ Contains b.ranges x :=
  (andRange_spec a b ha hb).1 x

/-- C05: two values built from non-empty ranges are equal (derived `PartialEq`)
iff they denote the same set. -/
theorem C05_eq_iff_same_set (e₁ e₂ : RangeExpr α) (h₁ : e₁.ArgsOk) (h₂ : e₂.ArgsOk)
    (s₁ : e₁.ArgsStrict) (s₂ : e₂.ArgsStrict) :
    e₁.run = e₂.run ↔ ∀ x, e₁.denote x ↔ e₂.denote x := by
  obtain ⟨m₁, r₁, o₁, c₁, n₁⟩ := C02_ordered_after_any_history e₁ h₁
  obtain ⟨m₂, r₂, o₂, c₂, n₂⟩ := C02_ordered_after_any_history e₂ h₂
  rw [r₁, r₂]
  constructor
  · intro h x
    cases h
    rw [← c₁, ← c₂]
  · intro h
    have : m₁.ranges = m₂.ranges :=
      canonical o₁ o₂ (n₁ s₁) (n₂ s₂) (fun x => by rw [c₁, c₂, h])
    cases m₁; cases m₂; simp_all

/-- C05: the order in which non-empty ranges are added does not matter. -/
theorem C05_insertion_order_irrelevant (s₁ s₂ : List (α × α)) (hp : s₁.Perm s₂)
    (h : ∀ p ∈ s₁, p.1 < p.2) :
    (MultiRange.new : MultiRange α).orSlice s₁ = MultiRange.new.orSlice s₂ := by
  have h2 : ∀ p ∈ s₂, p.1 < p.2 := fun p hp2 => h p (hp.mem_iff.2 hp2)
  have := (C05_eq_iff_same_set (.orSlice .new s₁) (.orSlice .new s₂)
    ⟨trivial, fun p hp => (h p hp).le⟩ ⟨trivial, fun p hp => (h2 p hp).le⟩
    ⟨trivial, h⟩ ⟨trivial, h2⟩).2 (by
      intro x
      simp only [RangeExpr.denote, false_or]
      constructor
      · rintro ⟨r, hr, a⟩; exact ⟨r, hp.mem_iff.1 hr, a⟩
      · rintro ⟨r, hr, a⟩; exact ⟨r, hp.mem_iff.2 hr, a⟩)
  obtain ⟨m1, e1, _⟩ := orSlice_spec (MultiRange.new : MultiRange α) s₁
    (fun p hp => (h p hp).le) ordered_nil
  obtain ⟨m2, e2, _⟩ := orSlice_spec (MultiRange.new : MultiRange α) s₂
    (fun p hp => (h2 p hp).le) ordered_nil
  simpa [RangeExpr.run, e1, e2] using this

/-- C05: `and_range` is commutative up to `==`. -/
theorem C05_and_range_comm (a b : MultiRange α) (ha : Ordered a.ranges) (hb : Ordered b.ranges)
    (na : AllNonempty a.ranges) (nb : AllNonempty b.ranges) :
    a.andRange b = b.andRange a := by
  have h1 := andRange_spec a b ha hb
  have h2 := andRange_spec b a hb ha
  have : (a.andRange b).ranges = (b.andRange a).ranges :=
    canonical h1.2.1 h2.2.1 (h1.2.2 na nb) (h2.2.2 nb na) (fun x => by
      rw [h1.1, h2.1, and_comm])
  cases h : a.andRange b; cases h' : b.andRange a; simp_all

/-- C05: `and_range` is associative up to `==`. -/
theorem C05_and_range_assoc (a b c : MultiRange α) (ha : Ordered a.ranges)
    (hb : Ordered b.ranges) (hc : Ordered c.ranges)
    (na : AllNonempty a.ranges) (nb : AllNonempty b.ranges) (nc : AllNonempty c.ranges) :
    (a.andRange b).andRange c = a.andRange (b.andRange c) := by
  have h1 := andRange_spec a b ha hb
  have h2 := andRange_spec b c hb hc
  have h3 := andRange_spec (a.andRange b) c h1.2.1 hc
  have h4 := andRange_spec a (b.andRange c) ha h2.2.1
  have : ((a.andRange b).andRange c).ranges = (a.andRange (b.andRange c)).ranges :=
    canonical h3.2.1 h4.2.1 (h3.2.2 (h1.2.2 na nb) nc) (h4.2.2 na (h2.2.2 nb nc)) (fun x => by
      rw [h3.1, h4.1, h1.1, h2.1, and_assoc])
  cases h : (a.andRange b).andRange c; cases h' : a.andRange (b.andRange c); simp_all

/-- C05: with empty ranges in the input equality is finer than set equality. -/
theorem C05_empty_range_is_visible :
    (MultiRange.new : MultiRange Int).or 3 3 ≠ some MultiRange.new ∧
    ∀ m, (MultiRange.new : MultiRange Int).or 3 3 = some m →
      ∀ x, ¬ Contains m.ranges x := by
  constructor
  · decide
  · intro m h x
    have : (MultiRange.new : MultiRange Int).or 3 3 = some ⟨[(3, 3)]⟩ := by decide
    rw [this] at h; cases h
    rintro ⟨r, hr, a, b⟩
    simp only [List.mem_singleton] at hr
    subst hr
    omega

/-- C06: `bounds` is `None` iff there is no range, i.e. (for non-empty ranges) iff
no point is contained; otherwise it is the least point and a tight strict upper
bound: all points from some contained `y` up to the bound are contained. -/
theorem C06_bounds (m : MultiRange α) (ho : Ordered m.ranges) (hn : AllNonempty m.ranges) :
    (m.bounds = none ↔ m.isEmpty = true) ∧
    (m.bounds = none ↔ ∀ x, ¬ Contains m.ranges x) ∧
    ∀ l h, m.bounds = some (l, h) →
      Contains m.ranges l ∧ (∀ x, Contains m.ranges x → l ≤ x ∧ x < h) ∧
      (∃ y, Contains m.ranges y ∧ ∀ x, y ≤ x → x < h → Contains m.ranges x) := by
  obtain ⟨rs⟩ := m
  cases rs with
  | nil => simp [bounds, MultiRange.isEmpty, Contains]
  | cons r rs =>
    have hb : (MultiRange.mk (r :: rs)).bounds
        = some (r.1, ((r :: rs).getLast (by simp)).2) := by
      simp [bounds, List.getLast?_eq_some_getLast]
    have hL := ordered_le_last r rs ho
    have hlm : (r :: rs).getLast (by simp) ∈ r :: rs := List.getLast_mem _
    rw [hb]
    refine ⟨by simp [MultiRange.isEmpty], ?_, ?_⟩
    · simp only [reduceCtorEq, false_iff, not_forall, not_not]
      exact ⟨r.1, r, by simp, le_rfl, hn r (by simp)⟩
    · intro l h e
      simp only [Option.some.injEq, Prod.mk.injEq] at e
      obtain ⟨rfl, rfl⟩ := e
      refine ⟨⟨r, by simp, le_rfl, hn r (by simp)⟩, ?_, ?_⟩
      · rintro x ⟨q, hq, a, b⟩
        have := hL q hq
        exact ⟨by order, by order⟩
      · exact ⟨_, ⟨_, hlm, le_rfl, hn _ hlm⟩, fun x a b => ⟨_, hlm, a, b⟩⟩

/-! ### The hypotheses are satisfiable on non-trivial data -/

example : (RangeExpr.andRange (.or (.or (.or (.or .new (10 : Int) 34) 2 7) 8 9) 7 8)
      (.or (.range 5 12) 30 50)).run
    = some ⟨[(5, 9), (10, 12), (30, 34)]⟩ := by
  simp [RangeExpr.run, MultiRange.or, MultiRange.orBody, orJoin, MultiRange.new,
    MultiRange.range, andRange, andLoop, skipTo, gather, rmin, rmax]

example : (RangeExpr.andRange (.or (.or .new (10 : Int) 34) 2 7) (.range 5 12)).ArgsOk ∧
    (RangeExpr.andRange (.or (.or .new (10 : Int) 34) 2 7) (.range 5 12)).ArgsStrict := by
  simp [RangeExpr.ArgsOk, RangeExpr.ArgsStrict]

example : Ordered [((1 : Int), 9), (10, 34)] ∧ AllNonempty [((1 : Int), 9), (10, 34)] ∧
    (MultiRange.mk [((1 : Int), 9), (10, 34)]).and 8 12 = ⟨[(8, 9), (10, 12)]⟩ ∧
    (MultiRange.mk [((1 : Int), 9), (10, 34)]).bounds = some (1, 34) := by
  refine ⟨?_, ?_, by decide, by decide⟩
  · simp [Ordered]
  · simp [AllNonempty]

end StepperPaths.Props
