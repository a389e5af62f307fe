import Verif.Model.MultiRange
import Verif.Spec.MultiRange
import Mathlib.Order.Lattice
import Mathlib.Order.MinMax
import Mathlib.Data.List.Pairwise
import Mathlib.Data.List.TakeWhile
import Mathlib.Tactic.Tauto
import Mathlib.Tactic.Order

namespace StepperPaths
namespace MultiRange
open Spec

variable {α : Type*} [LinearOrder α]

theorem rmin_eq (a b : α) : rmin a b = min a b := by
  unfold rmin; split
  · rw [min_eq_left]; order
  · rw [min_eq_right]; order

theorem rmax_eq (a b : α) : rmax a b = max a b := by
  unfold rmax; split
  · rw [max_eq_left]; order
  · rw [max_eq_right]; order

theorem prop1 (a b c d e : Prop) :
    ((a ∧ b) ∧ c ∧ d) ∨ (e ∧ a ∧ c) ↔ ((b ∧ d) ∨ e) ∧ a ∧ c := by tauto

theorem prop2 (a b c : Prop) : a ∨ b ∨ c ↔ (a ∨ c) ∨ b := by tauto

theorem prop3 (a b c d : Prop) : a ∨ (b ∨ d) ∨ c ↔ (a ∨ b ∨ c) ∨ d := by tauto

theorem prop4 (r q l q' d : Prop) (h1 : r → ¬ d) (h2 : l → (q' ↔ d ∨ q)) :
    (r ∧ q) ∨ (l ∧ q') ↔ (r ∨ l) ∧ (d ∨ q) := by tauto

theorem contains_nil (x : α) : ¬ Contains ([] : List (α × α)) x := by simp [Contains]

theorem contains_cons (r : α × α) (rs) (x : α) :
    Contains (r :: rs) x ↔ (r.1 ≤ x ∧ x < r.2) ∨ Contains rs x := by simp [Contains]

theorem contains_append (l₁ l₂ : List (α × α)) (x : α) :
    Contains (l₁ ++ l₂) x ↔ Contains l₁ x ∨ Contains l₂ x := by
  simp [Contains, or_and_right, exists_or]

theorem ordered_nil : Ordered ([] : List (α × α)) := by simp [Ordered]

theorem ordered_cons (r : α × α) (rs : List (α × α)) :
    Ordered (r :: rs) ↔ (∀ q ∈ rs, r.2 < q.1) ∧ r.1 ≤ r.2 ∧ Ordered rs := by
  simp [Ordered]; tauto

theorem ordered_append (l₁ l₂ : List (α × α)) :
    Ordered (l₁ ++ l₂) ↔ Ordered l₁ ∧ Ordered l₂ ∧ ∀ a ∈ l₁, ∀ b ∈ l₂, a.2 < b.1 := by
  simp only [Ordered, List.pairwise_append, List.mem_append]
  constructor
  · rintro ⟨⟨h1, h2, h3⟩, h4⟩
    exact ⟨⟨h1, fun r hr => h4 r (Or.inl hr)⟩, ⟨h2, fun r hr => h4 r (Or.inr hr)⟩, h3⟩
  · rintro ⟨⟨h1, h4⟩, ⟨h2, h5⟩, h3⟩
    exact ⟨⟨h1, h2, h3⟩, fun r hr => hr.elim (h4 r) (h5 r)⟩

/-- The three parts into which `or` splits the list. -/
theorem or_split (l : List (α × α)) (low high : α) (hl : Ordered l) :
    let pre := l.takeWhile (fun r => decide (¬ low ≤ r.2))
    let rest := l.dropWhile (fun r => decide (¬ low ≤ r.2))
    let mid := rest.takeWhile (fun r => decide (¬ r.1 > high))
    let post := rest.dropWhile (fun r => decide (¬ r.1 > high))
    l = pre ++ (mid ++ post) ∧ (∀ r ∈ pre, r.2 < low) ∧
      (∀ r ∈ mid, low ≤ r.2 ∧ r.1 ≤ high) ∧ (∀ r ∈ post, high < r.1) := by
  intro pre rest mid post
  have h1 : l = pre ++ rest := (List.takeWhile_append_dropWhile).symm
  have h2 : rest = mid ++ post := (List.takeWhile_append_dropWhile).symm
  have hrest : ∀ r ∈ rest, low ≤ r.2 := by
    have hro : Ordered rest := by rw [h1, ordered_append] at hl; exact hl.2.1
    cases hr : rest with
    | nil => simp
    | cons r rs =>
      have hh : low ≤ r.2 := by
        have := List.head_dropWhile_not (fun r : α × α => decide (¬ low ≤ r.2)) (w := by
          change rest ≠ []; simp [hr])
        change decide (¬ low ≤ (rest.head _).2) = false at this
        simp only [hr, List.head_cons] at this
        simpa using this
      rw [hr, ordered_cons] at hro
      intro q hq
      rcases List.mem_cons.1 hq with rfl | hq
      · exact hh
      · have := hro.1 q hq
        have := hro.2.2.2 q hq
        order
  refine ⟨by rw [← h2]; exact h1, ?_, ?_, ?_⟩
  · intro r hr
    have := List.mem_takeWhile_imp hr
    simpa using this
  · intro r hr
    refine ⟨hrest r (by rw [h2]; simp [hr]), ?_⟩
    have := List.mem_takeWhile_imp hr
    simpa using this
  · have hpo : Ordered post := by
      rw [h1, ordered_append, h2, ordered_append] at hl; exact hl.2.1.2.1
    cases hr : post with
    | nil => simp
    | cons r rs =>
      have hh : high < r.1 := by
        have := List.head_dropWhile_not (fun r : α × α => decide (¬ r.1 > high)) (w := by
          change post ≠ []; simp [hr])
        change decide (¬ (post.head _).1 > high) = false at this
        simp only [hr, List.head_cons] at this
        simpa using this
      rw [hr, ordered_cons] at hpo
      intro q hq
      rcases List.mem_cons.1 hq with rfl | hq
      · exact hh
      · have := hpo.1 q hq
        order

theorem ordered_le_last (r : α × α) (rs : List (α × α)) (h : Ordered (r :: rs)) :
    ∀ q ∈ r :: rs, r.1 ≤ q.1 ∧ q.2 ≤ ((r :: rs).getLast (by simp)).2 := by
  induction rs generalizing r with
  | nil => simp
  | cons s rs ih =>
    rw [ordered_cons] at h
    intro q hq
    have ihs := ih s h.2.2
    rw [List.getLast_cons (by simp)]
    rcases List.mem_cons.1 hq with rfl | hq
    · refine ⟨le_rfl, ?_⟩
      have a1 := h.1 s (by simp)
      have a2 := (ihs s (by simp)).2
      have a3 := h.2.2.2 s (by simp)
      order
    · refine ⟨?_, (ihs q hq).2⟩
      have := h.1 q hq
      have := h.2.1
      order

theorem orBody_spec (m : MultiRange α) (low high : α) (hle : low ≤ high)
    (hm : Ordered m.ranges) :
    Ordered (m.orBody low high).ranges ∧
    (∀ x, Contains (m.orBody low high).ranges x ↔ Contains m.ranges x ∨ (low ≤ x ∧ x < high)) ∧
    (low < high → AllNonempty m.ranges → AllNonempty (m.orBody low high).ranges) := by
  have hs := or_split m.ranges low high hm
  revert hs
  unfold orBody
  simp only []
  generalize m.ranges.takeWhile (fun r => decide (¬ low ≤ r.2)) = pre
  generalize m.ranges.dropWhile (fun r => decide (¬ low ≤ r.2)) = rest
  generalize rest.dropWhile (fun r => decide (¬ r.1 > high)) = post
  generalize rest.takeWhile (fun r => decide (¬ r.1 > high)) = mid
  intro ⟨h1, h2, h3, h4⟩
  rw [h1] at hm ⊢
  rw [ordered_append, ordered_append] at hm
  obtain ⟨op, ⟨om, oo, omo⟩, opm⟩ := hm
  clear h1
  cases mid with
  | nil =>
    simp only [List.nil_append, orJoin]
    refine ⟨?_, ?_, ?_⟩
    · rw [ordered_append, ordered_cons]
      refine ⟨op, ⟨h4, hle, oo⟩, ?_⟩
      intro a ha b hb
      rcases List.mem_cons.1 hb with rfl | hb
      · exact h2 a ha
      · exact opm a ha b (by simpa using hb)
    · intro x
      rw [contains_append, contains_append, contains_cons]; exact prop2 _ _ _
    · intro hlt hne r hr
      simp only [List.mem_append, List.mem_cons] at hr
      rcases hr with hr | rfl | hr
      · exact hne r (by simp [hr])
      · exact hlt
      · exact hne r (by simp [hr])
  | cons r rs =>
    have hL := ordered_le_last r rs om
    set last := (r :: rs).getLast (by simp) with hlast
    have hlm : last ∈ r :: rs := List.getLast_mem _
    have hr3 := h3 r (by simp)
    have hl3 := h3 last hlm
    simp only [rmin_eq, rmax_eq, orJoin, ← hlast]
    refine ⟨?_, ?_, ?_⟩
    · rw [ordered_append, ordered_cons]
      refine ⟨op, ⟨?_, ?_, oo⟩, ?_⟩
      · intro q hq
        have a1 := h4 q hq
        have a2 := omo last hlm q hq
        simp only [max_lt_iff]; exact ⟨a2, a1⟩
      · simp only [min_le_iff, le_max_iff]; right; right; exact hle
      · intro a ha b hb
        rcases List.mem_cons.1 hb with rfl | hb
        · simp only [lt_min_iff]
          exact ⟨opm a ha r (by simp), h2 a ha⟩
        · exact opm a ha b (by simp [hb])
    · intro x
      rw [contains_append, contains_append, contains_append, contains_cons]
      have key : (min r.1 low ≤ x ∧ x < max last.2 high) ↔
          Contains (r :: rs) x ∨ (low ≤ x ∧ x < high) := by
        constructor
        · rintro ⟨a, b⟩
          rcases lt_or_ge x low with hx | hx
          · left
            refine ⟨r, by simp, ?_, ?_⟩
            · rcases min_le_iff.1 a with a | a
              · exact a
              · order
            · order
          · rcases lt_or_ge x high with hx' | hx'
            · right; exact ⟨hx, hx'⟩
            · left
              refine ⟨last, hlm, ?_, ?_⟩
              · order
              · rcases lt_max_iff.1 b with b | b
                · exact b
                · order
        · rintro (⟨q, hq, a, b⟩ | ⟨a, b⟩)
          · have := hL q hq
            exact ⟨min_le_iff.2 (Or.inl (by order)), lt_max_iff.2 (Or.inl (by order))⟩
          · exact ⟨min_le_iff.2 (Or.inr a), lt_max_iff.2 (Or.inr b)⟩
      rw [key]; exact prop3 _ _ _ _
    · intro hlt hne q hq
      simp only [List.mem_append, List.mem_cons] at hq
      rcases hq with hq | rfl | hq
      · exact hne q (by simp [hq])
      · exact lt_of_le_of_lt (min_le_right _ _) (lt_of_lt_of_le hlt (le_max_right _ _))
      · exact hne q (by simp [hq])

theorem orSlice_spec (m : MultiRange α) (s : List (α × α)) (hs : ∀ p ∈ s, p.1 ≤ p.2)
    (hm : Ordered m.ranges) :
    ∃ m', m.orSlice s = some m' ∧ Ordered m'.ranges ∧
      (∀ x, Contains m'.ranges x ↔ Contains m.ranges x ∨ Contains s x) ∧
      (AllNonempty s → AllNonempty m.ranges → AllNonempty m'.ranges) := by
  induction s generalizing m with
  | nil =>
    refine ⟨m, rfl, hm, fun x => ?_, fun _ h => h⟩
    have := contains_nil x; tauto
  | cons p s ih =>
    obtain ⟨lo, hi⟩ := p
    have hle : lo ≤ hi := hs (lo, hi) (by simp)
    have h := orBody_spec m lo hi hle hm
    obtain ⟨m', e, o, c, ne⟩ := ih (m.orBody lo hi) (fun p hp => hs p (by simp [hp])) h.1
    refine ⟨m', ?_, o, ?_, ?_⟩
    · simp only [orSlice, or, if_pos hle]; exact e
    · intro x; rw [c, h.2.1, contains_cons]; tauto
    · intro hne hmne
      exact ne (fun p hp => hne p (by simp [hp]))
        (h.2.2 (hne (lo, hi) (by simp)) hmne)

/-! ### `and` -/

theorem and_spec (m : MultiRange α) (low high : α) (hm : Ordered m.ranges) :
    (∀ x, Contains (m.and low high).ranges x ↔ Contains m.ranges x ∧ low ≤ x ∧ x < high) ∧
    (low ≤ high → Ordered (m.and low high).ranges) ∧
    (low < high → AllNonempty m.ranges → AllNonempty (m.and low high).ranges) := by
  obtain ⟨l⟩ := m
  simp only [and, rmin_eq, rmax_eq]
  simp only at hm
  induction l with
  | nil => simp [Contains, Ordered, AllNonempty]
  | cons r rs ih =>
    rw [ordered_cons] at hm
    obtain ⟨h1, h2, h3⟩ := hm
    by_cases hr : r.2 > low
    · clear ih
      rw [List.dropWhile_cons, if_neg (by simpa using hr)]
      -- every range of the list now satisfies `low < high bound`
      have hall : ∀ q ∈ r :: rs, low < q.2 := by
        intro q hq
        rcases List.mem_cons.1 hq with rfl | hq
        · exact hr
        · have := h1 q hq; have := h3.2 q hq; order
      have hord : Ordered (r :: rs) := by rw [ordered_cons]; exact ⟨h1, h2, h3⟩
      clear h1 h2 h3 hr
      generalize r :: rs = l at *
      clear r rs
      induction l with
      | nil => simp [Contains, Ordered, AllNonempty]
      | cons q l ih =>
        rw [ordered_cons] at hord
        obtain ⟨h1, h2, h3⟩ := hord
        have hq := hall q (by simp)
        obtain ⟨i1, i2, i3⟩ := ih (fun p hp => hall p (by simp [hp])) h3
        by_cases hl : q.1 < high
        · rw [List.takeWhile_cons, if_pos (by simpa using hl), List.map_cons]
          refine ⟨?_, ?_, ?_⟩
          · intro x
            rw [contains_cons, contains_cons, i1]
            simp only [max_le_iff, lt_min_iff]
            exact prop1 _ _ _ _ _
          · intro hle
            rw [ordered_cons]
            refine ⟨?_, ?_, i2 hle⟩
            · intro p hp
              obtain ⟨p', hp', rfl⟩ := List.mem_map.1 hp
              have := h1 p' (List.takeWhile_subset _ hp')
              simp only [min_lt_iff, lt_max_iff]; exact Or.inr (Or.inr this)
            · simp only [max_le_iff, le_min_iff]
              exact ⟨⟨hle, by order⟩, by order, h2⟩
          · intro hlt hne p hp
            rcases List.mem_cons.1 hp with rfl | hp
            · have := hne q (by simp)
              simp only [max_lt_iff, lt_min_iff]
              exact ⟨⟨hlt, hl⟩, hq, this⟩
            · exact i3 hlt (fun p hp => hne p (by simp [hp])) p hp
        · rw [List.takeWhile_cons, if_neg (by simpa using hl)]
          simp only [List.map_nil]
          refine ⟨?_, fun _ => ordered_nil, fun _ _ => by simp [AllNonempty]⟩
          intro x
          constructor
          · intro h; exact absurd h (contains_nil x)
          · rintro ⟨⟨p, hp, a, b⟩, c, d⟩
            exfalso
            rcases List.mem_cons.1 hp with rfl | hp
            · order
            · have := h1 p hp; order
    · rw [List.dropWhile_cons, if_pos (by simpa using hr)]
      obtain ⟨i1, i2, i3⟩ := ih h3
      refine ⟨?_, i2, fun hlt hne => i3 hlt (fun p hp => hne p (by simp [hp]))⟩
      intro x
      rw [i1, contains_cons]
      constructor
      · tauto
      · rintro ⟨(⟨a, b⟩ | c), d, e⟩
        · order
        · tauto

/-! ### `and_range` -/

/-- What the skipping loop leaves over: nothing relevant above `lo` is lost. -/
theorem skipTo_spec (lo : α) (r2 : α × α) (rest : List (α × α)) :
    match skipTo lo r2 rest with
    | none => ∀ q ∈ r2 :: rest, q.2 ≤ lo
    | some (q, t) => lo < q.2 ∧ ∃ dropped, r2 :: rest = dropped ++ q :: t ∧
        ∀ p ∈ dropped, p.2 ≤ lo := by
  induction rest generalizing r2 with
  | nil =>
    unfold skipTo
    by_cases h : r2.2 ≤ lo
    · simp [h]
    · simp only [h, if_false]
      exact ⟨by order, [], by simp⟩
  | cons r rs ih =>
    unfold skipTo
    by_cases h : r2.2 ≤ lo
    · simp only [h, if_true]
      have := ih r
      cases hs : skipTo lo r rs with
      | none =>
        rw [hs] at this
        simp only at this ⊢
        intro q hq
        rcases List.mem_cons.1 hq with rfl | hq
        · exact h
        · exact this q hq
      | some p =>
        obtain ⟨q, t⟩ := p
        rw [hs] at this
        obtain ⟨a, d, e, f⟩ := this
        refine ⟨a, r2 :: d, by rw [e]; rfl, ?_⟩
        intro p hp
        rcases List.mem_cons.1 hp with rfl | hp
        · exact h
        · exact f p hp
    · simp only [h, if_false]
      exact ⟨by order, [], by simp⟩

/-- The inner loop consumes a prefix of ranges starting below `r1.2`, pushing
their intersections with `r1`; `q` is the last one consumed (or `r2`). -/
theorem gather_spec (r1 r2 : α × α) (rest : List (α × α)) :
    ∃ used, (gather r1 r2 rest).1 = used.map (fun q => (max r1.1 q.1, min r1.2 q.2)) ∧
      (∀ q ∈ used, q.1 < r1.2) ∧
      (∃ pre, r2 :: rest = pre ++ (gather r1 r2 rest).2.1 :: (gather r1 r2 rest).2.2 ∧
        r2 :: used = pre ++ [(gather r1 r2 rest).2.1]) ∧
      (∀ q, (gather r1 r2 rest).2.2.head? = some q → r1.2 ≤ q.1) := by
  induction rest generalizing r2 with
  | nil => exact ⟨[], by simp [gather], by simp, ⟨[], by simp [gather]⟩, by simp [gather]⟩
  | cons r rs ih =>
    unfold gather
    by_cases h : r.1 ≥ r1.2
    · simp only [h, if_true]
      exact ⟨[], by simp, by simp, ⟨[], by simp⟩, by simpa using h⟩
    · simp only [h, if_false]
      obtain ⟨u, a, b, ⟨p, c, d⟩, e⟩ := ih r
      refine ⟨r :: u, ?_, ?_, ⟨r2 :: p, ?_, ?_⟩, e⟩
      · simp [a, rmax_eq, rmin_eq]
      · intro q hq
        rcases List.mem_cons.1 hq with rfl | hq
        · order
        · exact b q hq
      · rw [c]; rfl
      · rw [d]; rfl

theorem ordered_last_lt {l : List (α × α)} {q : α × α} (h : Ordered (l ++ [q])) :
    ∀ p ∈ l, p.2 < q.1 := by
  rw [ordered_append] at h
  intro p hp; exact h.2.2 p hp q (by simp)

theorem andLoop_spec (l1 : List (α × α)) (r2 : α × α) (rest : List (α × α))
    (h1 : Ordered l1) (h2 : Ordered (r2 :: rest)) :
    (∀ x, Contains (andLoop l1 r2 rest) x ↔ Contains l1 x ∧ Contains (r2 :: rest) x) ∧
    Ordered (andLoop l1 r2 rest) ∧
    (∀ p ∈ andLoop l1 r2 rest, (∃ q ∈ l1, q.1 ≤ p.1) ∧ (∃ q ∈ r2 :: rest, q.1 ≤ p.1)) ∧
    (AllNonempty l1 → AllNonempty (r2 :: rest) → AllNonempty (andLoop l1 r2 rest)) := by
  induction l1 generalizing r2 rest with
  | nil =>
    refine ⟨fun x => ?_, ordered_nil, by simp [andLoop], by simp [andLoop, AllNonempty]⟩
    simp [andLoop, Contains]
  | cons r1 l1 ih =>
    rw [ordered_cons] at h1
    obtain ⟨h1a, h1b, h1c⟩ := h1
    have hsk := skipTo_spec r1.1 r2 rest
    unfold andLoop
    cases hs : skipTo r1.1 r2 rest with
    | none =>
      rw [hs] at hsk
      simp only at hsk ⊢
      refine ⟨fun x => ?_, ordered_nil, by simp, by simp [AllNonempty]⟩
      constructor
      · intro h; exact absurd h (contains_nil x)
      · rintro ⟨hx1, q, hq, a, b⟩
        exfalso
        have hql := hsk q hq
        rw [contains_cons] at hx1
        rcases hx1 with hx1 | ⟨p, hp, c, d⟩
        · order
        · have := h1a p hp; order
    | some qt =>
      obtain ⟨q, t⟩ := qt
      rw [hs] at hsk
      simp only at hsk ⊢
      obtain ⟨hq, dr, hdr, hdl⟩ := hsk
      rw [hdr, ordered_append] at h2
      obtain ⟨_, h2q, h2d⟩ := h2
      obtain ⟨u, g1, g2, ⟨p, g3, g4⟩, g5⟩ := gather_spec r1 q t
      rcases hg : gather r1 q t with ⟨ps, q', t'⟩
      rw [hg] at g1 g3 g4 g5
      simp only at g1 g3 g4 g5 ⊢
      have h2' : Ordered (q' :: t') := by rw [g3, ordered_append] at h2q; exact h2q.2.1
      have hpq : ∀ a ∈ p, a.2 < q'.1 := by
        rw [g3, ordered_append] at h2q
        intro a ha; exact h2q.2.2 a ha q' (by simp)
      obtain ⟨i1, i2, i3, i5⟩ := ih q' t' h1c h2'
      -- everything in q :: u ends above r1.1
      have hou : Ordered (q :: u) := by
        rw [g4]
        rw [g3] at h2q
        rw [show p ++ q' :: t' = (p ++ [q']) ++ t' by simp, ordered_append] at h2q
        exact h2q.1
      have hu : ∀ w ∈ q :: u, r1.1 < w.2 := by
        intro w hw
        rw [ordered_cons] at hou
        rcases List.mem_cons.1 hw with rfl | hw
        · exact hq
        · have := hou.1 w hw
          have := hou.2.2.2 w hw
          order
      -- the pushed list
      have hpush : (if q.1 < r1.2 then [(rmax r1.1 q.1, rmin r1.2 q.2)] else []) ++ ps
          = ((q :: u).filter (fun w => decide (w.1 < r1.2))).map
              (fun w => (max r1.1 w.1, min r1.2 w.2)) := by
        rw [g1, List.filter_cons]
        have : u.filter (fun w => decide (w.1 < r1.2)) = u := by
          rw [List.filter_eq_self]; intro a ha; simpa using g2 a ha
        rw [this]
        by_cases hc : q.1 < r1.2
        · simp [hc, rmax_eq, rmin_eq]
        · simp [hc]
      rw [hpush]
      -- q' is in q :: u
      have hq'mem : q' ∈ q :: u := by rw [g4]; simp
      have ht' : ∀ w ∈ t', r1.2 ≤ w.1 := by
        cases t' with
        | nil => simp
        | cons w t' =>
          have hw := g5 w rfl
          rw [ordered_cons, ordered_cons] at h2'
          intro z hz
          rcases List.mem_cons.1 hz with rfl | hz
          · exact hw
          · have := h2'.2.2.1 z hz
            have := h2'.2.2.2.1
            order
      refine ⟨fun x => ?_, ?_, ?_, ?_⟩
      · rw [contains_append, i1, hdr, contains_append, contains_cons r1]
        have hd : Contains dr x → ¬ (r1.1 ≤ x) := by
          rintro ⟨w, hw, a, b⟩; have := hdl w hw; order
        have hl1 : Contains l1 x → r1.2 < x := by
          rintro ⟨w, hw, a, b⟩; have := h1a w hw; order
        have key : Contains (((q :: u).filter (fun w => decide (w.1 < r1.2))).map
              (fun w => (max r1.1 w.1, min r1.2 w.2))) x ↔
            (r1.1 ≤ x ∧ x < r1.2) ∧ Contains (q :: t) x := by
          constructor
          · rintro ⟨w, hw, a, b⟩
            obtain ⟨w', hw', rfl⟩ := List.mem_map.1 hw
            have hw'' := (List.mem_filter.1 hw').1
            simp only [max_le_iff, lt_min_iff] at a b
            refine ⟨⟨a.1, b.1⟩, w', ?_, a.2, b.2⟩
            rw [g3]; rw [g4] at hw''
            simp only [List.mem_append, List.mem_cons, List.not_mem_nil, or_false] at hw'' ⊢
            tauto
          · rintro ⟨⟨a, b⟩, w, hw, c, d⟩
            have hwu : w ∈ q :: u := by
              rw [g3] at hw; rw [g4]
              simp only [List.mem_append, List.mem_cons, List.not_mem_nil, or_false] at hw ⊢
              rcases hw with hw | hw | hw
              · exact Or.inl hw
              · exact Or.inr hw
              · have := ht' w hw; order
            refine ⟨(max r1.1 w.1, min r1.2 w.2), ?_, ?_, ?_⟩
            · apply List.mem_map.2
              refine ⟨w, ?_, rfl⟩
              rw [List.mem_filter]
              exact ⟨hwu, by simp; order⟩
            · simp only [max_le_iff]; exact ⟨a, c⟩
            · simp only [lt_min_iff]; exact ⟨b, d⟩
        rw [key]
        have k2 : Contains l1 x → (Contains (q' :: t') x ↔ (Contains dr x ∨ Contains (q :: t) x)) := by
          intro hx
          have hx' := hl1 hx
          constructor
          · intro h; right; rw [g3, contains_append]; exact Or.inr h
          · rintro (h | h)
            · have := hd h; order
            · rw [g3, contains_append] at h
              rcases h with ⟨w, hw, a, b⟩ | h
              · exfalso
                have hwq := hpq w hw
                -- q' starts below r1.2 unless p is empty
                have : q'.1 < r1.2 := by
                  have : q' ∈ u := by
                    cases p with
                    | nil => simp at hw
                    | cons p0 p =>
                      simp only [List.cons_append, List.cons.injEq] at g4
                      rw [g4.2]; simp
                  exact g2 q' this
                order
              · exact h
        exact prop4 _ _ _ _ _ (fun h hh => hd hh h.1) k2
      · rw [ordered_append]
        refine ⟨?_, i2, ?_⟩
        · have hof : Ordered ((q :: u).filter (fun w => decide (w.1 < r1.2))) :=
            ⟨hou.1.filter _, fun r hr => hou.2 r (List.mem_filter.1 hr).1⟩
          refine ⟨?_, ?_⟩
          · rw [List.pairwise_map]
            apply hof.1.imp
            intro a b hab
            simp only [min_lt_iff, lt_max_iff]; tauto
          · intro r hr
            obtain ⟨w, hw, rfl⟩ := List.mem_map.1 hr
            rw [List.mem_filter] at hw
            have a1 := hu w hw.1
            have a2 := hou.2 w hw.1
            have a3 : w.1 < r1.2 := by simpa using hw.2
            simp only [max_le_iff, le_min_iff]
            exact ⟨⟨h1b, by order⟩, by order, a2⟩
        · intro a ha b hb
          obtain ⟨w, hw, rfl⟩ := List.mem_map.1 ha
          obtain ⟨⟨z, hz, hzb⟩, _⟩ := i3 b hb
          have := h1a z hz
          simp only [min_lt_iff]; left; order
      · intro z hz
        rw [List.mem_append] at hz
        rcases hz with hz | hz
        · obtain ⟨w, hw, rfl⟩ := List.mem_map.1 hz
          rw [List.mem_filter] at hw
          refine ⟨⟨r1, by simp, le_max_left _ _⟩, ⟨w, ?_, le_max_right _ _⟩⟩
          rw [hdr, List.mem_append]; right
          have hwm := hw.1
          rw [g4] at hwm; rw [g3]
          simp only [List.mem_append, List.mem_cons, List.not_mem_nil, or_false] at hwm ⊢
          tauto
        · obtain ⟨⟨w, hw, a⟩, ⟨v, hv, b⟩⟩ := i3 z hz
          refine ⟨⟨w, by simp [hw], a⟩, ⟨v, ?_, b⟩⟩
          rw [hdr, g3]; simp only [List.mem_append]; exact Or.inr (Or.inr hv)
      · intro hn1 hn2 z hz
        rw [List.mem_append] at hz
        rcases hz with hz | hz
        · obtain ⟨w, hw, rfl⟩ := List.mem_map.1 hz
          rw [List.mem_filter] at hw
          have a1 := hu w hw.1
          have a3 : w.1 < r1.2 := by simpa using hw.2
          have a4 := hn1 r1 (by simp)
          have a5 : w.1 < w.2 := hn2 w (by
            rw [hdr, g3]
            have hwm := hw.1
            rw [g4] at hwm
            simp only [List.mem_append, List.mem_cons, List.not_mem_nil, or_false] at hwm ⊢
            tauto)
          simp only [max_lt_iff, lt_min_iff]
          exact ⟨⟨a4, a3⟩, a1, a5⟩
        · refine i5 (fun w hw => hn1 w (by simp [hw])) (fun w hw => hn2 w ?_) z hz
          rw [hdr, g3]; simp only [List.mem_append]; exact Or.inr (Or.inr hw)

theorem andRange_spec (a b : MultiRange α) (ha : Ordered a.ranges) (hb : Ordered b.ranges) :
    (∀ x, Contains (a.andRange b).ranges x ↔ Contains a.ranges x ∧ Contains b.ranges x) ∧
    Ordered (a.andRange b).ranges ∧
    (AllNonempty a.ranges → AllNonempty b.ranges → AllNonempty (a.andRange b).ranges) := by
  unfold andRange
  cases hb' : b.ranges with
  | nil =>
    refine ⟨fun x => ?_, ordered_nil, by simp [AllNonempty]⟩
    simp [Contains]
  | cons r rs =>
    rw [hb'] at hb
    have := andLoop_spec a.ranges r rs ha hb
    exact ⟨this.1, this.2.1, this.2.2.2⟩

/-! ### Canonical form -/

theorem contains_ge_head {r : α × α} {rs : List (α × α)} (h : Ordered (r :: rs)) {x : α}
    (hx : Contains (r :: rs) x) : r.1 ≤ x := by
  rw [ordered_cons] at h
  obtain ⟨q, hq, a, b⟩ := hx
  rcases List.mem_cons.1 hq with rfl | hq
  · exact a
  · have := h.1 q hq; have := h.2.1; order

theorem canonical {l₁ l₂ : List (α × α)} (o₁ : Ordered l₁) (o₂ : Ordered l₂)
    (n₁ : AllNonempty l₁) (n₂ : AllNonempty l₂)
    (h : ∀ x, Contains l₁ x ↔ Contains l₂ x) : l₁ = l₂ := by
  induction l₁ generalizing l₂ with
  | nil =>
    cases l₂ with
    | nil => rfl
    | cons r rs =>
      exfalso
      exact contains_nil r.1 ((h r.1).2 ⟨r, by simp, le_rfl, n₂ r (by simp)⟩)
  | cons r rs ih =>
    cases l₂ with
    | nil =>
      exfalso
      exact contains_nil r.1 ((h r.1).1 ⟨r, by simp, le_rfl, n₁ r (by simp)⟩)
    | cons s ss =>
      have e1 : r.1 = s.1 := by
        apply le_antisymm
        · exact contains_ge_head o₁ ((h s.1).2 ⟨s, by simp, le_rfl, n₂ s (by simp)⟩)
        · exact contains_ge_head o₂ ((h r.1).1 ⟨r, by simp, le_rfl, n₁ r (by simp)⟩)
      have o₁' := o₁
      have o₂' := o₂
      rw [ordered_cons] at o₁ o₂
      have nr := n₁ r (by simp)
      have ns := n₂ s (by simp)
      have out : ∀ (r : α × α) (rs : List (α × α)), (∀ q ∈ rs, r.2 < q.1) →
          ¬ Contains (r :: rs) r.2 := by
        rintro r rs hr ⟨q, hq, a, b⟩
        rcases List.mem_cons.1 hq with rfl | hq
        · order
        · have := hr q hq; order
      have e2 : r.2 = s.2 := by
        rcases lt_trichotomy r.2 s.2 with hlt | heq | hgt
        · exfalso
          exact out r rs o₁.1 ((h r.2).2 ⟨s, by simp, by order, hlt⟩)
        · exact heq
        · exfalso
          exact out s ss o₂.1 ((h s.2).1 ⟨r, by simp, by order, hgt⟩)
      have e : r = s := Prod.ext e1 e2
      subst e
      congr 1
      apply ih o₁.2.2 o₂.2.2 (fun q hq => n₁ q (by simp [hq])) (fun q hq => n₂ q (by simp [hq]))
      intro x
      have hx := h x
      rw [contains_cons, contains_cons] at hx
      constructor
      · rintro ⟨q, hq, a, b⟩
        have := o₁.1 q hq
        rcases hx.1 (Or.inr ⟨q, hq, a, b⟩) with h' | h'
        · order
        · exact h'
      · rintro ⟨q, hq, a, b⟩
        have := o₂.1 q hq
        rcases hx.2 (Or.inr ⟨q, hq, a, b⟩) with h' | h'
        · order
        · exact h'

end MultiRange
end StepperPaths
