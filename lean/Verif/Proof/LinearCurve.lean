import Verif.Model.LinearCurve
import Verif.Spec.LinearCurve
import Mathlib.Tactic.Linarith
import Mathlib.Tactic.Ring
import Mathlib.Analysis.SpecificLimits.Basic

namespace StepperPaths.LinearCurve
open Spec

variable {L : ℝ → ℝ} {δ ρ η err : ℝ} {split : Split}

/-- The nodes of a tree fit together and their lengths are right up to `δ` times their width. -/
inductive Inv (L : ℝ → ℝ) (δ : ℝ) (split : Split) : Node → Prop
  | leaf {a b x : ℝ} (hab : a ≤ b) (hx : |x - (L b - L a)| ≤ δ * (b - a)) : Inv L δ split (.leaf a b x)
  | fork {a b x : ℝ} {low high : Node} (hab : a ≤ b) (hx : |x - (L b - L a)| ≤ δ * (b - a))
      (h1 : low.tStart = a) (h2 : low.tEnd = (split a b).1) (h3 : high.tStart = (split a b).1)
      (h4 : high.tEnd = b) (hl : Inv L δ split low) (hh : Inv L δ split high) :
      Inv L δ split (.fork a b x low high)

theorem Inv.le {n : Node} (h : Inv L δ split n) : n.tStart ≤ n.tEnd := by
  cases h <;> assumption

theorem Inv.len {n : Node} (h : Inv L δ split n) :
    |n.length - (L n.tEnd - L n.tStart)| ≤ δ * (n.tEnd - n.tStart) := by
  cases h <;> assumption

theorem add_estimates {l h la lm lb a m b : ℝ} (h1 : |l - (lm - la)| ≤ δ * (m - a))
    (h2 : |h - (lb - lm)| ≤ δ * (b - m)) : |l + h - (lb - la)| ≤ δ * (b - a) := by
  rw [abs_le] at *
  constructor <;> nlinarith [h1.1, h1.2, h2.1, h2.2]

/-- Making the children by any way to compute the unknown lengths. -/
theorem children_inv {f : Node → Option Node} (hs : Estimates L δ split)
    (hf : ∀ a b x n, f (.leaf a b x) = some n → a ≤ b → Inv L δ split n ∧ n.tStart = a ∧ n.tEnd = b)
    {a b : ℝ} (hab : a ≤ b) {low high : Node}
    (h1 : (match (split a b).2.1 with
      | some x => some (Node.leaf a (split a b).1 x)
      | none => f (.leaf a (split a b).1 0)) = some low)
    (h2 : (match (split a b).2.2 with
      | some x => some (Node.leaf (split a b).1 b x)
      | none => f (.leaf (split a b).1 b 0)) = some high) :
    Inv L δ split low ∧ Inv L δ split high ∧ low.tStart = a ∧ low.tEnd = (split a b).1 ∧
      high.tStart = (split a b).1 ∧ high.tEnd = b := by
  obtain ⟨k1, k2⟩ := hs.between a b hab
  have hl : Inv L δ split low ∧ low.tStart = a ∧ low.tEnd = (split a b).1 := by
    cases hl : (split a b).2.1 with
    | some x =>
      rw [hl] at h1
      obtain rfl := Option.some.inj h1
      exact ⟨.leaf k1 (hs.low a b hab x hl), rfl, rfl⟩
    | none =>
      rw [hl] at h1
      exact hf _ _ _ _ h1 k1
  have hh : Inv L δ split high ∧ high.tStart = (split a b).1 ∧ high.tEnd = b := by
    cases hh : (split a b).2.2 with
    | some x =>
      rw [hh] at h2
      obtain rfl := Option.some.inj h2
      exact ⟨.leaf k2 (hs.high a b hab x hh), rfl, rfl⟩
    | none =>
      rw [hh] at h2
      exact hf _ _ _ _ h2 k2
  exact ⟨hl.1, hh.1, hl.2.1, hl.2.2, hh.2.1, hh.2.2⟩

theorem fork_inv {a b : ℝ} (hab : a ≤ b) {low high : Node}
    (h : Inv L δ split low ∧ Inv L δ split high ∧ low.tStart = a ∧ low.tEnd = (split a b).1 ∧
      high.tStart = (split a b).1 ∧ high.tEnd = b) :
    Inv L δ split (.fork a b (low.length + high.length) low high) := by
  obtain ⟨h1, h2, h3, h4, h5, h6⟩ := h
  refine .fork hab ?_ h3 h4 h5 h6 h1 h2
  have e1 := h1.len
  have e2 := h2.len
  rw [h3, h4] at e1
  rw [h5, h6] at e2
  exact add_estimates e1 e2

theorem nodeLength_inv (hs : Estimates L δ split) {n r : Node} (h : nodeLength split n = some r) :
    ∀ a b x, n = .leaf a b x → a ≤ b → Inv L δ split r ∧ r.tStart = a ∧ r.tEnd = b := by
  refine nodeLength.partial_correctness split
    (fun n r => ∀ a b x, n = .leaf a b x → a ≤ b → Inv L δ split r ∧ r.tStart = a ∧ r.tEnd = b) ?_ n r h
  intro f ih n r h a b x hn hab
  subst hn
  simp only [Option.bind_eq_bind] at h
  obtain ⟨low, h1, h⟩ := Option.bind_eq_some_iff.1 h
  obtain ⟨high, h2, h⟩ := Option.bind_eq_some_iff.1 h
  obtain rfl := Option.some.inj h
  exact ⟨fork_inv hab (children_inv hs (fun a b x n hn hab => ih _ _ hn a b x rfl hab) hab h1 h2), rfl, rfl⟩

theorem children_spec (hs : Estimates L δ split) {a b : ℝ} (hab : a ≤ b) {low high : Node}
    (h : children split a b = some (low, high)) :
    Inv L δ split low ∧ Inv L δ split high ∧ low.tStart = a ∧ low.tEnd = (split a b).1 ∧
      high.tStart = (split a b).1 ∧ high.tEnd = b := by
  unfold children at h
  simp only [Option.bind_eq_bind] at h
  obtain ⟨low', h1, h⟩ := Option.bind_eq_some_iff.1 h
  obtain ⟨high', h2, h⟩ := Option.bind_eq_some_iff.1 h
  simp only [Option.some.injEq, Prod.mk.injEq] at h
  obtain ⟨rfl, rfl⟩ := h
  exact children_inv hs (fun a b x n hn hab => nodeLength_inv hs hn a b x rfl hab) hab h1 h2

theorem nodeLength_returns (hs : Estimates L δ split) (hk : Shrinks ρ η split) (k : ℕ) :
    ∀ a b x, a ≤ b → ρ ^ k * (b - a) ≤ η → (nodeLength split (.leaf a b x)).isSome := by
  induction k with
  | zero =>
    intro a b x hab hw
    obtain ⟨k1, k2⟩ := hs.between a b hab
    rw [pow_zero, one_mul] at hw
    have e1 := hk.low_known a b hab (by linarith)
    have e2 := hk.high_known a b hab (by linarith)
    rw [nodeLength]
    cases h1 : (split a b).2.1 with
    | none => exact absurd h1 e1
    | some x1 =>
      cases h2 : (split a b).2.2 with
      | none => exact absurd h2 e2
      | some x2 => simp
  | succ k ih =>
    intro a b x hab hw
    obtain ⟨k1, k2⟩ := hs.between a b hab
    have hp : 0 < ρ ^ k := pow_pos hk.pos k
    have e1 := ih a (split a b).1 0 k1 ((mul_le_mul_of_nonneg_left (hk.low a b hab) hp.le).trans (by
      rw [pow_succ] at hw; linarith))
    have e2 := ih (split a b).1 b 0 k2 ((mul_le_mul_of_nonneg_left (hk.high a b hab) hp.le).trans (by
      rw [pow_succ] at hw; linarith))
    rw [nodeLength]
    obtain ⟨n1, e1⟩ := Option.isSome_iff_exists.1 e1
    obtain ⟨n2, e2⟩ := Option.isSome_iff_exists.1 e2
    cases h1 : (split a b).2.1 <;> cases h2 : (split a b).2.2 <;> simp [e1, e2]

theorem exists_pow_le (hk : Shrinks ρ η split) {e : ℝ} (he : 0 < e) (w : ℝ) : ∃ k : ℕ, ρ ^ k * w ≤ e := by
  rcases le_or_gt w 0 with h | h
  · exact ⟨0, by rw [pow_zero, one_mul]; linarith⟩
  · obtain ⟨k, hk⟩ := exists_pow_lt_of_lt_one (div_pos he h) hk.lt_one
    refine ⟨k, ?_⟩
    rw [lt_div_iff₀ h] at hk
    exact hk.le

theorem nodeLength_isSome (hs : Estimates L δ split) (hk : Shrinks ρ η split) {a b : ℝ} (x : ℝ) (hab : a ≤ b) :
    (nodeLength split (.leaf a b x)).isSome := by
  obtain ⟨k, h⟩ := exists_pow_le hk hk.short (b - a)
  exact nodeLength_returns hs hk k a b x hab h

theorem children_isSome (hs : Estimates L δ split) (hk : Shrinks ρ η split) {a b : ℝ} (hab : a ≤ b) :
    (children split a b).isSome := by
  obtain ⟨k1, k2⟩ := hs.between a b hab
  obtain ⟨n1, e1⟩ := Option.isSome_iff_exists.1 (nodeLength_isSome hs hk 0 k1)
  obtain ⟨n2, e2⟩ := Option.isSome_iff_exists.1 (nodeLength_isSome hs hk 0 k2)
  unfold children
  cases h1 : (split a b).2.1 <;> cases h2 : (split a b).2.2 <;> simp [e1, e2]

/-- The children used by `node_pos`. -/
def kids (split : Split) : Node → Option (Node × Node)
  | .leaf a b _ => children split a b
  | .fork _ _ _ low high => some (low, high)

theorem kids_spec (hs : Estimates L δ split) {n low high : Node} (hn : Inv L δ split n)
    (h : kids split n = some (low, high)) :
    Inv L δ split low ∧ Inv L δ split high ∧ low.tStart = n.tStart ∧ low.tEnd = (split n.tStart n.tEnd).1 ∧
      high.tStart = (split n.tStart n.tEnd).1 ∧ high.tEnd = n.tEnd := by
  cases hn with
  | leaf hab hx => exact children_spec hs hab h
  | fork hab hx h1 h2 h3 h4 hl hh =>
    simp only [kids, Option.some.injEq, Prod.mk.injEq] at h
    obtain ⟨rfl, rfl⟩ := h
    exact ⟨hl, hh, h1, h2, h3, h4⟩

open Classical in
theorem nodePos_eq (n : Node) (r : ℝ) : nodePos split err n r =
    if r ≤ err then some (n.tStart, n)
    else if n.length - r ≤ err then some (n.tEnd, n)
    else (kids split n).bind fun c =>
      if c.1.length > r then
        (nodePos split err c.1 r).bind fun x => some (x.1, .fork n.tStart n.tEnd n.length x.2 c.2)
      else (nodePos split err c.2 (r - c.1.length)).bind fun x =>
        some (x.1, .fork n.tStart n.tEnd n.length c.1 x.2) := by
  rw [nodePos.eq_def]
  cases n <;> rfl

/-- `node_pos` returns. -/
theorem nodePos_returns (hs : Estimates L δ split) (hk : Shrinks ρ η split) {K : ℝ} (hK : 0 ≤ K)
    (hL : ∀ a b, a ≤ b → L b - L a ≤ K * (b - a)) (k : ℕ) :
    ∀ n r, Inv L δ split n → ρ ^ k * ((K + δ) * (n.tEnd - n.tStart)) ≤ 2 * err →
      (nodePos split err n r).isSome := by
  induction k with
  | zero =>
    intro n r hn hw
    rw [pow_zero, one_mul] at hw
    rw [nodePos_eq]
    split_ifs with h1 h2
    · rfl
    · rfl
    · exfalso
      have := (abs_le.1 hn.len).2
      have := hL _ _ hn.le
      nlinarith
  | succ k ih =>
    intro n r hn hw
    rw [nodePos_eq]
    split_ifs with h1 h2
    · rfl
    · rfl
    · have hsome : (kids split n).isSome := by
        cases n with
        | leaf a b x => exact children_isSome hs hk hn.le
        | fork => rfl
      obtain ⟨⟨low, high⟩, hc⟩ := Option.isSome_iff_exists.1 hsome
      obtain ⟨g1, g2, g3, g4, g5, g6⟩ := kids_spec hs hn hc
      rw [hc, Option.bind_some]
      have hp : 0 < ρ ^ k := pow_pos hk.pos _
      have hKd : ∀ w, 0 ≤ w → w ≤ ρ * (n.tEnd - n.tStart) → ρ ^ k * ((K + δ) * w) ≤ 2 * err := by
        intro w hw0 hw1
        rcases hn.le.eq_or_lt with h | h
        · rw [← h, sub_self, mul_zero] at hw1
          obtain rfl : w = 0 := le_antisymm hw1 hw0
          rw [← h, sub_self, mul_zero, mul_zero] at hw
          rwa [mul_zero, mul_zero]
        · have hd : 0 ≤ δ := by
            by_contra hneg
            have := (abs_nonneg _).trans hn.len
            nlinarith
          refine le_trans ?_ hw
          rw [pow_succ, mul_assoc]
          refine mul_le_mul_of_nonneg_left ?_ hp.le
          nlinarith
      split_ifs with h3
      · have := ih low r g1 (hKd _ (by linarith [g1.le]) (by
          rw [g3, g4]; exact hk.low _ _ hn.le))
        obtain ⟨x, hx⟩ := Option.isSome_iff_exists.1 this
        simp [hx]
      · have := ih high (r - low.length) g2 (hKd _ (by linarith [g2.le]) (by
          rw [g5, g6]; exact hk.high _ _ hn.le))
        obtain ⟨x, hx⟩ := Option.isSome_iff_exists.1 this
        simp [hx]

/-- How a tree changes: unexpanded nodes are replaced by expanded ones. -/
inductive Grown (split : Split) : Node → Node → Prop
  | refl (n : Node) : Grown split n n
  | expand {a b x : ℝ} {low high low' high' : Node} (h : children split a b = some (low, high))
      (h1 : Grown split low low') (h2 : Grown split high high') :
      Grown split (.leaf a b x) (.fork a b x low' high')
  | fork {a b x : ℝ} {low high low' high' : Node} (h1 : Grown split low low') (h2 : Grown split high high') :
      Grown split (.fork a b x low high) (.fork a b x low' high')

theorem Grown.fields {n n' : Node} (h : Grown split n n') :
    n'.tStart = n.tStart ∧ n'.tEnd = n.tEnd ∧ n'.length = n.length := by
  cases h <;> exact ⟨rfl, rfl, rfl⟩

theorem Grown.kids {n n' low high : Node} (h : Grown split n n') (hk : kids split n = some (low, high)) :
    ∃ low' high', LinearCurve.kids split n' = some (low', high') ∧ Grown split low low' ∧ Grown split high high' ∧
      ∀ l h, Grown split low l → Grown split high h →
        Grown split n (.fork n.tStart n.tEnd n.length l h) := by
  have key : ∀ l h, Grown split low l → Grown split high h →
      Grown split n (.fork n.tStart n.tEnd n.length l h) := by
    intro l h hl hh
    cases n with
    | leaf a b x => exact .expand hk hl hh
    | fork a b x lo hi =>
      simp only [LinearCurve.kids, Option.some.injEq, Prod.mk.injEq] at hk
      obtain ⟨rfl, rfl⟩ := hk
      exact .fork hl hh
  cases h with
  | refl => exact ⟨low, high, hk, .refl _, .refl _, key⟩
  | expand h h1 h2 =>
    simp only [LinearCurve.kids] at hk
    rw [hk] at h
    simp only [Option.some.injEq, Prod.mk.injEq] at h
    obtain ⟨rfl, rfl⟩ := h
    exact ⟨_, _, rfl, h1, h2, key⟩
  | fork h1 h2 =>
    simp only [LinearCurve.kids, Option.some.injEq, Prod.mk.injEq] at hk
    obtain ⟨rfl, rfl⟩ := hk
    exact ⟨_, _, rfl, h1, h2, key⟩

/-- `node_pos` gives the same parameter in a grown tree. -/
theorem nodePos_grown {n : Node} {r : ℝ} {x : ℝ × Node} (h : nodePos split err n r = some x) :
    ∀ n', Grown split n n' → ∃ n'', nodePos split err n' r = some (x.1, n'') ∧ Grown split n n'' := by
  refine nodePos.partial_correctness split err (fun n r x => ∀ n', Grown split n n' →
    ∃ n'', nodePos split err n' r = some (x.1, n'') ∧ Grown split n n'') ?_ n r x h
  intro f ih n r x h n' hg
  obtain ⟨f1, f2, f3⟩ := hg.fields
  rw [nodePos_eq]
  by_cases h1 : r ≤ err
  · rw [if_pos h1] at h ⊢
    obtain rfl := Option.some.inj h
    exact ⟨n', by rw [f1], hg⟩
  · rw [if_neg h1] at h ⊢
    rw [f3]
    by_cases h2 : n.length - r ≤ err
    · rw [if_pos h2] at h ⊢
      obtain rfl := Option.some.inj h
      exact ⟨n', by rw [f2], hg⟩
    · rw [if_neg h2] at h ⊢
      obtain ⟨⟨low, high⟩, hc, h⟩ := Option.bind_eq_some_iff.1 h
      have hc' : kids split n = some (low, high) := by
        rw [← hc]
        cases n <;> rfl
      obtain ⟨low', high', k1, k2, k3, k4⟩ := hg.kids hc'
      rw [k1, Option.bind_some, k2.fields.2.2, f1, f2]
      by_cases h3 : low.length > r
      · rw [if_pos h3] at h ⊢
        obtain ⟨y, hy, h⟩ := Option.bind_eq_some_iff.1 h
        obtain rfl := Option.some.inj h
        obtain ⟨n'', e1, e2⟩ := ih _ _ _ hy low' k2
        rw [e1]
        exact ⟨_, rfl, k4 _ _ e2 k3⟩
      · rw [if_neg h3] at h ⊢
        obtain ⟨y, hy, h⟩ := Option.bind_eq_some_iff.1 h
        obtain rfl := Option.some.inj h
        obtain ⟨n'', e1, e2⟩ := ih _ _ _ hy high' k3
        rw [e1]
        exact ⟨_, rfl, k4 _ _ k2 e2⟩

/-- The parameter lies in the range. -/
theorem nodePos_mem (hs : Estimates L δ split) {n : Node} {r : ℝ} {x : ℝ × Node}
    (h : nodePos split err n r = some x) : Inv L δ split n → n.tStart ≤ x.1 ∧ x.1 ≤ n.tEnd := by
  refine nodePos.partial_correctness split err (fun n r x => Inv L δ split n →
    n.tStart ≤ x.1 ∧ x.1 ≤ n.tEnd) ?_ n r x h
  intro f ih n r x h hn
  by_cases h1 : r ≤ err
  · rw [if_pos h1] at h
    obtain rfl := Option.some.inj h
    exact ⟨le_rfl, hn.le⟩
  rw [if_neg h1] at h
  by_cases h2 : n.length - r ≤ err
  · rw [if_pos h2] at h
    obtain rfl := Option.some.inj h
    exact ⟨hn.le, le_rfl⟩
  rw [if_neg h2] at h
  obtain ⟨⟨low, high⟩, hc, h⟩ := Option.bind_eq_some_iff.1 h
  have hc' : kids split n = some (low, high) := by
    rw [← hc]
    cases n <;> rfl
  obtain ⟨g1, g2, g3, g4, g5, g6⟩ := kids_spec hs hn hc'
  have b := hs.between _ _ hn.le
  by_cases h3 : low.length > r
  · rw [if_pos h3] at h
    obtain ⟨y, hy, h⟩ := Option.bind_eq_some_iff.1 h
    obtain rfl := Option.some.inj h
    have := ih _ _ _ hy g1
    rw [g3, g4] at this
    exact ⟨this.1, this.2.trans b.2⟩
  · rw [if_neg h3] at h
    obtain ⟨y, hy, h⟩ := Option.bind_eq_some_iff.1 h
    obtain rfl := Option.some.inj h
    have := ih _ _ _ hy g2
    rw [g5, g6] at this
    exact ⟨b.1.trans this.1, this.2⟩

/-- The length up to the parameter is the requested position. -/
theorem nodePos_length (hs : Estimates L δ split) (hδ : 0 ≤ δ) (he : 0 ≤ err) {n : Node} {r : ℝ} {x : ℝ × Node}
    (h : nodePos split err n r = some x) : Inv L δ split n → 0 ≤ r → ∀ D, r ≤ L n.tEnd - L n.tStart + D →
      |L x.1 - L n.tStart - r| ≤ err + max D (δ * (n.tEnd - n.tStart)) + 2 * δ * (n.tEnd - n.tStart) := by
  refine nodePos.partial_correctness split err (fun n r x => Inv L δ split n → 0 ≤ r →
    ∀ D, r ≤ L n.tEnd - L n.tStart + D →
      |L x.1 - L n.tStart - r| ≤ err + max D (δ * (n.tEnd - n.tStart)) + 2 * δ * (n.tEnd - n.tStart)) ?_ n r x h
  intro f ih n r x h hn hr D hD
  have hw : 0 ≤ n.tEnd - n.tStart := by linarith [hn.le]
  have hdw : 0 ≤ δ * (n.tEnd - n.tStart) := mul_nonneg hδ hw
  have m1 := le_max_left D (δ * (n.tEnd - n.tStart))
  have m2 := le_max_right D (δ * (n.tEnd - n.tStart))
  have hlen := abs_le.1 hn.len
  by_cases h1 : r ≤ err
  · rw [if_pos h1] at h
    obtain rfl := Option.some.inj h
    dsimp only
    rw [abs_le]
    constructor <;> linarith
  rw [if_neg h1] at h
  by_cases h2 : n.length - r ≤ err
  · rw [if_pos h2] at h
    obtain rfl := Option.some.inj h
    dsimp only
    rw [abs_le]
    constructor <;> linarith
  rw [if_neg h2] at h
  obtain ⟨⟨low, high⟩, hc, h⟩ := Option.bind_eq_some_iff.1 h
  have hc' : kids split n = some (low, high) := by
    rw [← hc]
    cases n <;> rfl
  obtain ⟨g1, g2, g3, g4, g5, g6⟩ := kids_spec hs hn hc'
  have b := hs.between _ _ hn.le
  have l1 := g1.len
  rw [g3, g4] at l1
  have l1 := abs_le.1 l1
  have a1 := mul_nonneg hδ (sub_nonneg.2 b.1)
  have a2 := mul_nonneg hδ (sub_nonneg.2 b.2)
  by_cases h3 : low.length > r
  · rw [if_pos h3] at h
    obtain ⟨y, hy, h⟩ := Option.bind_eq_some_iff.1 h
    obtain rfl := Option.some.inj h
    have := ih _ _ _ hy g1 hr (δ * ((split n.tStart n.tEnd).1 - n.tStart)) (by rw [g3, g4]; linarith [l1.2])
    rw [g3, g4, max_self] at this
    refine this.trans ?_
    nlinarith
  · rw [if_neg h3] at h
    obtain ⟨y, hy, h⟩ := Option.bind_eq_some_iff.1 h
    obtain rfl := Option.some.inj h
    have := ih _ _ _ hy g2 (by linarith) (D + δ * ((split n.tStart n.tEnd).1 - n.tStart)) (by
      rw [g5, g6]; linarith [l1.1])
    rw [g5, g6] at this
    have hm : max (D + δ * ((split n.tStart n.tEnd).1 - n.tStart)) (δ * (n.tEnd - (split n.tStart n.tEnd).1)) ≤
        max D (δ * (n.tEnd - n.tStart)) + δ * ((split n.tStart n.tEnd).1 - n.tStart) := by
      apply max_le
      · linarith
      · nlinarith
    have hthis := abs_le.1 this
    rw [abs_le]
    constructor <;> nlinarith [hthis.1, hthis.2, l1.1, l1.2]

/-- Larger positions have larger parameters. -/
theorem nodePos_mono (hs : Estimates L δ split) {n : Node} {r : ℝ} {x : ℝ × Node}
    (h : nodePos split err n r = some x) : Inv L δ split n → ∀ r' x', r ≤ r' →
      nodePos split err n r' = some x' → x.1 ≤ x'.1 := by
  refine fun hn => (nodePos.partial_correctness split err (fun n r x => Inv L δ split n →
      (n.tStart ≤ x.1 ∧ x.1 ≤ n.tEnd) ∧ ∀ r' x', r ≤ r' → nodePos split err n r' = some x' → x.1 ≤ x'.1)
    ?_ n r x h hn).2
  intro f ih2 n r x h hn
  have ih := fun n r x h hn => (ih2 n r x h hn).2
  have ih' := fun n r x h hn => (ih2 n r x h hn).1
  refine ⟨?_, ?_⟩
  · clear ih2 ih
    by_cases h1 : r ≤ err
    · rw [if_pos h1] at h
      obtain rfl := Option.some.inj h
      exact ⟨le_rfl, hn.le⟩
    rw [if_neg h1] at h
    by_cases h2 : n.length - r ≤ err
    · rw [if_pos h2] at h
      obtain rfl := Option.some.inj h
      exact ⟨hn.le, le_rfl⟩
    rw [if_neg h2] at h
    obtain ⟨⟨low, high⟩, hc, h⟩ := Option.bind_eq_some_iff.1 h
    have hc' : kids split n = some (low, high) := by
      rw [← hc]
      cases n <;> rfl
    obtain ⟨g1, g2, g3, g4, g5, g6⟩ := kids_spec hs hn hc'
    have b := hs.between _ _ hn.le
    by_cases h3 : low.length > r
    · rw [if_pos h3] at h
      obtain ⟨y, hy, h⟩ := Option.bind_eq_some_iff.1 h
      obtain rfl := Option.some.inj h
      have := ih' _ _ _ hy g1
      rw [g3, g4] at this
      exact ⟨this.1, this.2.trans b.2⟩
    · rw [if_neg h3] at h
      obtain ⟨y, hy, h⟩ := Option.bind_eq_some_iff.1 h
      obtain rfl := Option.some.inj h
      have := ih' _ _ _ hy g2
      rw [g5, g6] at this
      exact ⟨b.1.trans this.1, this.2⟩
  intro r' x' hr h'
  have hmem := nodePos_mem hs h' hn
  by_cases h1 : r ≤ err
  · rw [if_pos h1] at h
    obtain rfl := Option.some.inj h
    exact hmem.1
  rw [if_neg h1] at h
  rw [nodePos_eq, if_neg (by linarith)] at h'
  by_cases h2 : n.length - r ≤ err
  · rw [if_pos h2] at h
    obtain rfl := Option.some.inj h
    rw [if_pos (by linarith)] at h'
    obtain rfl := Option.some.inj h'
    exact le_rfl
  rw [if_neg h2] at h
  obtain ⟨⟨low, high⟩, hc, h⟩ := Option.bind_eq_some_iff.1 h
  have hc' : kids split n = some (low, high) := by
    rw [← hc]
    cases n <;> rfl
  obtain ⟨g1, g2, g3, g4, g5, g6⟩ := kids_spec hs hn hc'
  rw [hc', Option.bind_some] at h'
  by_cases h4 : n.length - r' ≤ err
  · rw [if_pos h4] at h'
    obtain rfl := Option.some.inj h'
    have b := hs.between _ _ hn.le
    by_cases h3 : low.length > r
    · rw [if_pos h3] at h
      obtain ⟨y, hy, h⟩ := Option.bind_eq_some_iff.1 h
      obtain rfl := Option.some.inj h
      have := ih' _ _ _ hy g1
      rw [g4] at this
      exact this.2.trans b.2
    · rw [if_neg h3] at h
      obtain ⟨y, hy, h⟩ := Option.bind_eq_some_iff.1 h
      obtain rfl := Option.some.inj h
      have := ih' _ _ _ hy g2
      rw [g6] at this
      exact this.2
  rw [if_neg h4] at h'
  by_cases h3 : low.length > r
  · rw [if_pos h3] at h
    obtain ⟨y, hy, h⟩ := Option.bind_eq_some_iff.1 h
    obtain rfl := Option.some.inj h
    by_cases h5 : low.length > r'
    · rw [if_pos h5] at h'
      obtain ⟨y', hy', h'⟩ := Option.bind_eq_some_iff.1 h'
      obtain rfl := Option.some.inj h'
      exact ih _ _ _ hy g1 _ y' hr hy'
    · rw [if_neg h5] at h'
      obtain ⟨y', hy', h'⟩ := Option.bind_eq_some_iff.1 h'
      obtain rfl := Option.some.inj h'
      have e1 := ih' _ _ _ hy g1
      have e2 := nodePos_mem hs hy' g2
      rw [g4] at e1
      rw [g5] at e2
      exact e1.2.trans e2.1
  · rw [if_neg h3] at h
    obtain ⟨y, hy, h⟩ := Option.bind_eq_some_iff.1 h
    obtain rfl := Option.some.inj h
    rw [if_neg (show ¬ low.length > r' by linarith)] at h'
    obtain ⟨y', hy', h'⟩ := Option.bind_eq_some_iff.1 h'
    obtain rfl := Option.some.inj h'
    exact ih _ _ _ hy g2 _ y' (by linarith) hy'

end StepperPaths.LinearCurve
