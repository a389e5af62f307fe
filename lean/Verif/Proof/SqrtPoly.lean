import Verif.Model.SqrtPoly
import Mathlib.Data.List.GetD
import Mathlib.Algebra.Polynomial.Eval.Defs
import Mathlib.Algebra.Polynomial.Derivative
import Mathlib.Analysis.Calculus.Deriv.Polynomial
import Mathlib.Data.Nat.Choose.Sum
import Mathlib.Algebra.BigOperators.NatAntidiagonal

/-! Proofs about the polynomial helpers of `Verif.Model.SqrtPoly`. -/

namespace StepperPaths.SqrtPoly
open Polynomial

/-- The polynomial with the given coefficients. -/
noncomputable def toPoly : List ℝ → ℝ[X]
  | [] => 0
  | c :: p => X * toPoly p + C c

theorem toPoly_eval (p : List ℝ) (t : ℝ) : (toPoly p).eval t = polyval p t := by
  induction p with
  | nil => simp [toPoly, polyval]
  | cons c p ih =>
    have : polyval (c :: p) t = polyval p t * t + c := rfl
    simp [toPoly, ih, this, mul_comm]

theorem toPoly_coeff (p : List ℝ) (i : ℕ) : (toPoly p).coeff i = p.getD i 0 := by
  induction p generalizing i with
  | nil => simp [toPoly]
  | cons c p ih =>
    cases i with
    | zero => simp [toPoly]
    | succ i => simp [toPoly, ih, coeff_X_mul]

theorem derFrom_getD (k : ℕ) (p : List ℝ) (i : ℕ) :
    (derFrom k p).getD i 0 = p.getD i 0 * ((k + i + 1 : ℕ) : ℝ) := by
  induction p generalizing k i with
  | nil => simp [derFrom]
  | cons c p ih =>
    cases i with
    | zero => simp [derFrom]
    | succ i =>
      simp only [derFrom, List.getD_cons_succ, ih]
      congr 2; omega

theorem derFrom_length (k : ℕ) (p : List ℝ) : (derFrom k p).length = p.length := by
  induction p generalizing k with
  | nil => rfl
  | cons c p ih => simp [derFrom, ih]

theorem polyder_toPoly {p q : List ℝ} (h : polyder p = some q) :
    toPoly q = derivative (toPoly p) := by
  cases p with
  | nil => simp [polyder] at h
  | cons c p =>
    simp only [polyder, Option.some.injEq] at h
    subst h
    ext i
    rw [toPoly_coeff, derFrom_getD, coeff_derivative, toPoly_coeff]
    simp

theorem polyder_length {p q : List ℝ} (h : polyder p = some q) : q.length + 1 = p.length := by
  cases p with
  | nil => simp [polyder] at h
  | cons c p =>
    simp only [polyder, Option.some.injEq] at h
    subst h
    simp [derFrom_length]

theorem polyder_isSome {p : List ℝ} (h : p ≠ []) : ∃ q, polyder p = some q := by
  cases p with
  | nil => exact absurd rfl h
  | cons c p => exact ⟨_, rfl⟩

theorem intFrom_getD (k : ℕ) (p : List ℝ) (i : ℕ) :
    (intFrom k p).getD i 0 = p.getD i 0 / ((k + i + 1 : ℕ) : ℝ) := by
  induction p generalizing k i with
  | nil => simp [intFrom]
  | cons c p ih =>
    cases i with
    | zero => simp [intFrom]
    | succ i =>
      simp only [intFrom, List.getD_cons_succ, ih]
      congr 2; omega

theorem polyint_derivative (p : List ℝ) : derivative (toPoly (polyint p)) = toPoly p := by
  ext i
  rw [coeff_derivative, toPoly_coeff, toPoly_coeff, polyint, List.getD_cons_succ, intFrom_getD]
  have : ((i : ℝ) + 1) ≠ 0 := by positivity
  push_cast
  simp only [zero_add]
  field_simp

theorem polyint_zero (p : List ℝ) : polyval (polyint p) 0 = 0 := by
  simp [polyint, polyval]

theorem mulSum_spec {a b : List ℝ} {i : ℕ} : ∀ {n j : ℕ} {s r : ℝ},
    mulSum a b i n j s = some r →
    r = s + ∑ k ∈ Finset.Ico j (j + n), a.getD (i - k) 0 * b.getD k 0
  | 0, j, s, r, h => by simp only [mulSum, Option.some.injEq] at h; simp [h]
  | n + 1, j, s, r, h => by
    rw [mulSum] at h
    split at h
    · simp at h
    · obtain ⟨x, hx, h1⟩ := Option.bind_eq_some_iff.1 h
      obtain ⟨y, hy, h2⟩ := Option.bind_eq_some_iff.1 h1
      have := mulSum_spec h2
      rw [this, Finset.sum_eq_sum_Ico_succ_bot (by omega : j < j + (n + 1)),
        List.getD_eq_getElem?_getD, List.getD_eq_getElem?_getD, hx, hy]
      have e : j + 1 + n = j + (n + 1) := by omega
      rw [e]; simp; ring

theorem mulSum_isSome {a b : List ℝ} {i : ℕ} : ∀ {n j : ℕ} {s : ℝ},
    (∀ k, j ≤ k → k < j + n → k ≤ i ∧ i - k < a.length ∧ k < b.length) →
    ∃ r, mulSum a b i n j s = some r
  | 0, j, s, _ => ⟨s, rfl⟩
  | n + 1, j, s, h => by
    obtain ⟨h1, h2, h3⟩ := h j le_rfl (by omega)
    obtain ⟨r, hr⟩ := mulSum_isSome (a := a) (b := b) (i := i) (n := n) (j := j + 1)
      (s := s + a[i - j] * b[j]) (fun k hk hk' => h k (by omega) (by omega))
    refine ⟨r, ?_⟩
    rw [mulSum, if_neg (by omega)]
    simp only [List.getElem?_eq_getElem h2, List.getElem?_eq_getElem h3]
    exact hr

theorem mulCoeff_isSome {a b : List ℝ} {i : ℕ} (hb : b ≠ []) :
    ∃ r, mulCoeff a b i = some r := by
  have hb' : 0 < b.length := List.length_pos_iff.2 hb
  simp only [mulCoeff]
  rw [if_neg (by omega)]
  apply mulSum_isSome
  intro k hk hk'
  split_ifs at hk hk' <;> omega

theorem mulCoeff_spec {a b : List ℝ} {i : ℕ} {r : ℝ} (h : mulCoeff a b i = some r) :
    r = (toPoly a * toPoly b).coeff i := by
  simp only [mulCoeff] at h
  split at h
  · simp at h
  · rename_i hb
    rw [mulSum_spec h, mul_comm (toPoly a), coeff_mul,
      Finset.Nat.sum_antidiagonal_eq_sum_range_succ_mk, zero_add]
    simp only [toPoly_coeff]
    set lo := if i ≥ a.length then i - a.length + 1 else 0 with hlo
    have hsub : Finset.Ico lo (lo + (min i (b.length - 1) + 1 - lo)) ⊆ Finset.range (i + 1) := by
      intro k hk
      rw [Finset.mem_Ico] at hk
      rw [Finset.mem_range]; omega
    rw [← Finset.sum_subset hsub]
    · exact Finset.sum_congr rfl fun k _ => mul_comm _ _
    · intro k hk hk'
      rw [Finset.mem_range] at hk
      rw [Finset.mem_Ico] at hk'
      have : b.length ≤ k ∨ a.length ≤ i - k := by
        split_ifs at hlo <;> omega
      rcases this with h0 | h0
      · rw [List.getD_eq_default _ _ h0]; ring
      · rw [List.getD_eq_default a _ h0]; ring

theorem mapM_spec {f : ℕ → Option ℝ} : ∀ {l : List ℕ} {r : List ℝ}, l.mapM f = some r →
    r.length = l.length ∧ ∀ i k, l[i]? = some k → f k = some (r.getD i 0)
  | [], r, h => by
    simp only [List.mapM_nil] at h
    obtain rfl := (Option.some.inj h).symm
    simp
  | a :: l, r, h => by
    rw [List.mapM_cons] at h
    obtain ⟨x, hx, h1⟩ := Option.bind_eq_some_iff.1 h
    obtain ⟨r1, hr1, h2⟩ := Option.bind_eq_some_iff.1 h1
    obtain rfl := (Option.some.inj h2).symm
    obtain ⟨l1, l2⟩ := mapM_spec hr1
    refine ⟨by simp [l1], ?_⟩
    intro i k hk
    cases i with
    | zero =>
      simp only [List.getElem?_cons_zero, Option.some.injEq] at hk
      subst hk
      simpa using hx
    | succ i =>
      rw [List.getElem?_cons_succ] at hk
      rw [List.getD_cons_succ]
      exact l2 i k hk

theorem mapM_range {f : ℕ → Option ℝ} {n : ℕ} {r : List ℝ}
    (h : (List.range n).mapM f = some r) :
    r.length = n ∧ ∀ i < n, f i = some (r.getD i 0) := by
  obtain ⟨h1, h2⟩ := mapM_spec h
  rw [List.length_range] at h1
  exact ⟨h1, fun i hi => h2 i i (by simp [hi])⟩

theorem mapM_isSome {f : ℕ → Option ℝ} : ∀ {l : List ℕ}, (∀ i ∈ l, ∃ r, f i = some r) →
    ∃ r, l.mapM f = some r
  | [], _ => ⟨[], rfl⟩
  | a :: l, h => by
    obtain ⟨x, hx⟩ := h a (by simp)
    obtain ⟨r, hr⟩ := mapM_isSome (l := l) fun i hi => h i (by simp [hi])
    exact ⟨x :: r, by simp [List.mapM_cons, hx, hr]⟩

theorem polymul_toPoly {a b r : List ℝ} (h : polymul a b = some r) :
    toPoly r = toPoly a * toPoly b := by
  rw [polymul] at h
  split at h
  · simp at h
  · rename_i h0
    obtain ⟨hl, hc⟩ := mapM_range h
    ext i
    rw [toPoly_coeff]
    by_cases hi : i < a.length + b.length - 1
    · exact mulCoeff_spec (hc i hi)
    · rw [List.getD_eq_default _ _ (by omega), coeff_mul]
      symm
      apply Finset.sum_eq_zero
      intro x hx
      rw [Finset.mem_antidiagonal] at hx
      simp only [toPoly_coeff]
      have : a.length ≤ x.1 ∨ b.length ≤ x.2 := by omega
      rcases this with h0 | h0
      · rw [List.getD_eq_default _ _ h0]; ring
      · rw [List.getD_eq_default b _ h0]; ring

theorem polymul_length {a b r : List ℝ} (h : polymul a b = some r) :
    r.length = a.length + b.length - 1 := by
  rw [polymul] at h
  split at h
  · simp at h
  · exact (mapM_range h).1

theorem polymul_isSome {a b : List ℝ} (hb : b ≠ []) : ∃ r, polymul a b = some r := by
  have hb' : 0 < b.length := List.length_pos_iff.2 hb
  rw [polymul, if_neg (by omega)]
  exact mapM_isSome fun i _ => mulCoeff_isSome hb

theorem polymul_nil_iff {a : List ℝ} : (∃ r, polymul a [] = some r) ↔ a.length = 1 := by
  constructor
  · rintro ⟨r, h⟩
    rw [polymul] at h
    split at h
    · simp at h
    · rename_i h0
      simp only [List.length_nil, add_zero] at h0 h
      by_contra hne
      obtain ⟨-, hc⟩ := mapM_range h
      have := hc 0 (by omega)
      simp [mulCoeff] at this
  · intro h
    exact ⟨[], by simp [polymul, h]⟩

theorem addTo_getD : ∀ {a b : List ℝ}, a.length ≤ b.length → ∀ i,
    (addTo a b).getD i 0 = a.getD i 0 + b.getD i 0
  | [], b, _, i => by simp [addTo]
  | x :: xs, [], h, i => by simp at h
  | x :: xs, y :: ys, h, i => by
    cases i with
    | zero => simp [addTo]; ring
    | succ i =>
      simp only [addTo, List.getD_cons_succ]
      exact addTo_getD (by simpa using h) i

theorem addTo_length : ∀ {a b : List ℝ}, a.length ≤ b.length → (addTo a b).length = b.length
  | [], b, _ => rfl
  | x :: xs, [], h => by simp at h
  | x :: xs, y :: ys, h => by
    simp only [addTo, List.length_cons]
    rw [addTo_length (by simpa using h)]

theorem polyadd_toPoly (a b : List ℝ) : toPoly (polyadd a b) = toPoly a + toPoly b := by
  ext i
  rw [coeff_add, toPoly_coeff, toPoly_coeff, toPoly_coeff, polyadd]
  split
  · rw [addTo_getD (by omega)]; ring
  · rw [addTo_getD (by omega)]

theorem polyadd_length (a b : List ℝ) : (polyadd a b).length = max a.length b.length := by
  rw [polyadd]
  split
  · rw [addTo_length (by omega)]; omega
  · rw [addTo_length (by omega)]; omega

/-! ### `binomial_step` and `polyoffset` -/

theorem stepLoop_spec : ∀ {l : List ℕ} {prev : ℕ} {r : List ℕ}, stepLoop prev l = some r →
    r.length = l.length ∧ r.getD (l.length - 1) 0 = 1 ∧
    (1 < l.length → r.getD 0 0 = prev) ∧
    (∀ i, i + 2 < l.length → r.getD (i + 1) 0 = l.getD i 0 + l.getD (i + 1) 0)
  | [], _, _, h => by simp [stepLoop] at h
  | [x], _, _, h => by
    simp only [stepLoop, Option.some.injEq] at h
    subst h
    simp
  | x :: y :: l, prev, r, h => by
    rw [stepLoop] at h
    obtain ⟨p, hp, h1⟩ := Option.bind_eq_some_iff.1 h
    obtain ⟨t, ht, h2⟩ := Option.bind_eq_some_iff.1 h1
    simp only [Option.some.injEq] at h2
    subst h2
    obtain ⟨i1, i2, i3, i4⟩ := stepLoop_spec ht
    have hp' : p = x + y := by
      rw [addU16] at hp
      split at hp
      · exact (Option.some.inj hp).symm
      · simp at hp
    refine ⟨by simp [i1], ?_, by simp, ?_⟩
    · simp only [List.length_cons] at i2 ⊢
      have e : l.length + 1 + 1 - 1 = (l.length + 1 - 1) + 1 := by omega
      rw [e, List.getD_cons_succ, i2]
    · intro i hi
      rw [List.getD_cons_succ]
      cases i with
      | zero =>
        rw [i3 (by simp only [List.length_cons] at hi ⊢; omega), hp']
        simp
      | succ i =>
        rw [i4 i (by simp only [List.length_cons] at hi ⊢; omega)]
        simp

theorem stepLoop_isSome : ∀ {l : List ℕ} {prev : ℕ}, l ≠ [] →
    (∀ i, i + 1 < l.length → l.getD i 0 + l.getD (i + 1) 0 < 65536) →
    ∃ r, stepLoop prev l = some r
  | [], _, h, _ => absurd rfl h
  | [x], _, _, _ => ⟨_, rfl⟩
  | x :: y :: l, prev, _, h => by
    obtain ⟨r, hr⟩ := stepLoop_isSome (l := y :: l) (prev := x + y) (by simp) fun i hi => by
      have := h (i + 1) (by simp only [List.length_cons] at hi ⊢; omega)
      simpa using this
    have h0 := h 0 (by simp)
    simp only [List.getD_cons_zero, List.getD_cons_succ] at h0
    exact ⟨prev :: r, by simp [stepLoop, addU16, h0, hr]⟩

theorem stepLoop_none : ∀ {l : List ℕ} {prev : ℕ} {r : List ℕ}, stepLoop prev l = some r →
    ∀ i, i + 1 < l.length → l.getD i 0 + l.getD (i + 1) 0 < 65536
  | [], _, _, h, i, hi => by simp at hi
  | [x], _, _, h, i, hi => by simp at hi
  | x :: y :: l, prev, r, h, i, hi => by
    rw [stepLoop] at h
    obtain ⟨p, hp, h1⟩ := Option.bind_eq_some_iff.1 h
    obtain ⟨t, ht, h2⟩ := Option.bind_eq_some_iff.1 h1
    cases i with
    | zero =>
      rw [addU16] at hp
      split at hp
      · simpa
      · simp at hp
    | succ i =>
      have := stepLoop_none ht i (by simp only [List.length_cons] at hi ⊢; omega)
      simpa using this

/-- The first `i` entries of `bin` are row `i - 1` of Pascal's triangle, the others are zero. -/
structure Pascal (bin : List ℕ) (len i : ℕ) : Prop where
  length : bin.length = len
  row : ∀ j, j < i → bin.getD j 0 = (i - 1).choose j
  rest : ∀ j, i ≤ j → bin.getD j 0 = 0

theorem take_getD {l : List ℕ} {n j : ℕ} (h : j < n) : (l.take n).getD j 0 = l.getD j 0 := by
  simp [List.getD_eq_getElem?_getD, h]

theorem Pascal.step {bin : List ℕ} {len i : ℕ} (h : Pascal bin len i) (hi : i < len)
    {row : List ℕ} (hr : binomialStep (bin.take (i + 1)) = some row) :
    Pascal (row ++ bin.drop (i + 1)) len (i + 1) ∧
    (∀ j, j + 1 < i + 1 → i.choose (j + 1) < 65536) := by
  obtain ⟨x, l, hl⟩ : ∃ x l, bin.take (i + 1) = x :: l := by
    have hlen : (bin.take (i + 1)).length = i + 1 := by rw [List.length_take, h.length]; omega
    cases e : bin.take (i + 1) with
    | nil => simp [e] at hlen
    | cons x l => exact ⟨x, l, rfl⟩
  have hlen : (x :: l).length = i + 1 := by rw [← hl, List.length_take, h.length]; omega
  rw [hl, binomialStep] at hr
  have hlen' : (1 :: l).length = i + 1 := by simpa using hlen
  obtain ⟨r1, r2, r3, r4⟩ := stepLoop_spec hr
  have hn := stepLoop_none hr
  rw [hlen'] at r1 r2 r3 r4 hn
  have hget : ∀ j, j < i → (1 :: l).getD j 0 = (i - 1).choose j := by
    intro j hj
    cases j with
    | zero => simp
    | succ j =>
      rw [List.getD_cons_succ, ← List.getD_cons_succ (x := x), ← hl, take_getD (by omega)]
      exact h.row _ hj
  have hget0 : 0 < i → (1 :: l).getD i 0 = 0 := by
    intro hj
    obtain ⟨k, rfl⟩ : ∃ k, i = k + 1 := ⟨i - 1, by omega⟩
    rw [List.getD_cons_succ, ← List.getD_cons_succ (x := x), ← hl, take_getD (by omega)]
    exact h.rest _ le_rfl
  have hadd : ∀ j, j + 1 < i + 1 →
      (1 :: l).getD j 0 + (1 :: l).getD (j + 1) 0 = i.choose (j + 1) := by
    intro j hj
    obtain ⟨k, rfl⟩ : ∃ k, i = k + 1 := ⟨i - 1, by omega⟩
    rw [hget j (by omega), Nat.add_sub_cancel, Nat.choose_succ_succ]
    congr 1
    by_cases hj' : j + 1 < k + 1
    · rw [hget (j + 1) hj', Nat.add_sub_cancel]
    · have : j = k := by omega
      subst this
      rw [hget0 (by omega)]
      simp
  refine ⟨⟨?_, ?_, ?_⟩, ?_⟩
  · rw [List.length_append, r1, List.length_drop, h.length]; omega
  · intro j hj
    rw [List.getD_append _ _ _ _ (by omega), Nat.add_sub_cancel]
    cases j with
    | zero =>
      by_cases h0 : i = 0
      · subst h0; simpa using r2
      · rw [r3 (by omega)]; simp
    | succ j =>
      by_cases hj' : j + 2 < i + 1
      · rw [r4 j hj', hadd j hj]
      · have : i = j + 1 := by omega
        subst this
        simpa using r2
  · intro j hj
    rw [List.getD_append_right _ _ _ _ (by omega), r1]
    have := h.rest j (by omega)
    rw [List.getD_eq_getElem?_getD, List.getElem?_drop, ← List.getD_eq_getElem?_getD]
    rw [show i + 1 + (j - (i + 1)) = j by omega]
    exact this
  · intro j hj
    rw [← hadd j hj]
    exact hn j hj

theorem Pascal.isSome {bin : List ℕ} {len i : ℕ} (h : Pascal bin len i) (hi : i < len)
    (hs : i < 19) : ∃ row, binomialStep (bin.take (i + 1)) = some row := by
  obtain ⟨x, l, hl⟩ : ∃ x l, bin.take (i + 1) = x :: l := by
    have hlen : (bin.take (i + 1)).length = i + 1 := by rw [List.length_take, h.length]; omega
    cases e : bin.take (i + 1) with
    | nil => simp [e] at hlen
    | cons x l => exact ⟨x, l, rfl⟩
  have hlen : (x :: l).length = i + 1 := by rw [← hl, List.length_take, h.length]; omega
  rw [hl, binomialStep]
  have hlen' : (1 :: l).length = i + 1 := by simpa using hlen
  apply stepLoop_isSome (by simp)
  rw [hlen']
  have hget : ∀ j, j < i + 1 → 0 < i → (1 :: l).getD j 0 = (i - 1).choose j := by
    intro j hj h0
    cases j with
    | zero => simp
    | succ j =>
      rw [List.getD_cons_succ, ← List.getD_cons_succ (x := x), ← hl, take_getD (by omega)]
      by_cases hj' : j + 1 < i
      · exact h.row _ hj'
      · rw [h.rest _ (by omega), Nat.choose_eq_zero_of_lt (by omega)]
  intro j hj
  rw [hget j (by omega) (by omega), hget (j + 1) hj (by omega), ← Nat.choose_succ_succ,
    Nat.succ_eq_add_one, Nat.succ_eq_add_one, Nat.sub_add_cancel (by omega)]
  calc i.choose (j + 1) ≤ Nat.choose 18 (j + 1) := Nat.choose_le_choose _ (by omega)
    _ ≤ Nat.choose 18 (18 / 2) := Nat.choose_le_middle _ _
    _ < 65536 := by decide

theorem polyval_set {res : List ℝ} {k : ℕ} {r : ℝ} (h : res[k]? = some r) (v t : ℝ) :
    polyval (res.set k (r + v)) t = polyval res t + v * t ^ k := by
  induction res generalizing k with
  | nil => simp at h
  | cons c p ih =>
    cases k with
    | zero =>
      simp only [List.getElem?_cons_zero, Option.some.injEq] at h
      subst h
      simp only [List.set_cons_zero, polyval, List.foldr_cons]
      ring
    | succ k =>
      simp only [List.getElem?_cons_succ] at h
      have := ih h
      simp only [polyval, List.set_cons_succ, List.foldr_cons] at this ⊢
      rw [this]; ring

theorem offsetInner_spec {c off : ℝ} {bin : List ℕ} {i : ℕ} (t : ℝ) :
    ∀ {n j : ℕ} {f : ℝ} {res r : List ℝ}, offsetInner c off bin i n j f res = some r →
    polyval r t = polyval res t +
      ∑ k ∈ Finset.range n, c * (bin.getD (j + k) 0 : ℝ) * (f * off ^ k) * t ^ (i - (j + k)) ∧
    r.length = res.length
  | 0, j, f, res, r, h => by
    simp only [offsetInner, Option.some.injEq] at h; simp [h]
  | n + 1, j, f, res, r, h => by
    rw [offsetInner] at h
    split at h
    · simp at h
    · obtain ⟨b, hb, h1⟩ := Option.bind_eq_some_iff.1 h
      obtain ⟨x, hx, h2⟩ := Option.bind_eq_some_iff.1 h1
      obtain ⟨i1, i2⟩ := offsetInner_spec t h2
      refine ⟨?_, by rw [i2, List.length_set]⟩
      rw [i1, polyval_set hx, Finset.sum_range_succ']
      have e : bin.getD j 0 = b := by rw [List.getD_eq_getElem?_getD, hb]; rfl
      simp only [add_zero, e, pow_zero, mul_one]
      rw [add_assoc, add_comm (c * (b : ℝ) * f * t ^ (i - j))]
      congr 2
      apply Finset.sum_congr rfl
      intro k _
      rw [show j + 1 + k = j + (k + 1) by omega, pow_succ]
      ring

theorem offsetInner_isSome {c off : ℝ} {bin : List ℕ} {i : ℕ} :
    ∀ {n j : ℕ} {f : ℝ} {res : List ℝ}, j + n ≤ i + 1 → i < bin.length → i < res.length →
    ∃ r, offsetInner c off bin i n j f res = some r
  | 0, _, _, res, _, _, _ => ⟨res, rfl⟩
  | n + 1, j, f, res, h1, h2, h3 => by
    obtain ⟨r, hr⟩ := offsetInner_isSome (c := c) (off := off) (bin := bin) (i := i) (n := n)
      (j := j + 1) (f := f * off) (res := res.set (i - j) (res[i - j] + c * (bin[j] : ℝ) * f))
      (by omega) h2 (by simpa using h3)
    refine ⟨r, ?_⟩
    rw [offsetInner, if_neg (by omega), List.getElem?_eq_getElem (show j < bin.length by omega),
      List.getElem?_eq_getElem (show i - j < res.length by omega)]
    exact hr

theorem polyval_append (a b : List ℝ) (t : ℝ) :
    polyval (a ++ b) t = polyval a t + t ^ a.length * polyval b t := by
  induction a with
  | nil => simp [polyval]
  | cons c a ih =>
    have h1 : ∀ p, polyval (c :: p) t = polyval p t * t + c := fun _ => rfl
    rw [List.cons_append, h1, h1, ih, List.length_cons, pow_succ]; ring

theorem polyval_take_succ {p : List ℝ} {i : ℕ} {c : ℝ} (h : p[i]? = some c) (t : ℝ) :
    polyval (p.take (i + 1)) t = polyval (p.take i) t + c * t ^ i := by
  have hi : i < p.length := (List.getElem?_eq_some_iff.1 h).1
  rw [List.take_add_one, h, polyval_append, List.length_take, min_eq_left (by omega)]
  simp [polyval]; ring

theorem offsetLoop_spec {p : List ℝ} {off t : ℝ} :
    ∀ {n i : ℕ} {bin : List ℕ} {res r : List ℝ}, offsetLoop p off n i bin res = some r →
    Pascal bin p.length i → i + n = p.length →
    polyval res t = polyval (p.take i) (t + off) → polyval r t = polyval p (t + off) ∧
    r.length = res.length
  | 0, i, bin, res, r, h, hp, hn, hv => by
    simp only [offsetLoop, Option.some.injEq] at h
    subst h
    rw [hv, List.take_of_length_le (by omega)]
    simp
  | n + 1, i, bin, res, r, h, hp, hn, hv => by
    rw [offsetLoop] at h
    split at h
    · simp at h
    · obtain ⟨row, hrow, h1⟩ := Option.bind_eq_some_iff.1 h
      obtain ⟨c, hc, h2⟩ := Option.bind_eq_some_iff.1 h1
      obtain ⟨res1, hres1, h3⟩ := Option.bind_eq_some_iff.1 h2
      obtain ⟨hp', -⟩ := hp.step (by omega) hrow
      obtain ⟨v1, l1⟩ := offsetInner_spec t hres1
      have := offsetLoop_spec (t := t) h3 hp' (by omega) ?_
      · exact ⟨this.1, this.2.trans l1⟩
      · rw [v1, hv, polyval_take_succ hc, add_comm t off, add_pow, Finset.mul_sum]
        congr 1
        apply Finset.sum_congr rfl
        intro k hk
        rw [Finset.mem_range] at hk
        rw [zero_add, hp'.row k hk, Nat.add_sub_cancel]
        ring

theorem offsetLoop_isSome {p : List ℝ} {off : ℝ} :
    ∀ {n i : ℕ} {bin : List ℕ} {res : List ℝ}, Pascal bin p.length i → i + n = p.length →
    res.length = p.length → p.length ≤ 19 → ∃ r, offsetLoop p off n i bin res = some r
  | 0, i, bin, res, _, _, _, _ => ⟨res, rfl⟩
  | n + 1, i, bin, res, hp, hn, hl, hs => by
    obtain ⟨row, hrow⟩ := hp.isSome (by omega) (by omega)
    obtain ⟨hp', -⟩ := hp.step (by omega) hrow
    obtain ⟨r1, hr1⟩ := offsetInner_isSome (c := p[i]) (off := off)
      (bin := row ++ bin.drop (i + 1)) (i := i) (n := i + 1) (j := 0) (f := 1) (res := res)
      (by omega) (by rw [hp'.length]; omega) (by omega)
    have hl1 := (offsetInner_spec 0 hr1).2
    obtain ⟨r, hr⟩ := offsetLoop_isSome (off := off) (n := n) (res := r1) hp' (by omega)
      (by omega) hs
    refine ⟨r, ?_⟩
    rw [offsetLoop, if_neg (by rw [hp.length]; omega)]
    simp only [hrow, List.getElem?_eq_getElem (show i < p.length by omega)]
    simp [hr1, hr]

theorem offsetLoop_small {p : List ℝ} {off : ℝ} :
    ∀ {n i : ℕ} {bin : List ℕ} {res r : List ℝ}, offsetLoop p off n i bin res = some r →
    Pascal bin p.length i → i + n = p.length → i ≤ 19 → p.length ≤ 19
  | 0, i, bin, res, r, h, hp, hn, hi => by omega
  | n + 1, i, bin, res, r, h, hp, hn, hi => by
    rw [offsetLoop] at h
    split at h
    · simp at h
    · obtain ⟨row, hrow, h1⟩ := Option.bind_eq_some_iff.1 h
      obtain ⟨c, hc, h2⟩ := Option.bind_eq_some_iff.1 h1
      obtain ⟨res1, hres1, h3⟩ := Option.bind_eq_some_iff.1 h2
      obtain ⟨hp', hb⟩ := hp.step (by omega) hrow
      refine offsetLoop_small h3 hp' (by omega) ?_
      by_contra hne
      have : i = 19 := by omega
      subst this
      have := hb 8 (by omega)
      exact absurd this (by decide)

theorem pascal_init (n : ℕ) : Pascal (List.replicate n 0) n 0 :=
  ⟨by simp, by simp, fun j _ => by
    rw [List.getD_eq_getElem?_getD, List.getElem?_replicate]; split <;> rfl⟩

theorem polyval_replicate (n : ℕ) (t : ℝ) : polyval (List.replicate n 0) t = 0 := by
  induction n with
  | zero => rfl
  | succ n ih =>
    have h1 : ∀ p, polyval (0 :: p) t = polyval p t * t + 0 := fun _ => rfl
    rw [List.replicate_succ, h1, ih]; ring

theorem polyoffset_spec {p r : List ℝ} {off : ℝ} (h : polyoffset p off = some r) (t : ℝ) :
    polyval r t = polyval p (t + off) ∧ r.length = p.length := by
  have := offsetLoop_spec (t := t) h (pascal_init _) (by omega)
    (by rw [polyval_replicate]; simp [polyval])
  simpa using this

theorem polyoffset_isSome {p : List ℝ} {off : ℝ} :
    (∃ r, polyoffset p off = some r) ↔ p.length ≤ 19 := by
  constructor
  · rintro ⟨r, h⟩
    exact offsetLoop_small h (pascal_init _) (by omega) (by omega)
  · intro h
    exact offsetLoop_isSome (pascal_init _) (by omega) (by simp) h

theorem polyweight_spec {a b r : List ℝ} {ta tb : ℝ} (h : polyweight a ta b tb = some r)
    (t : ℝ) :
    polyval r t = polyval a t * ((t - tb) / (ta - tb)) + polyval b t * ((t - ta) / (tb - ta)) := by
  rw [polyweight] at h
  obtain ⟨x, hx, h1⟩ := Option.bind_eq_some_iff.1 h
  obtain ⟨y, hy, h2⟩ := Option.bind_eq_some_iff.1 h1
  simp only [Option.some.injEq] at h2
  subst h2
  rw [← toPoly_eval, polyadd_toPoly, polymul_toPoly hx, polymul_toPoly hy, eval_add, eval_mul,
    eval_mul, toPoly_eval, toPoly_eval, toPoly_eval, toPoly_eval]
  simp only [polyval, List.foldr_cons, List.foldr_nil]
  ring

theorem polyweight_isSome {a b : List ℝ} {ta tb : ℝ} (ha : a ≠ []) (hb : b ≠ []) :
    ∃ r, polyweight a ta b tb = some r := by
  obtain ⟨x, hx⟩ := polymul_isSome (a := [-tb / (ta - tb), 1 / (ta - tb)]) ha
  obtain ⟨y, hy⟩ := polymul_isSome (a := [-ta / (tb - ta), 1 / (tb - ta)]) hb
  exact ⟨polyadd x y, by rw [polyweight, hx, hy]; rfl⟩

end StepperPaths.SqrtPoly
