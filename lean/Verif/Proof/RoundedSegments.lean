import Verif.Proof.TaylorBound
import Verif.Proof.FindParam

/-! The errors of `build_segments`, `Verif.Model.RoundedBezier`. -/

namespace StepperPaths.Rounded.Acc
open Spec SqrtPoly

variable {fl : ℝ → ℝ} {pw : ℝ → ℝ → ℝ} {k n m kb nb q : ℕ} {p' p A b' b β : List ℝ} {U r : ℝ}

/-! ### Lists of positive numbers -/

def Pos (A : List ℝ) : Prop := ∀ x ∈ A, 0 ≤ x

theorem Apps.pos (h : Apps k n p' p A) : Pos A := by
  induction h with
  | nil => intro x hx; simp at hx
  | cons h _ ih =>
    intro x hx
    rcases List.mem_cons.1 hx with rfl | hx
    · exact h.nonneg
    · exact ih x hx

theorem Apps.wide (h : Apps k n p' p A) {B : List ℝ} (hB : List.Forall₂ (· ≤ ·) A B) : Apps k n p' p B := by
  induction h generalizing B with
  | nil => cases hB; exact .nil
  | cons h _ ih =>
    cases hB with
    | cons h1 h2 => exact .cons (h.wide h1) (ih h2)

theorem polyval_cons (c : ℝ) (p : List ℝ) (t : ℝ) : polyval (c :: p) t = polyval p t * t + c := rfl

theorem polyval_nonneg (hA : Pos A) {t : ℝ} (ht : 0 ≤ t) : 0 ≤ polyval A t := by
  induction A with
  | nil => exact le_rfl
  | cons c p ih =>
    rw [polyval_cons]
    have := ih fun x hx => hA x (by simp [hx])
    have := hA c (by simp)
    positivity

theorem polyval_mono (hA : Pos A) {t u : ℝ} (ht : 0 ≤ t) (hu : t ≤ u) : polyval A t ≤ polyval A u := by
  induction A with
  | nil => exact le_rfl
  | cons c p ih =>
    have hp : Pos p := fun x hx => hA x (by simp [hx])
    rw [polyval_cons, polyval_cons]
    have h1 := mul_le_mul (ih hp) hu ht (polyval_nonneg hp (ht.trans hu))
    linarith

theorem intFrom_le (hA : Pos A) {t : ℝ} (ht : 0 ≤ t) : ∀ i, polyval (intFrom i A) t ≤ polyval A t := by
  induction A with
  | nil => exact fun _ => le_rfl
  | cons c p ih =>
    intro i
    have hp : Pos p := fun x hx => hA x (by simp [hx])
    rw [intFrom, polyval_cons, polyval_cons]
    have h1 := mul_le_mul_of_nonneg_right (ih hp (i + 1)) ht
    have h2 : c / ((i + 1 : ℕ) : ℝ) ≤ c := div_le_self (hA c (by simp)) (by exact_mod_cast Nat.succ_le_succ (Nat.zero_le i))
    linarith

theorem polyint_le (hA : Pos A) {t : ℝ} (ht : 0 ≤ t) : polyval (polyint A) t ≤ t * polyval A t := by
  rw [polyint, polyval_cons, add_zero, mul_comm]
  exact mul_le_mul_of_nonneg_left (intFrom_le hA ht 0) ht

theorem geoList_wide {U U' ω : ℝ} (h : U ≤ U') (hω : 0 ≤ ω) (n : ℕ) : List.Forall₂ (· ≤ ·) (geoList U ω n) (geoList U' ω n) := by
  unfold geoList
  induction List.range n with
  | nil => exact .nil
  | cons i l ih =>
    refine .cons ?_ ih
    exact mul_le_mul_of_nonneg_right h (by positivity)

theorem geoList_length (U ω : ℝ) (n : ℕ) : (geoList U ω n).length = n := by simp [geoList]

/-! ### Taylor coefficients -/

theorem taylor_nonneg (hA : Pos A) {t : ℝ} (ht : 0 ≤ t) (k : ℕ) : 0 ≤ (Polynomial.taylor t (toPoly A)).coeff k := by
  rw [Polynomial.taylor_coeff, Polynomial.eval_eq_sum_range]
  refine Finset.sum_nonneg fun i _ => mul_nonneg ?_ (by positivity)
  rw [Polynomial.hasseDeriv_coeff, toPoly_coeff]
  refine mul_nonneg (by positivity) ?_
  rw [List.getD_eq_getElem?_getD]
  rcases h : A[i + k]? with _ | x
  · simp
  · exact hA x (List.mem_of_getElem? h)

theorem steep_of (hA : Pos A) {t r s : ℝ} (ht : 0 ≤ t) (hr : 0 < r) (h : polyval A (t + r) - polyval A t ≤ s) :
    Steep t (1 / r) s A := by
  intro k
  refine ⟨taylor_nonneg hA ht _, ?_⟩
  rw [one_div, inv_pow, ← div_eq_mul_inv, le_div_iff₀ (by positivity)]
  refine le_trans ?_ h
  have e1 : polyval A (t + r) = (Polynomial.taylor t (toPoly A)).eval r := by
    rw [Polynomial.taylor_eval, toPoly_eval, add_comm]
  have e2 : polyval A t = (Polynomial.taylor t (toPoly A)).coeff 0 := by
    rw [Polynomial.taylor_coeff_zero, toPoly_eval]
  have hn := taylor_nonneg hA ht
  set P := Polynomial.taylor t (toPoly A) with hP
  rw [e1, e2, Polynomial.eval_eq_sum_range' (n := P.natDegree + k + 2) (by omega)]
  have h1 : (∑ i ∈ {0, k + 1}, P.coeff i * r ^ i) ≤ ∑ i ∈ Finset.range (P.natDegree + k + 2), P.coeff i * r ^ i := by
    refine Finset.sum_le_sum_of_subset_of_nonneg ?_ fun i _ _ => mul_nonneg (hn i) (by positivity)
    intro i hi
    simp only [Finset.mem_insert, Finset.mem_singleton] at hi
    rw [Finset.mem_range]
    omega
  rw [Finset.sum_pair (by omega), pow_zero, mul_one] at h1
  linarith

/-! ### The computed squared speed -/

/-- The squared speed of a curve, as computed, exact, and with a bound for its coefficients. -/
structure Square (fl : ℝ → ℝ) (pw : ℝ → ℝ → ℝ) (kb nb q : ℕ) (U r : ℝ) (b' b β : List ℝ) : Prop where
  round : FloatRounding fl
  pow : FloatPow pw
  base : Apps kb nb b' b β
  len : b.length = 5
  deep : nb ≤ 40
  rpos : 0 < r
  low : ∀ t, 0 ≤ t → t ≤ 1 → 1 / 2 ^ 60 ≤ polyval b t
  high : ∀ t, 0 ≤ t → t ≤ 1 → polyval b t ≤ 2 ^ 60
  fast : ∀ t, 0 ≤ t → t ≤ 1 → √(polyval b t) ≤ U
  wide : ∀ t, 0 ≤ t → t ≤ 1 → polyval β t ≤ q * polyval b t
  steep : ∀ t, 0 ≤ t → t ≤ 1 → polyval β (t + r) - polyval β t ≤ polyval b t
  small : g ((kb + 35) * q) ≤ 1 / 2

/-- The roundings for a Taylor coefficient. -/
def seqCount (kb q : ℕ) : ℕ := taylorCount kb 5 ((kb + 35) * q)

/-- The bounds for the Taylor coefficients. -/
noncomputable def seqBound (U r : ℝ) : List ℝ := geoList U (8 / 5 * (1 / r)) 7

theorem Square.U_nonneg (h : Square fl pw kb nb q U r b' b β) : 0 ≤ U :=
  (Real.sqrt_nonneg _).trans (h.fast 0 le_rfl zero_le_one)

theorem Square.seq (h : Square fl pw kb nb q U r b' b β) {t' t : ℝ} (ht : App 5 5 t' t t) (h1 : t ≤ 1) {c : List ℝ}
    (hc : taylorSequence b t 7 = some c) :
    ∃ c', taylorSequenceF fl pw b' t' 7 = some c' ∧ Apps (seqCount kb q) 681 c' c (seqBound U r) := by
  have h0 : 0 ≤ t := ht.nonneg
  have hd := h.deep
  have hs : 0 < polyval b t := lt_of_lt_of_le (by positivity) (h.low t h0 h1)
  have hv := polyval_app h.round ht h.base (by rw [h.len]; omega)
  have hb : Base fl pw kb nb 5 ((kb + 35) * q) b' b β t' t (polyval b t) := by
    refine ⟨h.round, h.pow, h.base, h.len, ht, rfl, h.low t h0 h1, h.high t h0 h1, ?_, h.small, by omega⟩
    refine hv.err.trans ?_
    rw [h.len]
    calc _ ≤ g (kb + (5 + 2) * 5) * (q * polyval b t) := mul_le_mul_of_nonneg_left (h.wide t h0 h1) (g_nonneg _)
      _ = q * g (kb + 35) * polyval b t := by ring
      _ ≤ _ := mul_le_mul_of_nonneg_right (g_mul _ _) hs.le
  have hst := steep_of h.base.pos h0 h.rpos (h.steep t h0 h1)
  have hr := h.rpos
  obtain ⟨c', e1, e2⟩ := taylorSequence_app hb (by positivity) hst hc
  refine ⟨c', e1, (e2.mono le_rfl (by omega)).wide (geoList_wide (h.fast t h0 h1) (by positivity) 7)⟩

end StepperPaths.Rounded.Acc
