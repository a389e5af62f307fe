import Verif.Proof.RoundedTaylor
import Mathlib.Algebra.Polynomial.Taylor
import Mathlib.RingTheory.PowerSeries.Derivative

/-! Bounds for the derivatives in `taylor_sequence` when all terms are added with the same sign. -/

namespace StepperPaths.Rounded.Acc
open Spec SqrtPoly PowerSeries

/-- The geometric series. -/
noncomputable def geo (lam : ℝ) : PowerSeries ℝ := PowerSeries.mk fun k => lam ^ k

theorem geo_pow_nonneg {lam : ℝ} (h : 0 ≤ lam) (r k : ℕ) : 0 ≤ coeff k (geo lam ^ r) := by
  induction r generalizing k with
  | zero => rw [pow_zero, coeff_one]; split <;> norm_num
  | succ r ih =>
    rw [pow_succ, coeff_mul]
    refine Finset.sum_nonneg fun i _ => mul_nonneg (ih _) ?_
    rw [geo, coeff_mk]; positivity

theorem geo_pow_zero {lam : ℝ} (r : ℕ) : coeff 0 (geo lam ^ r) = 1 := by
  rw [coeff_zero_eq_constantCoeff_apply, map_pow]
  have : constantCoeff (geo lam) = 1 := by rw [← coeff_zero_eq_constantCoeff_apply, geo, coeff_mk, pow_zero]
  rw [this, one_pow]

theorem geo_inv (lam : ℝ) : geo lam * (1 - PowerSeries.C lam * X) = 1 := by
  ext k
  rw [mul_sub, mul_one, map_sub, ← mul_assoc, mul_comm (geo lam), mul_assoc, coeff_C_mul]
  cases k with
  | zero => simp [geo]
  | succ k => rw [coeff_succ_mul_X, geo, coeff_mk, coeff_mk, coeff_one, if_neg (by omega), pow_succ]; ring

theorem geo_deriv (lam : ℝ) : d⁄dX ℝ (geo lam) = PowerSeries.C lam * geo lam ^ 2 := by
  have h := congrArg (d⁄dX ℝ) (geo_inv lam)
  rw [Derivation.leibniz] at h
  simp only [map_sub, Derivation.leibniz, smul_eq_mul, Derivation.map_one_eq_zero, derivative_C, derivative_X] at h
  have h2 := congrArg (fun z => z * geo lam) h
  have e := geo_inv lam
  have h3 : d⁄dX ℝ (geo lam) * ((geo lam) * (1 - PowerSeries.C lam * X)) = PowerSeries.C lam * geo lam ^ 2 := by
    linear_combination h2
  rwa [e, mul_one] at h3

theorem geo_pow_deriv (lam : ℝ) (r : ℕ) : d⁄dX ℝ (geo lam ^ r) = (r : PowerSeries ℝ) * PowerSeries.C lam * geo lam ^ (r + 1) := by
  cases r with
  | zero => simp
  | succ r =>
    rw [Derivation.leibniz_pow, geo_deriv, Nat.add_sub_cancel, nsmul_eq_mul, smul_eq_mul]
    ring

/-- The Taylor coefficients of a polynomial at `t` are at most those of a multiple of a power of the
geometric series. -/
def Dom (t lam : ℝ) (r : ℕ) (C : ℝ) (P : List ℝ) : Prop :=
  ∀ k, 0 ≤ (Polynomial.taylor t (toPoly P)).coeff k ∧ (Polynomial.taylor t (toPoly P)).coeff k ≤ C * coeff k (geo lam ^ r)

variable {t lam s : ℝ} {r r' : ℕ} {C C' : ℝ} {P Q R β : List ℝ}

theorem Dom.eval (h : Dom t lam r C P) : polyval P t ≤ C := by
  have := (h 0).2
  rwa [Polynomial.taylor_coeff_zero, geo_pow_zero, mul_one, toPoly_eval] at this

theorem Dom.mul (hl : 0 ≤ lam) (hC : 0 ≤ C) (h : Dom t lam r C P) (h' : Dom t lam r' C' Q) (hm : polymul P Q = some R) :
    Dom t lam (r + r') (C * C') R := by
  intro k
  rw [polymul_toPoly hm, Polynomial.taylor_mul, Polynomial.coeff_mul]
  refine ⟨Finset.sum_nonneg fun i _ => mul_nonneg (h _).1 (h' _).1, ?_⟩
  rw [pow_add, coeff_mul, Finset.mul_sum]
  refine Finset.sum_le_sum fun i _ => ?_
  refine (mul_le_mul (h _).2 (h' _).2 (h' _).1 (mul_nonneg hC (geo_pow_nonneg hl _ _))).trans (le_of_eq ?_)
  ring

theorem taylor_der (P Q : List ℝ) (h : polyder P = some Q) (k : ℕ) :
    (Polynomial.taylor t (toPoly Q)).coeff k = (Polynomial.taylor t (toPoly P)).coeff (k + 1) * (k + 1) := by
  rw [← Polynomial.coeff_derivative, Polynomial.taylor_apply, Polynomial.taylor_apply, Polynomial.derivative_comp, polyder_toPoly h]
  simp

theorem geo_pow_coeff (lam : ℝ) (r k : ℕ) :
    coeff (k + 1) (geo lam ^ r) * (k + 1) = r * lam * coeff k (geo lam ^ (r + 1)) := by
  have e : (r : PowerSeries ℝ) = PowerSeries.C (r : ℝ) := (map_natCast _ r).symm
  rw [← coeff_derivative, geo_pow_deriv, mul_assoc, e, coeff_C_mul, coeff_C_mul, mul_assoc]

theorem Dom.der (h : Dom t lam r C P) (hd : polyder P = some Q) : Dom t lam (r + 1) (C * (r * lam)) Q := by
  intro k
  rw [taylor_der P Q hd]
  refine ⟨mul_nonneg (h _).1 (by positivity), ?_⟩
  have := mul_le_mul_of_nonneg_right (h (k + 1)).2 (by positivity : (0 : ℝ) ≤ k + 1)
  refine this.trans (le_of_eq ?_)
  rw [mul_assoc, geo_pow_coeff]
  ring

/-- The bound of the squared speed. -/
def Steep (t lam s : ℝ) (β : List ℝ) : Prop :=
  ∀ k, 0 ≤ (Polynomial.taylor t (toPoly β)).coeff (k + 1) ∧ (Polynomial.taylor t (toPoly β)).coeff (k + 1) ≤ s * lam ^ (k + 1)

theorem Steep.der (h : Steep t lam s β) (hd : polyder β = some Q) : Dom t lam 2 (s * lam) Q := by
  intro k
  rw [taylor_der β Q hd]
  refine ⟨mul_nonneg (h _).1 (by positivity), ?_⟩
  have := mul_le_mul_of_nonneg_right (h k).2 (by positivity : (0 : ℝ) ≤ k + 1)
  refine this.trans (le_of_eq ?_)
  have e := geo_pow_coeff lam 1 k
  have e1 : coeff (k + 1) (geo lam ^ 1) = lam ^ (k + 1) := by rw [pow_one, geo, coeff_mk]
  rw [e1, Nat.cast_one, one_mul] at e
  rw [mul_assoc, e]
  ring

theorem dom_one : Dom t lam 0 1 [1] := by
  intro k
  have e : toPoly [1] = 1 := by simp [toPoly]
  rw [e, Polynomial.taylor_one, Polynomial.C_1, Polynomial.coeff_one, pow_zero, coeff_one]
  split <;> norm_num

/-! ### Terms -/

/-- A term after `n` derivatives, `m` of them of the root; `v` bounds its value. -/
def DomT (s t lam : ℝ) (n : ℕ) (M : Term) (v : ℝ) : Prop :=
  ∃ (m : ℕ) (C : ℝ), m ≤ n ∧ M.e = 1 - 2 * (m : ℤ) ∧ 0 ≤ C ∧ Dom t lam (n + m) C M.polynom ∧ v = s ^ ((M.e : ℝ) / 2) * |M.c| * C

inductive W (s t lam : ℝ) (n : ℕ) : List Term → ℝ → Prop
  | nil : W s t lam n [] 0
  | cons {M v ts V} : DomT s t lam n M v → W s t lam n ts V → W s t lam n (M :: ts) (v + V)

theorem W.append {n : ℕ} {a b : List Term} {u v : ℝ} (h : W s t lam n a u) (h' : W s t lam n b v) : W s t lam n (a ++ b) (u + v) := by
  induction h with
  | nil => simpa using h'
  | cons h _ ih => rw [add_assoc]; exact .cons h ih

theorem W.one {n : ℕ} {M : Term} {v : ℝ} (h : DomT s t lam n M v) : W s t lam n [M] v := by
  have := W.cons h .nil
  rwa [add_zero] at this

theorem DomT.eval {n : ℕ} {M : Term} {v : ℝ} (hs : 0 < s) (h : DomT s t lam n M v) : evalM s t M ≤ v := by
  obtain ⟨m, C, -, -, -, h1, rfl⟩ := h
  exact mul_le_mul_of_nonneg_left h1.eval (mul_nonneg (Real.rpow_nonneg hs.le _) (abs_nonneg _))

theorem DomT.nonneg {n : ℕ} {M : Term} {v : ℝ} (hs : 0 < s) (h : DomT s t lam n M v) : 0 ≤ v := by
  obtain ⟨m, C, -, -, h0, h1, rfl⟩ := h
  exact mul_nonneg (mul_nonneg (Real.rpow_nonneg hs.le _) (abs_nonneg _)) h0

theorem W.sum {n : ℕ} {ms : List Term} {v : ℝ} (hs : 0 < s) (h : W s t lam n ms v) : sumM s t ms ≤ v := by
  induction h with
  | nil => simp [sumM]
  | cons h _ ih =>
    have := h.eval hs
    simp only [sumM, List.map_cons, List.sum_cons] at ih ⊢
    linarith

/-- The growth in step `n`. -/
noncomputable def kap (n : ℕ) : ℝ := if n = 0 then 1 / 2 else 3 * n - 1 / 2

theorem kap_le {n m : ℕ} (h : m ≤ n) : |((1 - 2 * (m : ℤ) : ℤ) : ℝ)| / 2 + (n + m) ≤ kap n := by
  unfold kap
  have hm : (m : ℝ) ≤ n := by exact_mod_cast h
  push_cast
  split
  · subst n
    have : m = 0 := by omega
    subst this
    norm_num
  · rename_i hn
    have h1 : (1 : ℝ) ≤ n := by exact_mod_cast Nat.one_le_iff_ne_zero.2 hn
    rcases Nat.eq_zero_or_pos m with rfl | h0
    · norm_num; linarith
    · have h2 : (1 : ℝ) ≤ m := by exact_mod_cast h0
      rw [abs_of_nonpos (by linarith)]
      linarith

theorem diffSingle_dom (hs : 0 < s) (hl : 0 ≤ lam) (hβ : Steep t lam s β) {n : ℕ} {M d1 d2 : Term} {v : ℝ}
    (hM : DomT s t lam n M v) (h : diffSingle ⟨t, β⟩ M = some (d1, d2)) :
    ∃ v1 v2, DomT s t lam (n + 1) d1 v1 ∧ DomT s t lam (n + 1) d2 v2 ∧ v1 + v2 ≤ lam * kap n * v := by
  rw [diffSingle] at h
  obtain ⟨db, h1, h⟩ := Option.bind_eq_some_iff.1 h
  obtain ⟨m', h2, h⟩ := Option.bind_eq_some_iff.1 h
  obtain ⟨dp, h3, h⟩ := Option.bind_eq_some_iff.1 h
  rw [Option.some.injEq, Prod.mk.injEq] at h
  obtain ⟨rfl, rfl⟩ := h
  have hv := hM.nonneg hs
  obtain ⟨m, C, hm, he, hC, hd, rfl⟩ := hM
  refine ⟨_, _, ⟨m + 1, C * (s * lam), by omega, ?_, by positivity, ?_, rfl⟩,
    ⟨m, C * ((n + m : ℕ) * lam), by omega, he, by positivity, ?_, rfl⟩, ?_⟩
  · simp only [he]; push_cast; ring
  · have := hd.mul hl hC (hβ.der h1) h2
    have e : n + 1 + (m + 1) = n + m + 2 := by ring
    rw [e]; exact this
  · have := hd.der h3
    have e : n + 1 + m = n + m + 1 := by ring
    rw [e]; exact this
  · simp only
    have e1 : s ^ (((M.e - 2 : ℤ) : ℝ) / 2) * s = s ^ ((M.e : ℝ) / 2) := by
      rw [← Real.rpow_add_one hs.ne']
      congr 1
      push_cast; ring
    have e2 : |M.c * (1 / 2) * (M.e : ℝ)| = |M.c| * (|(M.e : ℝ)| / 2) := by
      rw [abs_mul, abs_mul, abs_of_pos (by norm_num : (0 : ℝ) < 1 / 2)]; ring
    rw [e2]
    have hk := kap_le hm
    rw [← he] at hk
    calc _ = lam * (|(M.e : ℝ)| / 2 + (n + m)) * (s ^ ((M.e : ℝ) / 2) * |M.c| * C) := by
          rw [← e1]; push_cast; ring
      _ ≤ _ := by
          apply mul_le_mul_of_nonneg_right _ hv
          exact mul_le_mul_of_nonneg_left hk hl

theorem diffLoop_dom (hs : 0 < s) (hl : 0 ≤ lam) (hβ : Steep t lam s β) {n : ℕ} {ms : List Term} {V : ℝ}
    (hM : W s t lam n ms V) : ∀ {res out : List Term} {x y V0 : ℝ}, W s t lam (n + 1) res V0 →
      diffLoop ⟨t, β⟩ ms res x = some (out, y) → ∃ V1, W s t lam (n + 1) out V1 ∧ V1 ≤ V0 + lam * kap n * V := by
  induction hM with
  | nil =>
    intro res out x y V0 hr h
    simp only [diffLoop, Option.some.injEq, Prod.mk.injEq] at h
    rw [← h.1]
    exact ⟨V0, hr, by simp⟩
  | @cons M v ts V hd _ ih =>
    intro res out x y V0 hr h
    rw [diffLoop] at h
    obtain ⟨⟨d1, d2⟩, h1, h⟩ := Option.bind_eq_some_iff.1 h
    obtain ⟨v1, v2, w1, w2, w3⟩ := diffSingle_dom hs hl hβ hd h1
    have n2 := w2.nonneg hs
    simp only at h
    split at h
    · obtain ⟨V1, q1, q2⟩ := ih (hr.append (.one w1)) h
      exact ⟨V1, q1, by linarith⟩
    · obtain ⟨V1, q1, q2⟩ := ih ((hr.append (.one w1)).append (.one w2)) h
      exact ⟨V1, q1, by linarith⟩

/-! ### The sequence -/

/-- The bounds of the coefficients. -/
noncomputable def geoList (U ω : ℝ) (n : ℕ) : List ℝ := (List.range n).map fun i => U * ω ^ i

theorem geoList_succ (U ω : ℝ) (n : ℕ) : geoList U ω (n + 1) = geoList U ω n ++ [U * ω ^ n] := by
  simp [geoList, List.range_succ]

/-- The bound after `n` derivatives, without the powers. -/
noncomputable def grown : ℕ → ℝ
  | 0 => 1
  | n + 1 => kap n * grown n

theorem grown_le {n : ℕ} (hn : n ≤ 6) : grown n / n.factorial ≤ (8 / 5) ^ n := by
  have : n = 0 ∨ n = 1 ∨ n = 2 ∨ n = 3 ∨ n = 4 ∨ n = 5 ∨ n = 6 := by omega
  rcases this with rfl | rfl | rfl | rfl | rfl | rfl | rfl <;> norm_num [grown, kap, Nat.factorial]

variable {fl : ℝ → ℝ} {pw : ℝ → ℝ → ℝ} {kb nb kt κ : ℕ} {b' b : List ℝ} {t' : ℝ}

def taylorCount (kb kt κ : ℕ) : ℕ := evalCount kb kt κ + 65

theorem taylorLoop_app (h : Base fl pw kb nb kt κ b' b β t' t s) (hl : 0 ≤ lam) (hβ : Steep t lam s β) :
    ∀ (n j : ℕ) (x y z : List Term) (V : ℝ) (c' c r : List ℝ), j + n = 6 → Terms j kb nb x y z → W s t lam j z V →
      V ≤ √s * (lam ^ j * grown j) → y.length ≤ 2 ^ j →
      Apps (taylorCount kb kt κ) (6 * nb + 441) c' c (geoList √s (8 / 5 * lam) (j + 1)) →
      taylorLoop ⟨t, b⟩ n (j + 1) y (j.factorial : ℝ) c = some r →
      ∃ r', taylorLoopF fl pw ⟨t', b'⟩ n (j + 1) x (j.factorial : ℝ) c' = some r' ∧
        Apps (taylorCount kb kt κ) (6 * nb + 441) r' r (geoList √s (8 / 5 * lam) 7)
  | 0, j, x, y, z, V, c', c, r, hj, hx, hW, hV, hy, hc, h1 => by
    have : j = 6 := by omega
    subst this
    simp only [taylorLoop, Option.some.injEq] at h1
    subst h1
    exact ⟨c', rfl, hc⟩
  | n + 1, j, x, y, z, V, c', c, r, hj, hx, hW, hV, hy, hc, h1 => by
    rw [taylorLoop] at h1
    obtain ⟨⟨y1, v⟩, h2, h1⟩ := Option.bind_eq_some_iff.1 h1
    obtain ⟨⟨x1, v'⟩, ⟨z1, vM⟩, g1, g2, g3, g4, g5⟩ := (diffSqrtPoly_app h (by omega) hx).some h2
    simp only at g3 g4 g5 h1
    obtain ⟨V1, w1, w2⟩ := diffLoop_dom h.pos hl hβ hW .nil g2
    have hd := h.deep
    have hfac : (j + 1).factorial ≤ 720 := Nat.factorial_le (by omega : j + 1 ≤ 6)
    have hfp : 0 < (j + 1).factorial := Nat.factorial_pos _
    have e1 : (j.factorial : ℝ) * ((j + 1 : ℕ) : ℝ) = ((j + 1).factorial : ℝ) := by
      rw [Nat.factorial_succ]; push_cast; ring
    have e2 : fl ((j.factorial : ℝ) * ((j + 1 : ℕ) : ℝ)) = ((j + 1).factorial : ℝ) := by
      rw [e1]
      have := h.round.int ((j + 1).factorial : ℤ) (by
        rw [abs_of_nonneg (by positivity)]
        exact_mod_cast hfac.trans (by norm_num))
      exact_mod_cast this
    rw [e1] at h1
    have hV1 : V1 ≤ √s * (lam ^ (j + 1) * grown (j + 1)) := by
      refine w2.trans ?_
      rw [zero_add]
      have hk : 0 ≤ kap j := by
        have := kap_le (n := j) (m := 0) (by omega)
        refine le_trans ?_ this
        positivity
      calc lam * kap j * V ≤ lam * kap j * (√s * (lam ^ j * grown j)) := by gcongr
        _ = _ := by rw [grown, pow_succ]; ring
    have hsum : sumM s t z1 / (j + 1).factorial ≤ √s * (8 / 5 * lam) ^ (j + 1) := by
      have a1 := (w1.sum h.pos).trans hV1
      have a2 := grown_le (n := j + 1) (by omega)
      calc _ ≤ √s * (lam ^ (j + 1) * grown (j + 1)) / (j + 1).factorial := by gcongr
        _ = √s * lam ^ (j + 1) * (grown (j + 1) / (j + 1).factorial) := by ring
        _ ≤ √s * lam ^ (j + 1) * (8 / 5) ^ (j + 1) := by
            apply mul_le_mul_of_nonneg_left a2
            positivity
        _ = _ := by rw [mul_pow]; ring
    have hlen : 2 * y.length ≤ 64 := by
      have : 2 ^ j ≤ 2 ^ 5 := Nat.pow_le_pow_right (by norm_num) (by omega)
      omega
    have hv := (((g4.divNat (b := (j + 1).factorial) (m := 10) hfp (by omega)).rnd h.round (by omega)).wide hsum).mono
      (l := taylorCount kb kt κ) (m := 6 * nb + 441) (by unfold taylorCount; omega) (by omega)
    have hc1 : Apps (taylorCount kb kt κ) (6 * nb + 441) (c' ++ [fl (v' / ((j + 1).factorial : ℝ))]) (c ++ [v / ((j + 1).factorial : ℝ)])
        (geoList √s (8 / 5 * lam) (j + 1 + 1)) := by
      rw [geoList_succ _ _ (j + 1)]
      exact hc.append (.cons hv .nil)
    obtain ⟨r', q1, q2⟩ := taylorLoop_app h hl hβ n (j + 1) x1 y1 z1 V1 _ _ r (by omega) g3 w1 hV1
      (by rw [pow_succ]; omega) hc1 h1
    refine ⟨r', ?_, q2⟩
    rw [taylorLoopF, g1]
    simp only [Option.bind_eq_bind, Option.bind_some, e2]
    exact q1

theorem taylorSequence_app (h : Base fl pw kb nb kt κ b' b β t' t s) (hl : 0 ≤ lam) (hβ : Steep t lam s β) {r : List ℝ}
    (hr : taylorSequence b t 7 = some r) : ∃ r', taylorSequenceF fl pw b' t' 7 = some r' ∧
      Apps (taylorCount kb kt κ) (6 * nb + 441) r' r (geoList √s (8 / 5 * lam) 7) := by
  rw [taylorSequence, h.val] at hr
  have ht : TermApp 0 kb nb ⟨1, 1, [1]⟩ ⟨1, 1, [1]⟩ ⟨1, 1, [1]⟩ := by
    refine ⟨?_, rfl, rfl, rfl, by simp, by simp, ?_, by simp⟩
    · simpa using App.nat 1
    · have := (App.nat 1).mono (l := 0 * (kb + 6)) (m := 0 * nb) (by omega) (by omega)
      rw [Nat.cast_one] at this
      exact .cons this .nil
  have hW : W s t lam 0 [⟨1, 1, [1]⟩] (√s) := by
    refine .one ⟨0, 1, le_rfl, by simp, zero_le_one, dom_one, ?_⟩
    simp [Real.sqrt_eq_rpow]
  have e0 : ((Nat.factorial 0 : ℕ) : ℝ) = 1 := by simp
  obtain ⟨r', h1, h2⟩ := taylorLoop_app h hl hβ 6 0 _ _ _ _ [fl (Real.sqrt (polyvalF fl b' t'))] [√s] r rfl (.one ht) hW
    (by simp [grown]) (by simp) (by
      have := h.root.mono (l := taylorCount kb kt κ) (m := 6 * nb + 441) (by unfold taylorCount evalCount; omega) (by omega)
      refine .cons ?_ .nil
      simpa using this) (by rw [e0]; exact hr)
  rw [e0] at h1
  exact ⟨r', h1, h2⟩

end StepperPaths.Rounded.Acc
