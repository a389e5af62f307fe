import Verif.Proof.Gauss

/-! Properties of `gauss_quad_integrate`, in exact arithmetic. -/

namespace StepperPaths.Props
open Gauss Polynomial

/-- C60: the orders with a table are 2 to 8; any other order is a panic. -/
theorem C60_panics_iff (a b : ℝ) (n : ℕ) (f : ℝ → ℝ) : integrate a b n f = none ↔ n < 2 ∨ 8 < n := by
  constructor
  · intro h
    by_contra hc
    rw [integrate_eq a b n f (by omega) (by omega)] at h
    cases h
  · rintro (h | h)
    · unfold integrate
      rw [if_pos h]
      rfl
    · unfold integrate
      rw [if_neg (by omega), List.getElem?_eq_none (by simp [weights]; omega)]
      rfl

/-- C60: the rule is linear. -/
theorem C60_linear (a b : ℝ) (n : ℕ) (f g : ℝ → ℝ) (α β I J : ℝ) (hf : integrate a b n f = some I)
    (hg : integrate a b n g = some J) :
    integrate a b n (fun x => α * f x + β * g x) = some (α * I + β * J) := by
  have hn : ¬ (n < 2 ∨ 8 < n) := by
    rw [← C60_panics_iff a b n f, hf]
    simp
  rw [integrate_eq _ _ _ _ (by omega) (by omega)] at *
  simp only [Option.some.injEq] at *
  rw [← hf, ← hg]
  generalize nodes n = l
  generalize (b - a) / 2 = k
  induction l with
  | nil => simp
  | cons e l ih =>
    simp only [List.map_cons, List.sum_cons]
    rw [mul_add, ih]
    ring

/-- C60: reversing the interval changes the sign. -/
theorem C60_reverse (a b : ℝ) (n : ℕ) (f : ℝ → ℝ) (I : ℝ) (h : integrate a b n f = some I) :
    integrate b a n f = some (-I) := by
  have hn : ¬ (n < 2 ∨ 8 < n) := by
    rw [← C60_panics_iff a b n f, h]
    simp
  rw [integrate_eq _ _ _ _ (by omega) (by omega)] at *
  simp only [Option.some.injEq] at *
  have ht := (tables n (by omega) (by omega)).2.1
  have hsum : ((nodes n).map fun e => (e.1 : ℝ) * f ((a - b) / 2 * e.2 + (b + a) / 2)).sum =
      ((nodes n).map fun e => (e.1 : ℝ) * f ((b - a) / 2 * e.2 + (a + b) / 2)).sum := by
    conv_rhs => rw [← ht]
    rw [List.map_reverse, List.sum_reverse, List.map_map]
    congr 1
    apply List.map_congr_left
    intro e _
    simp only [Function.comp]
    push_cast
    congr 2
    ring
  rw [hsum, ← h]
  ring

/-- C60: only values inside of the interval are used, and their weights are positive. -/
theorem C60_monotone (a b : ℝ) (hab : a < b) (n : ℕ) (f g : ℝ → ℝ) (I J : ℝ)
    (hf : integrate a b n f = some I) (hg : integrate a b n g = some J)
    (h : ∀ x, a < x → x < b → f x ≤ g x) : I ≤ J := by
  have hn : ¬ (n < 2 ∨ 8 < n) := by
    rw [← C60_panics_iff a b n f, hf]
    simp
  rw [integrate_eq _ _ _ _ (by omega) (by omega)] at *
  simp only [Option.some.injEq] at *
  rw [← hf, ← hg]
  refine mul_le_mul_of_nonneg_left ?_ (by linarith)
  apply List.sum_le_sum
  intro e he
  obtain ⟨h1, h2, h3⟩ := (tables n (by omega) (by omega)).2.2.1 e he
  have k1 : (0 : ℝ) < (e.1 : ℝ) := by exact_mod_cast h1
  have k2 : (-1 : ℝ) < (e.2 : ℝ) := by exact_mod_cast h2
  have k3 : (e.2 : ℝ) < 1 := by exact_mod_cast h3
  refine mul_le_mul_of_nonneg_left (h _ ?_ ?_) k1.le
  · nlinarith
  · nlinarith

/-- Sums of products with the coefficients of a polynomial. -/
theorem node_sum (l : List (ℚ × ℚ)) (Q : ℝ[X]) (d : ℕ) (hd : Q.natDegree < d) :
    (l.map fun e => (e.1 : ℝ) * Q.eval (e.2 : ℝ)).sum =
      ∑ j ∈ Finset.range d, Q.coeff j * (((l.map fun e => e.1 * e.2 ^ j).sum : ℚ) : ℝ) := by
  induction l with
  | nil => simp
  | cons e l ih =>
    simp only [List.map_cons, List.sum_cons]
    rw [ih, Polynomial.eval_eq_sum_range' hd, Finset.mul_sum, ← Finset.sum_add_distrib]
    apply Finset.sum_congr rfl
    intro j _
    push_cast
    ring

theorem moment_integral (j : ℕ) : ∫ x in (-1 : ℝ)..1, x ^ j = (moment j : ℝ) := by
  rw [integral_pow]
  unfold moment
  rcases Nat.even_or_odd j with h | h
  · rw [if_pos (Nat.even_iff.1 h), (Even.add_one h).neg_one_pow]
    push_cast
    norm_num
  · rw [if_neg (by rw [Nat.odd_iff.1 h]; norm_num), (Odd.add_one h).neg_one_pow]
    simp

/-- C60: polynomials of degree less than `2 * n` are integrated exactly, up to the accuracy of the
tabulated constants: 1e-10 for the orders 2 and 3, 1e-15 from order 4 on, relative to the sum of the
coefficients of the integrand on the unit interval. -/
theorem C60_polynomial (a b : ℝ) (n : ℕ) (P : ℝ[X]) (I : ℝ) (hP : P.natDegree < 2 * n)
    (h : integrate a b n (fun x => P.eval x) = some I) :
    |I - ∫ x in a..b, P.eval x| ≤ |b - a| / 2 * ((if n ≤ 3 then 1 / 10 ^ 10 else 1 / 10 ^ 15) *
      ∑ j ∈ Finset.range (2 * n), |(P.comp (C ((b - a) / 2) * X + C ((a + b) / 2))).coeff j|) := by
  have hn : ¬ (n < 2 ∨ 8 < n) := by
    rw [← C60_panics_iff a b n (fun x => P.eval x), h]
    simp
  rw [integrate_eq _ _ _ _ (by omega) (by omega)] at h
  simp only [Option.some.injEq] at h
  set k := (b - a) / 2 with hk
  set m := (a + b) / 2 with hm
  set Q := P.comp (C k * X + C m) with hQ
  have hQd : Q.natDegree < 2 * n := by
    refine lt_of_le_of_lt ?_ hP
    rw [hQ, Polynomial.natDegree_comp]
    refine (Nat.mul_le_mul_left _ (Polynomial.natDegree_linear_le)).trans (by omega)
  have hev : ∀ t, P.eval (k * t + m) = Q.eval t := by
    intro t
    rw [hQ, Polynomial.eval_comp]
    simp
  have hint : ∫ x in a..b, P.eval x = k * ∑ j ∈ Finset.range (2 * n), Q.coeff j * (moment j : ℝ) := by
    have h1 := intervalIntegral.mul_integral_comp_mul_add (a := -1) (b := 1) (f := fun x => P.eval x) k m
    rw [show k * -1 + m = a by rw [hk, hm]; ring, show k * 1 + m = b by rw [hk, hm]; ring] at h1
    rw [← h1]
    congr 1
    simp only [hev]
    simp only [Polynomial.eval_eq_sum_range' hQd]
    rw [intervalIntegral.integral_finsetSum]
    · apply Finset.sum_congr rfl
      intro j _
      rw [intervalIntegral.integral_const_mul, moment_integral]
    · intro j _
      exact (Continuous.intervalIntegrable (by fun_prop) _ _)
  simp only [hev] at h
  rw [node_sum _ _ _ hQd] at h
  rw [← h, hint, ← mul_sub, abs_mul]
  have hk' : |k| = |b - a| / 2 := by rw [hk, abs_div, abs_two]
  rw [hk', ← Finset.sum_sub_distrib]
  refine mul_le_mul_of_nonneg_left ?_ (by positivity)
  refine (Finset.abs_sum_le_sum_abs _ _).trans ?_
  rw [Finset.mul_sum]
  apply Finset.sum_le_sum
  intro j hj
  rw [← mul_sub, abs_mul, mul_comm]
  refine mul_le_mul_of_nonneg_right ?_ (abs_nonneg _)
  have := (tables n (by omega) (by omega)).1 j (Finset.mem_range.1 hj)
  have hq : ((|nodeMoment n j - moment j| : ℚ) : ℝ) ≤ ((accuracy n : ℚ) : ℝ) := by exact_mod_cast this
  rw [Rat.cast_abs, Rat.cast_sub] at hq
  refine hq.trans (le_of_eq ?_)
  unfold accuracy
  split <;> simp

/-- With order 2 the cube is integrated exactly, being odd; `x ^ 4` is not. -/
example : integrate (-1) 1 2 (fun x => x ^ 3 + 3) = some 6 := by
  rw [integrate_eq _ _ _ _ (by norm_num) (by norm_num)]
  simp only [nodes, weights, abscissas]
  norm_num

example : ∃ I, integrate 0 2 4 (fun x => (X ^ 7 + C 1 : ℝ[X]).eval x) = some I := by
  rw [← Option.ne_none_iff_exists', Ne, C60_panics_iff]
  norm_num

end StepperPaths.Props
