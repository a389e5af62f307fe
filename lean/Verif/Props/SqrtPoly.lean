import Verif.Proof.Taylor

/-!
Properties C46 and C47: the polynomial helpers and the Taylor coefficients of
`/repo/src/curves/sqrt_poly.rs`, in exact arithmetic.
-/

namespace StepperPaths.Props
open SqrtPoly

/-! ### C46 -/

/-- **C46.**  `polyval(p, t)` is the sum of `p[i] * t^i`. -/
theorem C46_polyval (p : List ℝ) (t : ℝ) :
    polyval p t = ∑ i ∈ Finset.range p.length, p.getD i 0 * t ^ i := by
  induction p with
  | nil => simp [polyval]
  | cons c p ih =>
    have h1 : polyval (c :: p) t = polyval p t * t + c := rfl
    rw [h1, ih, List.length_cons, Finset.sum_range_succ', Finset.sum_mul]
    simp only [List.getD_cons_succ, List.getD_cons_zero, pow_zero, mul_one, pow_succ]
    congr 1
    exact Finset.sum_congr rfl fun i _ => by ring

example : polyval [2, 3, 1] 2 = 12 := by norm_num [polyval]

/-- **C46.**  When `b` has a coefficient, `polymul(a, b)` returns, and its value is the
product of the values. -/
theorem C46_polymul (a b : List ℝ) (hb : b ≠ []) :
    ∃ r, polymul a b = some r ∧ ∀ t, polyval r t = polyval a t * polyval b t := by
  obtain ⟨r, hr⟩ := polymul_isSome (a := a) hb
  refine ⟨r, hr, fun t => ?_⟩
  rw [← toPoly_eval, polymul_toPoly hr, Polynomial.eval_mul, toPoly_eval, toPoly_eval]

/-- **C46.**  `polymul` panics exactly when its second operand is empty and the first one
does not have exactly one coefficient. -/
theorem C46_polymul_panics (a b : List ℝ) :
    polymul a b = none ↔ b = [] ∧ a.length ≠ 1 := by
  constructor
  · intro h
    by_cases hb : b = []
    · subst hb
      refine ⟨rfl, fun h1 => ?_⟩
      obtain ⟨r, hr⟩ := polymul_nil_iff.2 h1
      rw [h] at hr
      exact absurd hr (by simp)
    · obtain ⟨r, hr⟩ := polymul_isSome (a := a) hb
      rw [h] at hr
      exact absurd hr (by simp)
  · rintro ⟨rfl, h⟩
    rw [Option.eq_none_iff_forall_ne_some]
    exact fun r hr => h (polymul_nil_iff.1 ⟨r, hr⟩)

/-- The product of `1 + 5 t` and `3 + 2 t + 6 t^2`, the test in the source. -/
example : polymul [1, 5] [3, 2, 6] = some [3, 17, 16, 30] := by
  simp [polymul, mulCoeff, mulSum, List.range_succ]; norm_num

/-- **C46.**  The value of `polyadd(a, b)` is the sum of the values. -/
theorem C46_polyadd (a b : List ℝ) (t : ℝ) :
    polyval (polyadd a b) t = polyval a t + polyval b t := by
  rw [← toPoly_eval, polyadd_toPoly, Polynomial.eval_add, toPoly_eval, toPoly_eval]

example : polyadd [1, 2, 3] [10, 20] = [11, 22, 3] := by norm_num [polyadd, addTo]

/-- **C46.**  `polyder` returns the derivative of a polynomial with a coefficient, and
panics on an empty one. -/
theorem C46_polyder (p : List ℝ) :
    (polyder p = none ↔ p = []) ∧
    ∀ q, polyder p = some q → ∀ t, HasDerivAt (polyval p) (polyval q t) t := by
  refine ⟨?_, fun q h t => polyval_hasDerivAt h t⟩
  cases p <;> simp [polyder]

example : polyder [7, 3, 1] = some [3, 2] := by norm_num [polyder, derFrom]

/-- **C46.**  `polyint(p)` is the antiderivative of `p` which is zero at zero. -/
theorem C46_polyint (p : List ℝ) (t : ℝ) :
    HasDerivAt (polyval (polyint p)) (polyval p t) t ∧ polyval (polyint p) 0 = 0 := by
  refine ⟨?_, polyint_zero p⟩
  have := (toPoly (polyint p)).hasDerivAt t
  rw [polyint_derivative, toPoly_eval] at this
  have e : (fun x => (toPoly (polyint p)).eval x) = polyval (polyint p) :=
    funext (toPoly_eval (polyint p))
  rwa [e] at this

example : polyint [7, 3, 6] = [0, 7, 3 / 2, 2] := by norm_num [polyint, intFrom]

/-- **C46.**  `polyoffset(p, d)` has the value of `p` at the argument moved by `d`. -/
theorem C46_polyoffset (p : List ℝ) (d : ℝ) (r : List ℝ) (h : polyoffset p d = some r) :
    r.length = p.length ∧ ∀ t, polyval r t = polyval p (t + d) :=
  ⟨(polyoffset_spec h 0).2, fun t => (polyoffset_spec h t).1⟩

/-- **C46.**  `polyoffset` returns exactly for polynomials with at most 19 coefficients:
with more, an entry of Pascal's triangle does not fit in a `u16`. -/
theorem C46_polyoffset_returns (p : List ℝ) (d : ℝ) :
    (∃ r, polyoffset p d = some r) ↔ p.length ≤ 19 := polyoffset_isSome

/-- The polynomial of the test in the source, `2 + 3 t + t^2` moved by two. -/
example : ∃ r, polyoffset [2, 3, 1] 2 = some r ∧ polyval r 1 = 20 := by
  obtain ⟨r, hr⟩ := (C46_polyoffset_returns [2, 3, 1] 2).2 (by simp)
  refine ⟨r, hr, ?_⟩
  rw [(C46_polyoffset _ _ _ hr).2]
  norm_num [polyval]

example : binomialStep [1, 3, 3, 1, 0] = some [1, 4, 6, 4, 1] := by decide

example (d : ℝ) : ¬ ∃ r, polyoffset (List.replicate 20 1) d = some r := by
  rw [C46_polyoffset_returns]; simp

/-- **C46.**  `polyweight(a, ta, b, tb)` blends from `a` at `ta` to `b` at `tb`. -/
theorem C46_polyweight (a b : List ℝ) (ta tb : ℝ) (ha : a ≠ []) (hb : b ≠ [])
    (hne : ta ≠ tb) :
    ∃ r, polyweight a ta b tb = some r ∧ ∀ w,
      polyval r (ta + w * (tb - ta)) = (1 - w) * polyval a (ta + w * (tb - ta)) +
        w * polyval b (ta + w * (tb - ta)) := by
  obtain ⟨r, hr⟩ := polyweight_isSome (ta := ta) (tb := tb) ha hb
  refine ⟨r, hr, fun w => ?_⟩
  rw [polyweight_spec hr]
  have h1 : ta - tb ≠ 0 := sub_ne_zero.2 hne
  have h2 : tb - ta ≠ 0 := sub_ne_zero.2 hne.symm
  have e1 : (ta + w * (tb - ta) - tb) / (ta - tb) = 1 - w := by field_simp; ring
  have e2 : (ta + w * (tb - ta) - ta) / (tb - ta) = w := by field_simp; ring
  rw [e1, e2]; ring

example : polyweight [5, 0, 1] 2 [5, 0, 1] 3 = some [5, 0, 1, 0] := by
  simp [polyweight, polymul, mulCoeff, mulSum, List.range_succ, polyadd, addTo]; norm_num

/-! ### C47 -/

/-- **C47.**  Where `p(t0) > 0`, coefficient `k` of `taylor_sequence(p, t0, n)` is the `k`-th
derivative of `sqrt(p(t))` at `t0` divided by `k!`, and there are `max(n, 1)` of them. -/
theorem C47_taylor_sequence (p : List ℝ) (t0 : ℝ) (n : ℕ) (r : List ℝ)
    (h : taylorSequence p t0 n = some r) (hp : 0 < polyval p t0) :
    r.length = max n 1 ∧ ∀ k < max n 1, r.getD k 0 =
      iteratedDeriv k (fun t => Real.sqrt (polyval p t)) t0 / (k.factorial : ℝ) :=
  taylorSequence_spec h hp

/-- **C47.**  `taylor_sequence` returns for every polynomial with at least two coefficients. -/
theorem C47_returns (p : List ℝ) (hp : 2 ≤ p.length) (t0 : ℝ) (n : ℕ) :
    ∃ r, taylorSequence p t0 n = some r := taylorSequence_isSome hp t0 n

/-- **C47.**  It panics on a constant written with one coefficient as soon as it has to
differentiate twice: the derivative of the constant is an empty list, and the next product
is a product of two empty lists. -/
theorem C47_constant_panics (c t0 : ℝ) (n : ℕ) (hn : 3 ≤ n) :
    taylorSequence [c] t0 n = none := by
  obtain ⟨m, rfl⟩ : ∃ m, n = m + 3 := ⟨n - 3, by omega⟩
  simp [taylorSequence, taylorLoop, diffSqrtPoly, diffLoop, diffSingle, polyder, derFrom,
    polymul]

/-- The first two coefficients of `sqrt(4 + t)` at zero: `2 + t/4`. -/
example : taylorSequence [4, 1] 0 2 = some [2, 1 / 4] := by
  have h4 : Real.sqrt 4 = 2 := by
    rw [show (4 : ℝ) = 2 ^ 2 by norm_num]; exact Real.sqrt_sq (by norm_num)
  have h5 : (4 : ℝ) ^ ((-1 : ℝ) / 2) = 1 / 2 := by
    rw [show (4 : ℝ) = 2 ^ (2 : ℝ) by norm_num, ← Real.rpow_mul (by norm_num)]
    norm_num
  simp [taylorSequence, taylorLoop, diffSqrtPoly, diffLoop, diffSingle, polyder, derFrom,
    polymul, mulCoeff, mulSum, List.range_succ, Diff.eval, Diff.baseVal, polyval]
  norm_num [h4, h5]

end StepperPaths.Props
