import Verif.Proof.ExactLength
import Mathlib.Analysis.SpecialFunctions.Integrals.Basic

/-!
Properties C74 and C75: the table of the arc length, `/repo/src/curves/sqrt_poly.rs`
(`build_segments`, `eval_int`, `find_param`), in exact arithmetic.  `p` is the square of the
speed, so that the arc length up to `t` is the integral of `sqrt(p)` from zero to `t`.
-/

namespace StepperPaths.Props
open SqrtPoly Set

/-- The arc length up to the parameter `t` on a curve whose squared speed is `p`. -/
noncomputable def arcLength (p : List ℝ) (t : ℝ) : ℝ := ∫ u in (0 : ℝ)..t, √(polyval p u)

theorem arcLength_hasDerivAt (p : List ℝ) (t : ℝ) : HasDerivAt (arcLength p) (speed p t) t :=
  integral_hasDerivAt p 0 t

theorem integral_affine (a b c : ℝ) :
    ∫ u in a..b, (c + u) = c * (b - a) + (b ^ 2 - a ^ 2) / 2 := by
  rw [intervalIntegral.integral_add (by simp) (by simp)]
  simp [mul_comm]

theorem arcLength_zero (p : List ℝ) : arcLength p 0 = 0 := by simp [arcLength]

/-! ### C74 -/

/-- **C74.**  `build_segments` returns for every polynomial with at least two coefficients. -/
theorem C74_returns (p : List ℝ) (hp : 2 ≤ p.length) (low high : ℝ) (n : ℕ) :
    ∃ segs, buildSegments p low high n = some segs := buildSegments_isSome hp low high n

/-- **C74.**  For a table which starts at zero, `eval_int(t)` is the arc length up to `t`; the
error is at most `t * M * step^7 / 7!`, where `M` bounds the seventh derivative of the speed
and `step` is the width of the segments.  This holds for every answer of the binary search. -/
theorem C74_eval_int (p : List ℝ) (high M : ℝ) (n : ℕ) (segs : List Segment)
    (h : buildSegments p 0 high n = some segs) (hh : 0 < high)
    (hp : ∀ t ∈ Icc 0 high, 0 < polyval p t)
    (hM : ∀ t ∈ Icc 0 high, |iteratedDeriv 7 (fun u => √(polyval p u)) t| ≤ M)
    (t : ℝ) (ht : t ∈ Icc 0 high) (ans : Except ℕ ℕ)
    (ha : Found (segs.map (·.start)) t ans) :
    ∃ y, evalIntAt segs t ans = some y ∧
      |y - arcLength p t| ≤ t * M * (high / ((n + 1 : ℕ) : ℝ)) ^ 7 / (Nat.factorial 7 : ℝ) := by
  obtain ⟨v, hT⟩ := buildSegments_table h hh hp hM
  obtain ⟨y, h1, h2⟩ := evalInt_spec hT ht ha (arcLength_hasDerivAt p) (arcLength_zero p)
  refine ⟨y, h1, h2.trans (le_of_eq ?_)⟩
  have : ((Nat.factorial 7 : ℕ) : ℝ) = 5040 := by norm_num [Nat.factorial]
  rw [this, sub_zero]; ring

/-- **C74.**  The binary search of `eval_int` always has an answer: the starts of the
segments are strictly increasing. -/
theorem C74_search (p : List ℝ) (high : ℝ) (n : ℕ) (segs : List Segment)
    (h : buildSegments p 0 high n = some segs) (hh : 0 < high)
    (hp : ∀ t ∈ Icc 0 high, 0 < polyval p t) (t : ℝ) :
    (segs.map (·.start)).Pairwise (· < ·) ∧ ∃ ans, Found (segs.map (·.start)) t ans := by
  obtain ⟨M, hM⟩ := exists_bound hh hp
  obtain ⟨v, hT⟩ := buildSegments_table h hh hp hM
  exact ⟨hT.starts_sorted, found_exists hT.starts_sorted t⟩

/-- **C74.**  `eval_int` is exact when the speed is a polynomial with at most seven
coefficients. -/
theorem C74_exact (p q : List ℝ) (high : ℝ) (n : ℕ) (segs : List Segment)
    (h : buildSegments p 0 high n = some segs) (hh : 0 < high)
    (hq : q.length ≤ 7) (hpq : ∀ t, polyval p t = polyval q t ^ 2)
    (hpos : ∀ t ∈ Icc 0 high, 0 < polyval q t)
    (t : ℝ) (ht : t ∈ Icc 0 high) (ans : Except ℕ ℕ)
    (ha : Found (segs.map (·.start)) t ans) :
    evalIntAt segs t ans = some (arcLength p t) := by
  obtain ⟨y, h1, h2⟩ := C74_eval_int p high 0 n segs h hh
    (fun t ht => by rw [hpq t]; have := hpos t ht; positivity)
    (fun t ht => by
      have := iteratedDeriv_square hpq hq (hpos t ht)
      unfold speed at this
      rw [this]; simp) t ht ans ha
  simp only [mul_zero, zero_mul, zero_div] at h2
  rw [h1, sub_eq_zero.1 (abs_nonpos_iff.1 h2)]

/-- **C74.**  Below its first parameter `eval_int` panics: `ints[i - 1]` with `i = 0`. -/
theorem C74_below (p : List ℝ) (high M : ℝ) (n : ℕ) (segs : List Segment)
    (h : buildSegments p 0 high n = some segs) (hh : 0 < high)
    (hp : ∀ t ∈ Icc 0 high, 0 < polyval p t)
    (hM : ∀ t ∈ Icc 0 high, |iteratedDeriv 7 (fun u => √(polyval p u)) t| ≤ M)
    (t : ℝ) (ht : t < 0) (ans : Except ℕ ℕ) (ha : Found (segs.map (·.start)) t ans) :
    evalIntAt segs t ans = none := by
  obtain ⟨v, hT⟩ := buildSegments_table h hh hp hM
  exact evalInt_below hT ht ha

/-- The speed `2 + t` with ten segments: the arc length up to `t` is `2 t + t^2 / 2`. -/
example : ∃ segs, buildSegments [4, 4, 1] 0 1 9 = some segs ∧ ∀ t ∈ Icc (0 : ℝ) 1,
    ∃ ans, Found (segs.map (·.start)) t ans ∧ evalIntAt segs t ans = some (2 * t + t ^ 2 / 2) := by
  obtain ⟨segs, hs⟩ := C74_returns [4, 4, 1] (by simp) 0 1 9
  refine ⟨segs, hs, fun t ht => ?_⟩
  have hpos : ∀ t ∈ Icc (0 : ℝ) 1, 0 < polyval [2, 1] t := by
    intro t ht
    have : polyval [2, 1] t = 2 + t := by simp [polyval]; ring
    rw [this]; linarith [ht.1]
  have hpq : ∀ t, polyval [4, 4, 1] t = polyval [2, 1] t ^ 2 := by
    intro t; simp [polyval]; ring
  obtain ⟨-, ans, ha⟩ := C74_search [4, 4, 1] 1 9 segs hs one_pos
    (fun t ht => by rw [hpq t]; have := hpos t ht; positivity) t
  refine ⟨ans, ha, ?_⟩
  rw [C74_exact [4, 4, 1] [2, 1] 1 9 segs hs one_pos (by simp) hpq hpos t ht ans ha]
  have : arcLength [4, 4, 1] t = ∫ u in (0 : ℝ)..t, (2 + u) := by
    apply intervalIntegral.integral_congr
    intro u hu
    rw [uIcc_of_le ht.1] at hu
    simp only []
    have e : polyval [2, 1] u = 2 + u := by simp [polyval]; ring
    rw [hpq u, e, Real.sqrt_sq (by linarith [hu.1])]
  rw [this, integral_affine]
  ring_nf

/-- **C74** (finding).  The first Taylor expansion is made at `step / 2` and not at
`low + step / 2`: for a table which does not start at zero the lengths are wrong.  The length
of the curve with the speed `1 + t` from `1` to `2` is `5/2`, and the table says `3/2`. -/
theorem C74_low_ignored : ∃ segs s, buildSegments [1, 2, 1] 1 2 0 = some segs ∧
    segs[segs.length - 1]? = some s ∧ s.start = 2 ∧ s.int[0]? = some (3 / 2) ∧
    ∫ u in (1 : ℝ)..2, √(polyval [1, 2, 1] u) = 5 / 2 := by
  have hpq : ∀ t, polyval [1, 2, 1] t = polyval [1, 1] t ^ 2 := by
    intro t; simp [polyval]; ring
  have e : ∀ u, polyval [1, 1] u = 1 + u := by intro u; simp [polyval]; ring
  have hval : ∀ r, taylorSequence [1, 2, 1] (1 * (1 / 2)) 7 = some r → ∀ x, -1 / 2 ≤ x →
      polyval r x = 3 / 2 + x := by
    intro r hr x hx
    have := taylor_square (x := 1 / 2 + x) hpq (by simp) hr (by
      intro y hy
      rw [e]
      have h1 : min (1 * (1 / 2)) (1 / 2 + x) ≤ y := hy.1
      rcases min_le_iff.1 h1 with h | h <;> linarith)
    rw [e] at this
    rw [show (1 : ℝ) / 2 + x - 1 * (1 / 2) = x by ring] at this
    rw [this]; ring
  have hint : ∀ (q : List ℝ) (a : ℝ), (∀ x ∈ Icc (0 : ℝ) (1 / 2), polyval q x = a + x) →
      polyval (polyint q) (1 / 2) = a / 2 + 1 / 8 := by
    intro q a hq
    have hF : ∀ t : ℝ, HasDerivAt (fun t : ℝ => a * t + t ^ 2 / 2) (a + t) t := by
      intro t
      have h1 := ((hasDerivAt_id t).const_mul a).add (((hasDerivAt_id t).pow 2).div_const 2)
      refine HasDerivAt.congr_deriv h1 ?_
      simp
    have := drift (f := polyval (polyint q)) (F := fun t : ℝ => a * t + t ^ 2 / 2)
      (S := fun t => a + t) (e := 0) (w := 1 / 2) (ε := 0) (a := 0)
      (fun x hx => ⟨polyval q x, polyint_hasDerivAt q x, by rw [hq x hx]; simp⟩) hF
      (by rw [polyint_zero]; simp) (x := 1 / 2) ⟨by norm_num, le_rfl⟩
    simp only [zero_mul, add_zero] at this
    rw [sub_eq_zero.1 (abs_nonpos_iff.1 this)]
    ring
  obtain ⟨segs, h⟩ := C74_returns [1, 2, 1] (by simp) 1 2 0
  have h0 := h
  rw [buildSegments] at h
  simp only [show ((2 : ℝ) - 1) / ((0 + 1 : ℕ) : ℝ) = 1 by norm_num] at h
  obtain ⟨prev, hprev, h1⟩ := Option.bind_eq_some_iff.1 h
  obtain ⟨o, ho, h2⟩ := Option.bind_eq_some_iff.1 h1
  obtain ⟨int, hint0, h3⟩ := Option.bind_eq_some_iff.1 h2
  rw [segLoop] at h3
  simp only [Option.bind_eq_bind, Option.bind_some] at h3
  obtain ⟨int1, hint1, h5⟩ := Option.bind_eq_some_iff.1 h3
  obtain ⟨o1, ho1, h6⟩ := Option.bind_eq_some_iff.1 h5
  obtain ⟨int2, hint2, h7⟩ := Option.bind_eq_some_iff.1 h6
  simp only [Option.some.injEq] at h7
  have v1 : polyval (polyint o) (1 / 2) = 1 / 2 + 1 / 8 := by
    apply hint
    intro x hx
    rw [(polyoffset_spec ho x).1, hval prev hprev _ (by linarith [hx.1])]
    ring
  have v2 : polyval (polyint prev) (1 * (1 / 2)) = 3 / 2 / 2 + 1 / 8 := by
    rw [one_mul]
    apply hint
    intro x hx
    rw [hval prev hprev _ (by linarith [hx.1])]
  refine ⟨segs, ⟨2, int2⟩, h0, by rw [← h7]; simp, rfl, ?_, ?_⟩
  · rw [(setFirst_spec hint2).1, v1, v2]
    norm_num
  · have : ∫ u in (1 : ℝ)..2, √(polyval [1, 2, 1] u) = ∫ u in (1 : ℝ)..2, (1 + u) := by
      apply intervalIntegral.integral_congr
      intro u hu
      rw [uIcc_of_le (by norm_num)] at hu
      simp only []
      rw [hpq u, e, Real.sqrt_sq (by linarith [hu.1])]
    rw [this, integral_affine]
    norm_num

/-! ### C75 -/

/-- **C75.**  For a length `l` between zero and the total length, `find_param(l)` returns a
parameter `t`; at most `2^-52` above it there is a parameter `t'` at which the arc length is
`l`, up to the error of the table. -/
theorem C75_find_param (p : List ℝ) (high M : ℝ) (n : ℕ) (segs : List Segment)
    (h : buildSegments p 0 high n = some segs) (hh : 0 < high)
    (hp : ∀ t ∈ Icc 0 high, 0 < polyval p t)
    (hM : ∀ t ∈ Icc 0 high, |iteratedDeriv 7 (fun u => √(polyval p u)) t| ≤ M)
    (total : ℝ) (ans0 : Except ℕ ℕ) (ha0 : Found (segs.map (·.start)) high ans0)
    (htot : evalIntAt segs high ans0 = some total)
    (l : ℝ) (hl : l ∈ Icc 0 total) (ans : Except ℕ ℕ)
    (ha : Found (segs.map (fun s => s.int.getD 0 0)) l ans) :
    ∃ t, findParamAt segs l ans = some t ∧ 0 ≤ t ∧ ∃ t' ∈ Icc t (t + 1 / 2 ^ 52), t' ≤ high ∧
      |arcLength p t' - l| ≤ t' * M * (high / ((n + 1 : ℕ) : ℝ)) ^ 7 / (Nat.factorial 7 : ℝ) := by
  obtain ⟨v, hT⟩ := buildSegments_table h hh hp hM
  rw [hT.total ha0, Option.some.injEq] at htot
  subst htot
  obtain ⟨t, h1, h2, t', h3, h5, h4⟩ := findParam_spec hT hl ha (arcLength_hasDerivAt p)
    (arcLength_zero p)
  refine ⟨t, h1, h2, t', h3, h5, h4.trans (le_of_eq ?_)⟩
  have : ((Nat.factorial 7 : ℕ) : ℝ) = 5040 := by norm_num [Nat.factorial]
  rw [this, sub_zero]; ring

/-- **C75.**  When the error of the Taylor polynomials is smaller than the speed, the values
in the table are strictly increasing, so that the binary search of `find_param` is meaningful
and has an answer.  Lengths outside of the table make `find_param` panic. -/
theorem C75_search (p : List ℝ) (high M : ℝ) (n : ℕ) (segs : List Segment)
    (h : buildSegments p 0 high n = some segs) (hh : 0 < high)
    (hp : ∀ t ∈ Icc 0 high, 0 < polyval p t)
    (hM : ∀ t ∈ Icc 0 high, |iteratedDeriv 7 (fun u => √(polyval p u)) t| ≤ M)
    (hsmall : ∀ t ∈ Icc 0 high,
      M * (high / ((n + 1 : ℕ) : ℝ)) ^ 7 / (Nat.factorial 7 : ℝ) < √(polyval p t))
    (total : ℝ) (ans0 : Except ℕ ℕ) (ha0 : Found (segs.map (·.start)) high ans0)
    (htot : evalIntAt segs high ans0 = some total) (l : ℝ) :
    (∃ ans, Found (segs.map (fun s => s.int.getD 0 0)) l ans) ∧
    ∀ ans, Found (segs.map (fun s => s.int.getD 0 0)) l ans →
      (findParamAt segs l ans = none ↔ l < 0 ∨ total < l) := by
  have h7 : ((Nat.factorial 7 : ℕ) : ℝ) = 5040 := by norm_num [Nat.factorial]
  rw [h7] at hsmall
  obtain ⟨v, hT⟩ := buildSegments_table h hh hp hM
  rw [hT.total ha0, Option.some.injEq] at htot
  subst htot
  refine ⟨found_exists (hT.values_sorted hsmall) l, fun ans ha => ⟨fun hn => ?_, fun hl =>
    findParam_outside hT hsmall hl ha⟩⟩
  by_contra hne
  rw [not_or, not_lt, not_lt] at hne
  obtain ⟨t, h1, -⟩ := findParam_spec hT hne ha (arcLength_hasDerivAt p) (arcLength_zero p)
  rw [h1] at hn
  exact absurd hn (by simp)

/-- The speed `2 + t` again: from the length `l` the parameter is recovered exactly up to
`2^-52`. -/
example : ∃ segs, buildSegments [4, 4, 1] 0 1 9 = some segs ∧ ∀ l ∈ Icc (0 : ℝ) (5 / 2),
    ∃ ans t, Found (segs.map (fun s => s.int.getD 0 0)) l ans ∧
      findParamAt segs l ans = some t ∧ 0 ≤ t ∧ ∃ t' ∈ Icc t (t + 1 / 2 ^ 52),
        arcLength [4, 4, 1] t' = l := by
  have hpos : ∀ t ∈ Icc (0 : ℝ) 1, 0 < polyval [2, 1] t := by
    intro t ht
    have : polyval [2, 1] t = 2 + t := by simp [polyval]; ring
    rw [this]; linarith [ht.1]
  have hpq : ∀ t, polyval [4, 4, 1] t = polyval [2, 1] t ^ 2 := by
    intro t; simp [polyval]; ring
  obtain ⟨segs, hs⟩ := C74_returns [4, 4, 1] (by simp) 0 1 9
  have hp : ∀ t ∈ Icc (0 : ℝ) 1, 0 < polyval [4, 4, 1] t :=
    fun t ht => by rw [hpq t]; have := hpos t ht; positivity
  have hM : ∀ t ∈ Icc (0 : ℝ) 1, |iteratedDeriv 7 (fun u => √(polyval [4, 4, 1] u)) t| ≤ 0 :=
    fun t ht => by
      have := iteratedDeriv_square hpq (by simp) (hpos t ht)
      unfold speed at this
      rw [this]; simp
  obtain ⟨-, ans0, ha0⟩ := C74_search [4, 4, 1] 1 9 segs hs one_pos hp 1
  have htot := C74_exact [4, 4, 1] [2, 1] 1 9 segs hs one_pos (by simp) hpq hpos 1
    ⟨zero_le_one, le_rfl⟩ ans0 ha0
  have h52 : arcLength [4, 4, 1] 1 = 5 / 2 := by
    have : arcLength [4, 4, 1] 1 = ∫ u in (0 : ℝ)..1, (2 + u) := by
      apply intervalIntegral.integral_congr
      intro u hu
      rw [uIcc_of_le zero_le_one] at hu
      simp only []
      have e : polyval [2, 1] u = 2 + u := by simp [polyval]; ring
      rw [hpq u, e, Real.sqrt_sq (by linarith [hu.1])]
    rw [this, integral_affine]
    norm_num
  rw [h52] at htot
  refine ⟨segs, hs, fun l hl => ?_⟩
  obtain ⟨⟨ans, ha⟩, -⟩ := C75_search [4, 4, 1] 1 0 9 segs hs one_pos hp hM (fun t ht => by
    rw [zero_mul, zero_div]; exact Real.sqrt_pos.2 (hp t ht)) _ ans0 ha0 htot l
  obtain ⟨t, h1, h2, t', h3, -, h4⟩ := C75_find_param [4, 4, 1] 1 0 9 segs hs one_pos hp hM _ ans0
    ha0 htot l hl ans ha
  refine ⟨ans, t, ha, h1, h2, t', h3, ?_⟩
  simp only [mul_zero, zero_mul, zero_div] at h4
  exact sub_eq_zero.1 (abs_nonpos_iff.1 h4)

end StepperPaths.Props
