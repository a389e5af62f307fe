import Verif.Proof.FindParam

/-! The table of `build_segments` is exact when the speed is a polynomial of low degree. -/

namespace StepperPaths.SqrtPoly
open Set Polynomial Topology Filter

theorem iteratedDeriv_polyval (q : List ℝ) (k : ℕ) :
    iteratedDeriv k (polyval q) = fun t => (derivative^[k] (toPoly q)).eval t := by
  induction k with
  | zero => funext t; simp [toPoly_eval]
  | succ k ih =>
    rw [iteratedDeriv_succ, ih]
    funext t
    rw [Polynomial.deriv, Function.iterate_succ_apply']

theorem toPoly_natDegree (q : List ℝ) (n : ℕ) (h : q.length ≤ n + 1) :
    (toPoly q).natDegree < n + 1 := by
  rw [Nat.lt_succ_iff, natDegree_le_iff_coeff_eq_zero]
  intro i hi
  rw [toPoly_coeff, List.getD_eq_default _ _ (by omega)]

theorem speed_square {p q : List ℝ} (h : ∀ t, polyval p t = polyval q t ^ 2) {t : ℝ}
    (ht : 0 < polyval q t) : speed p =ᶠ[𝓝 t] polyval q := by
  have ho : IsOpen {x | 0 < polyval q x} :=
    isOpen_lt continuous_const (polyval_continuous q)
  filter_upwards [ho.mem_nhds ht] with x hx
  rw [speed, h x, Real.sqrt_sq (le_of_lt hx)]

theorem iteratedDeriv_square {p q : List ℝ} (h : ∀ t, polyval p t = polyval q t ^ 2)
    (hq : q.length ≤ 7) {t : ℝ} (ht : 0 < polyval q t) : iteratedDeriv 7 (speed p) t = 0 := by
  rw [(speed_square h ht).iteratedDeriv_eq 7, iteratedDeriv_polyval,
    iterate_derivative_eq_zero (toPoly_natDegree q 6 hq)]
  simp

/-- The seventh derivative of the speed is bounded where the speed is not zero. -/
theorem exists_bound {p : List ℝ} {high : ℝ} (hh : 0 < high)
    (hp : ∀ t ∈ Icc 0 high, 0 < polyval p t) :
    ∃ M, ∀ t ∈ Icc 0 high, |iteratedDeriv 7 (speed p) t| ≤ M := by
  have hcd : ContDiffOn ℝ 7 (speed p) (Icc 0 high) :=
    fun t ht => (speed_contDiffAt (hp t ht)).contDiffWithinAt
  have hc : ContinuousOn (iteratedDeriv 7 (speed p)) (Icc 0 high) := by
    refine (hcd.continuousOn_iteratedDerivWithin (m := 7) (by norm_num)
      (uniqueDiffOn_Icc hh)).congr fun t ht => ?_
    exact (iteratedDerivWithin_eq_iteratedDeriv (uniqueDiffOn_Icc hh)
      (speed_contDiffAt (hp t ht)) ht).symm
  obtain ⟨M, hM⟩ := (isCompact_Icc.image_of_continuousOn hc.abs).bddAbove
  exact ⟨M, fun t ht => hM ⟨t, ht, rfl⟩⟩

/-- The Taylor polynomial of a polynomial speed is the speed itself. -/
theorem taylor_square {p q r : List ℝ} {m x : ℝ} (h : ∀ t, polyval p t = polyval q t ^ 2)
    (hq : q.length ≤ 7) (hr : taylorSequence p m 7 = some r)
    (hpos : ∀ y ∈ uIcc m x, 0 < polyval q y) : polyval r (x - m) = polyval q x := by
  have := taylor_error hr (x := x) (M := 0)
    (fun y hy => by rw [h y]; have := hpos y hy; positivity)
    (fun y hy => by rw [iteratedDeriv_square h hq (hpos y hy)]; simp)
  rw [zero_mul, zero_div] at this
  have h0 := abs_nonpos_iff.1 this
  rw [sub_eq_zero] at h0
  rw [h0, speed, h x, Real.sqrt_sq (hpos x right_mem_uIcc).le]

/-- At its last parameter a table has its total. -/
theorem Table.total {S : ℝ → ℝ} {ε low high v : ℝ} {segs : List Segment}
    (h : Table S ε low high v segs) {ans : Except ℕ ℕ}
    (ha : Found (segs.map (·.start)) high ans) : evalIntAt segs high ans = some v := by
  obtain ⟨sl, hl0, hl1, hl2, hl3⟩ := h.last
  have key : (segs.map (·.start))[segs.length - 1]? = some high := by
    rw [List.getElem?_map, hl1]; simp [hl2]
  cases ha with
  | @ok i hi =>
    have hi' : i < (segs.map (·.start)).length := (List.getElem?_eq_some_iff.1 hi).1
    have hie : i = segs.length - 1 := by
      by_contra hne
      rw [List.length_map] at hi'
      have := List.pairwise_iff_getElem.1 h.starts_sorted i (segs.length - 1)
        (by rw [List.length_map]; omega) (by rw [List.length_map]; omega) (by omega)
      rw [(List.getElem?_eq_some_iff.1 hi).2, (List.getElem?_eq_some_iff.1 key).2] at this
      exact lt_irrefl _ this
    subst hie
    simp only [evalIntAt, hl1]
    exact hl3
  | @err i hi hb haft =>
    exfalso
    by_cases hlt : segs.length - 1 < i
    · exact lt_irrefl _ (hb _ _ hlt key)
    · exact lt_irrefl _ (haft _ _ (not_lt.1 hlt) key)

/-- Outside of the values of the table `find_param` panics. -/
theorem findParam_outside {S : ℝ → ℝ} {ε low high v : ℝ} {segs : List Segment}
    (h : Table S ε low high v segs) (hpos : ∀ t ∈ Icc low high, ε < S t) {l : ℝ}
    (hl : l < 0 ∨ v < l) {ans : Except ℕ ℕ}
    (ha : Found (segs.map (fun s => s.int.getD 0 0)) l ans) : findParamAt segs l ans = none := by
  obtain ⟨s0, hs0, -, hs1⟩ := h.head
  obtain ⟨sl, hl0, hl1, -, hl3⟩ := h.last
  have hget : ∀ {s : Segment} {x : ℝ}, s.int[0]? = some x → s.int.getD 0 0 = x := by
    intro s x hx
    rw [List.getD_eq_getElem?_getD, hx]; rfl
  have k0 : (segs.map (fun s => s.int.getD 0 0))[0]? = some 0 := by
    rw [List.getElem?_map, hs0]; simp only [Option.map_some, hget hs1]
  have kl : (segs.map (fun s => s.int.getD 0 0))[segs.length - 1]? = some v := by
    rw [List.getElem?_map, hl1]; simp only [Option.map_some, hget hl3]
  have hs := h.values_sorted hpos
  cases ha with
  | @ok i hi =>
    exfalso
    have hi' : i < (segs.map (fun s => s.int.getD 0 0)).length :=
      (List.getElem?_eq_some_iff.1 hi).1
    have hlen : (segs.map (fun s => s.int.getD 0 0)).length = segs.length := by simp
    rcases hl with hl | hl
    · rcases Nat.eq_zero_or_pos i with rfl | hpos
      · rw [k0, Option.some.injEq] at hi; linarith
      · have := List.pairwise_iff_getElem.1 hs 0 i (by omega) hi' hpos
        rw [(List.getElem?_eq_some_iff.1 hi).2, (List.getElem?_eq_some_iff.1 k0).2] at this
        linarith
    · rcases eq_or_ne i (segs.length - 1) with rfl | hne
      · rw [kl, Option.some.injEq] at hi; linarith
      · have := List.pairwise_iff_getElem.1 hs i (segs.length - 1) hi' (by omega) (by omega)
        rw [(List.getElem?_eq_some_iff.1 hi).2, (List.getElem?_eq_some_iff.1 kl).2] at this
        linarith
  | @err i hi hb haft =>
    simp only [findParamAt]
    rw [if_pos]
    rcases hl with hl | hl
    · right
      by_contra hne
      have := hb 0 0 (by omega) k0
      linarith
    · left
      by_contra hne
      have := haft _ _ (by omega : i ≤ segs.length - 1) kl
      linarith

end StepperPaths.SqrtPoly
