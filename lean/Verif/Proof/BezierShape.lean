import Verif.Spec.BezierShape
import Verif.Proof.RoundedArc
import Verif.Proof.RoundedExact
import Mathlib.MeasureTheory.Integral.IntervalIntegral.FundThmCalculus

/-! Bezier curves by their length. -/

namespace StepperPaths.Rounded.CurvePath
open Coords Curves Context IntegerCurve Spec Props Draw SqrtPoly

variable {b : Bezier} {U M7 κ : ℝ}

theorem onward_cont (b : Bezier) : Continuous (fun u => (onward b u).x) ∧ Continuous (fun u => (onward b u).y) := by
  unfold onward velocity
  constructor <;> fun_prop

theorem onwardLen_cont (b : Bezier) : Continuous (fun u => (onward b u).length) := by
  have h := onward_cont b
  exact Real.continuous_sqrt.comp ((h.1.mul h.1).add (h.2.mul h.2))

theorem onward_in {t : ℝ} (h0 : 0 ≤ t) (h1 : t ≤ 1) : onward b t = velocity b.c1 b.c2 b.p2 t := by
  rw [onward, min_eq_right h1, max_eq_right h0]

theorem onward_ge (h : BezierFits b U M7 κ) (t : ℝ) : 6 / 1000000000 ≤ (onward b t).length := by
  apply h.moves
  · exact le_max_left _ _
  · exact max_le zero_le_one (min_le_left _ _)

theorem onward_pos (h : BezierFits b U M7 κ) (t : ℝ) : 0 < (onward b t).length := lt_of_lt_of_le (by norm_num) (onward_ge h t)

theorem onwardLen_deriv (b : Bezier) (t : ℝ) : HasDerivAt (onwardLen b) ((onward b t).length) t := by
  have hc := onwardLen_cont b
  exact intervalIntegral.integral_hasDerivAt_right (hc.intervalIntegrable _ _)
    (hc.stronglyMeasurableAtFilter _ _) hc.continuousAt

theorem onwardPt_deriv (b : Bezier) (t : ℝ) (i : Axis) : HasDerivAt (fun t => coord (onwardPt b t) i) (coord (onward b t) i) t := by
  cases i
  · have hc := (onward_cont b).1
    exact intervalIntegral.integral_hasDerivAt_right (hc.intervalIntegrable _ _)
      (hc.stronglyMeasurableAtFilter _ _) hc.continuousAt
  · have hc := (onward_cont b).2
    exact intervalIntegral.integral_hasDerivAt_right (hc.intervalIntegrable _ _)
      (hc.stronglyMeasurableAtFilter _ _) hc.continuousAt

theorem onwardLen_zero (b : Bezier) : onwardLen b 0 = 0 := by simp [onwardLen]
theorem onwardPt_zero (b : Bezier) : onwardPt b 0 = ⟨0, 0⟩ := by simp [onwardPt]

theorem onwardLen_mono (h : BezierFits b U M7 κ) : StrictMono (onwardLen b) :=
  strictMono_of_hasDerivAt_pos (fun t => onwardLen_deriv b t) (fun t => onward_pos h t)

theorem onwardLen_surj (h : BezierFits b U M7 κ) : Function.Surjective (onwardLen b) := by
  have hm : Monotone (fun t => onwardLen b t - 6 / 1000000000 * t) := by
    apply monotone_of_hasDerivAt_nonneg (f' := fun t => (onward b t).length - 6 / 1000000000 * 1)
    · intro t
      exact (onwardLen_deriv b t).sub ((hasDerivAt_id t).const_mul _)
    · intro t
      have := onward_ge h t
      show 0 ≤ _
      linarith
  have hz := onwardLen_zero b
  apply Continuous.surjective
  · exact continuous_iff_continuousAt.2 fun t => (onwardLen_deriv b t).continuousAt
  · apply Filter.tendsto_atTop_mono' (f₁ := fun t => 6 / 1000000000 * t)
    · filter_upwards [Filter.eventually_ge_atTop 0] with t ht
      have := hm ht
      simp only [hz] at this
      linarith
    · exact Filter.tendsto_id.const_mul_atTop (by norm_num)
  · refine Filter.tendsto_atBot_mono' _ (f₂ := onwardLen b) (f₁ := fun t => 6 / 1000000000 * t) ?_ ?_
    · filter_upwards [Filter.eventually_le_atBot 0] with t ht
      have := hm ht
      simp only [hz] at this
      linarith
    · exact Filter.tendsto_id.const_mul_atBot (by norm_num)

theorem len_param (h : BezierFits b U M7 κ) (s : ℝ) : onwardLen b (onwardParam b s) = s :=
  Function.rightInverse_invFun (onwardLen_surj h) s

theorem param_len (h : BezierFits b U M7 κ) (t : ℝ) : onwardParam b (onwardLen b t) = t :=
  Function.leftInverse_invFun (onwardLen_mono h).injective t

theorem param_mono (h : BezierFits b U M7 κ) : StrictMono (onwardParam b) := by
  intro s s' hs
  by_contra hc
  have := (onwardLen_mono h).monotone (not_lt.1 hc)
  rw [len_param h, len_param h] at this
  linarith

theorem param_deriv (h : BezierFits b U M7 κ) (s : ℝ) :
    HasDerivAt (onwardParam b) ((onward b (onwardParam b s)).length)⁻¹ s := by
  apply HasDerivAt.of_local_left_inverse (f := onwardLen b)
  · have : Continuous (onwardParam b) := (param_mono h).monotone.continuous_of_surjective
      (fun t => ⟨onwardLen b t, param_len h t⟩)
    exact this.continuousAt
  · exact onwardLen_deriv b _
  · exact (onward_pos h _).ne'
  · exact Filter.Eventually.of_forall fun s => len_param h s

/-! ### The direction -/

theorem velocity_deriv2 (c1 c2 p2 : Vec) (t : ℝ) :
    HasDerivAt (fun t => (velocity c1 c2 p2 t).x) (acceleration c1 c2 p2 t).x t ∧
    HasDerivAt (fun t => (velocity c1 c2 p2 t).y) (acceleration c1 c2 p2 t).y t := by
  have key : ∀ a b c : ℝ, HasDerivAt (fun t : ℝ => 3 * (1 - t) ^ 2 * a + 6 * (1 - t) * t * (b - a) + 3 * t ^ 2 * (c - b))
      (6 * (1 - t) * (b - 2 * a) + 6 * t * (c - 2 * b + a)) t := by
    intro a b c
    have h1 : HasDerivAt (fun t : ℝ => 3 * a + (6 * b - 12 * a) * t + (9 * a - 9 * b + 3 * c) * t ^ 2)
        ((6 * b - 12 * a) * 1 + (9 * a - 9 * b + 3 * c) * (((2 : ℕ) : ℝ) * t ^ (2 - 1) * 1)) t := by
      have := (((hasDerivAt_id t).const_mul (6 * b - 12 * a)).const_add (3 * a)).add
        (((hasDerivAt_id t).pow 2).const_mul (9 * a - 9 * b + 3 * c))
      simp only [id_eq] at this
      exact this
    have e : (fun t : ℝ => 3 * (1 - t) ^ 2 * a + 6 * (1 - t) * t * (b - a) + 3 * t ^ 2 * (c - b)) =
        fun t : ℝ => 3 * a + (6 * b - 12 * a) * t + (9 * a - 9 * b + 3 * c) * t ^ 2 := by
      funext t; ring
    rw [e]
    exact h1.congr_deriv (by push_cast; ring)
  exact ⟨key _ _ _, key _ _ _⟩

/-- The derivative of a direction. -/
theorem unit_deriv {f g : ℝ → ℝ} {f' g' t : ℝ} (hf : HasDerivAt f f' t) (hg : HasDerivAt g g' t)
    (h0 : 0 < √(f t * f t + g t * g t)) :
    HasDerivAt (fun t => f t / √(f t * f t + g t * g t))
      (-(g t) * (f t * g' - g t * f') / √(f t * f t + g t * g t) ^ 3) t := by
  have hsq : f t * f t + g t * g t ≠ 0 := (Real.sqrt_pos.1 h0).ne'
  have h1 : HasDerivAt (fun t => f t * f t + g t * g t) (f' * f t + f t * f' + (g' * g t + g t * g')) t :=
    (hf.mul hf).add (hg.mul hg)
  have h2 := h1.sqrt hsq
  have h3 := hf.div h2 h0.ne'
  refine h3.congr_deriv ?_
  have hq : √(f t * f t + g t * g t) ^ 2 = f t * f t + g t * g t := Real.sq_sqrt (Real.sqrt_pos.1 h0).le
  generalize √(f t * f t + g t * g t) = q at *
  have hq0 : q ≠ 0 := h0.ne'
  field_simp
  linear_combination (2 * f') * hq

theorem unit_abs {v : Vec} {L : ℝ} (hL : v.length = L) (i : Axis) : |coord v i| ≤ L := by
  rw [← hL]; exact le_length v i

theorem turn_le (h : BezierFits b U M7 κ) (i : Axis) {t t' : ℝ} (h0 : 0 ≤ t) (ht : t ≤ t') (h1 : t' ≤ 1) :
    |coord (onward b t').unit i - coord (onward b t).unit i| ≤ κ * (onwardLen b t' - onwardLen b t) := by
  -- on the curve
  have hd : ∀ u, 0 ≤ u → u ≤ 1 → ∃ d, HasDerivAt (fun u => coord (velocity b.c1 b.c2 b.p2 u).unit i) d u ∧
      |d| ≤ κ * (onward b u).length := by
    intro u u0 u1
    have hp := onward_pos h u
    rw [onward_in u0 u1] at hp ⊢
    have hb := h.bends u u0 u1
    have hv := velocity_deriv2 b.c1 b.c2 b.p2 u
    have hcomp := le_length (velocity b.c1 b.c2 b.p2 u)
    have key : ∀ y c L : ℝ, 0 < L → |y| ≤ L → |c| ≤ κ * L ^ 3 → |-y * c / L ^ 3| ≤ κ * L := by
      intro y c L hL hy hc
      rw [abs_div, abs_mul, abs_neg, abs_of_pos (pow_pos hL 3), div_le_iff₀ (pow_pos hL 3)]
      calc _ ≤ L * (κ * L ^ 3) := mul_le_mul hy hc (abs_nonneg _) hL.le
        _ = _ := by ring
    cases i
    · exact ⟨_, unit_deriv hv.1 hv.2 hp, key _ _ _ hp (hcomp .y) hb⟩
    · have e1 : ∀ u, √((velocity b.c1 b.c2 b.p2 u).y * (velocity b.c1 b.c2 b.p2 u).y +
          (velocity b.c1 b.c2 b.p2 u).x * (velocity b.c1 b.c2 b.p2 u).x) = (velocity b.c1 b.c2 b.p2 u).length := by
        intro u; rw [add_comm]; rfl
      have := unit_deriv hv.2 hv.1 (by rw [e1]; exact hp)
      simp only [e1] at this
      refine ⟨_, this, key _ _ _ hp (hcomp .x) ?_⟩
      rwa [abs_sub_comm]
  rw [onward_in h0 (ht.trans h1), onward_in (h0.trans ht) h1]
  have hcont : ContinuousOn (fun u => coord (velocity b.c1 b.c2 b.p2 u).unit i) (Set.Icc 0 1) := fun u hu =>
    (hd u hu.1 hu.2).choose_spec.1.continuousAt.continuousWithinAt
  have hL : Continuous (onwardLen b) := continuous_iff_continuousAt.2 fun t => (onwardLen_deriv b t).continuousAt
  have m1 : MonotoneOn (fun u => κ * onwardLen b u - coord (velocity b.c1 b.c2 b.p2 u).unit i) (Set.Icc 0 1) := by
    apply monotoneOn_of_deriv_nonneg (convex_Icc 0 1) ((continuous_const.mul hL).continuousOn.sub hcont)
    · intro u hu
      rw [interior_Icc] at hu
      obtain ⟨d, d1, -⟩ := hd u hu.1.le hu.2.le
      exact (((onwardLen_deriv b u).const_mul κ).sub d1).differentiableAt.differentiableWithinAt
    · intro u hu
      rw [interior_Icc] at hu
      obtain ⟨d, d1, d2⟩ := hd u hu.1.le hu.2.le
      have := (((onwardLen_deriv b u).const_mul κ).sub d1).deriv
      refine le_of_le_of_eq ?_ this.symm
      linarith [le_abs_self d]
  have m2 : MonotoneOn (fun u => κ * onwardLen b u + coord (velocity b.c1 b.c2 b.p2 u).unit i) (Set.Icc 0 1) := by
    apply monotoneOn_of_deriv_nonneg (convex_Icc 0 1) ((continuous_const.mul hL).continuousOn.add hcont)
    · intro u hu
      rw [interior_Icc] at hu
      obtain ⟨d, d1, -⟩ := hd u hu.1.le hu.2.le
      exact (((onwardLen_deriv b u).const_mul κ).add d1).differentiableAt.differentiableWithinAt
    · intro u hu
      rw [interior_Icc] at hu
      obtain ⟨d, d1, d2⟩ := hd u hu.1.le hu.2.le
      have := (((onwardLen_deriv b u).const_mul κ).add d1).deriv
      refine le_of_le_of_eq ?_ this.symm
      linarith [neg_abs_le d]
  have g1 := m1 ⟨h0, ht.trans h1⟩ ⟨h0.trans ht, h1⟩ ht
  have g2 := m2 ⟨h0, ht.trans h1⟩ ⟨h0.trans ht, h1⟩ ht
  simp only at g1 g2
  rw [abs_le]; constructor <;> linarith

/-! ### The shape -/

theorem kappa_nonneg (h : BezierFits b U M7 κ) : 0 ≤ κ := by
  have h0 := onward_pos h 0
  rw [onward_in le_rfl zero_le_one] at h0
  have h1 := (abs_nonneg _).trans (h.bends 0 le_rfl zero_le_one)
  exact le_of_mul_le_mul_right (by rw [zero_mul]; exact h1) (pow_pos h0 3)

theorem onward_clamp (b : Bezier) (t : ℝ) : onward b (max 0 (min 1 t)) = onward b t := by
  have h0 : 0 ≤ max 0 (min 1 t) := le_max_left _ _
  have h1 : max 0 (min 1 t) ≤ 1 := max_le zero_le_one (min_le_left _ _)
  rw [onward_in h0 h1, onward]

theorem bezier_smooth (h : BezierFits b U M7 κ) : (bezierShape b).Smooth κ := by
  have hu : ∀ t, (onward b t).unit.x ^ 2 + (onward b t).unit.y ^ 2 = 1 := by
    intro t
    have hp := onward_pos h t
    have hq : (onward b t).length ^ 2 = (onward b t).x * (onward b t).x + (onward b t).y * (onward b t).y :=
      Real.sq_sqrt (Real.sqrt_pos.1 hp).le
    simp only [Vec.unit, div_pow]
    rw [← add_div, hq, sq, sq]
    exact div_self (Real.sqrt_pos.1 hp).ne'
  refine ⟨?_, ?_, fun s => hu _, ?_⟩
  · show onwardPt b (onwardParam b 0) = _
    have := param_len h 0
    rw [onwardLen_zero] at this
    rw [this, onwardPt_zero]
  · intro i s
    have := (onwardPt_deriv b (onwardParam b s) i).comp s (param_deriv h s)
    refine this.congr_deriv ?_
    rw [← div_eq_mul_inv]
    cases i <;> rfl
  · intro i s s'
    show |coord (onward b (onwardParam b s)).unit i - coord (onward b (onwardParam b s')).unit i| ≤ _
    wlog hs : s' ≤ s generalizing s s'
    · rw [abs_sub_comm, abs_sub_comm s]
      exact this s' s (le_of_not_ge hs)
    have hk := kappa_nonneg h
    have hp := (param_mono h).monotone hs
    have hc : max 0 (min 1 (onwardParam b s')) ≤ max 0 (min 1 (onwardParam b s)) := by gcongr
    rw [← onward_clamp b (onwardParam b s), ← onward_clamp b (onwardParam b s')]
    refine (turn_le h i (le_max_left _ _) hc (max_le zero_le_one (min_le_left _ _))).trans ?_
    apply mul_le_mul_of_nonneg_left _ hk
    rw [(onwardLen_mono h).monotone.map_max, (onwardLen_mono h).monotone.map_min, (onwardLen_mono h).monotone.map_max,
      (onwardLen_mono h).monotone.map_min, len_param h, len_param h]
    refine (le_abs_self _).trans ?_
    refine (abs_max_sub_max_le_max _ _ _ _).trans ?_
    rw [sub_self, abs_zero]
    refine max_le (abs_nonneg _) ((abs_min_sub_min_le_max _ _ _ _).trans ?_)
    rw [sub_self, abs_zero]
    exact max_le (abs_nonneg _) le_rfl

theorem onwardLen_eq {t : ℝ} (h0 : 0 ≤ t) (h1 : t ≤ 1) : onwardLen b t = bezierArc b t := by
  apply intervalIntegral.integral_congr
  intro u hu
  rw [Set.uIcc_of_le h0] at hu
  simp only [onward_in hu.1 (hu.2.trans h1)]

theorem onwardPt_eq {t : ℝ} (h0 : 0 ≤ t) (h1 : t ≤ 1) : onwardPt b t = bernstein b.c1 b.c2 b.p2 t := by
  have cv : Continuous (fun u => (velocity b.c1 b.c2 b.p2 u).x) ∧ Continuous (fun u => (velocity b.c1 b.c2 b.p2 u).y) := by
    unfold velocity
    constructor <;> fun_prop
  ext
  · have := intervalIntegral.integral_eq_sub_of_hasDerivAt (a := 0) (b := t)
      (fun u _ => (velocity_deriv b.c1 b.c2 b.p2 u).1) (cv.1.intervalIntegrable _ _)
    have e1 : (bernstein b.c1 b.c2 b.p2 0).x = 0 := by simp [bernstein]
    rw [e1, sub_zero] at this
    rw [← this]
    apply intervalIntegral.integral_congr
    intro u hu
    rw [Set.uIcc_of_le h0] at hu
    simp only [onward_in hu.1 (hu.2.trans h1)]
  · have := intervalIntegral.integral_eq_sub_of_hasDerivAt (a := 0) (b := t)
      (fun u _ => (velocity_deriv b.c1 b.c2 b.p2 u).2) (cv.2.intervalIntegrable _ _)
    have e1 : (bernstein b.c1 b.c2 b.p2 0).y = 0 := by simp [bernstein]
    rw [e1, sub_zero] at this
    rw [← this]
    apply intervalIntegral.integral_congr
    intro u hu
    rw [Set.uIcc_of_le h0] at hu
    simp only [onward_in hu.1 (hu.2.trans h1)]

theorem shape_pt (h : BezierFits b U M7 κ) {t : ℝ} (h0 : 0 ≤ t) (h1 : t ≤ 1) :
    (bezierShape b).pt (bezierArc b t) = bernstein b.c1 b.c2 b.p2 t ∧
    (bezierShape b).dir (bezierArc b t) = (velocity b.c1 b.c2 b.p2 t).unit := by
  rw [← onwardLen_eq h0 h1]
  constructor
  · show onwardPt b (onwardParam b _) = _
    rw [param_len h, onwardPt_eq h0 h1]
  · show (onward b (onwardParam b _)).unit = _
    rw [param_len h, onward_in h0 h1]

/-! ### The computed curve -/

variable {e : Draw.Env}

theorem bezier_moves (h : BezierFits b U M7 κ) : ∀ t ∈ Set.Icc (0 : ℝ) 1, velocity b.c1 b.c2 b.p2 t ≠ ⟨0, 0⟩ := by
  intro t ht hc
  have := h.moves t ht.1 ht.2
  rw [hc] at this
  norm_num [Vec.length] at this

theorem fact7 : (Nat.factorial 7 : ℝ) = 5040 := by norm_num [Nat.factorial]

theorem bezier_len (h : BezierFits b U M7 κ) (hT : FromTable e b) :
    |e.bezierLength b - bezierArc b 1| ≤ M7 / 10 ^ 7 / 5040 := by
  obtain ⟨segs, ans0, t1, t2, t3, -⟩ := hT
  obtain ⟨-, hl⟩ := C76_length b segs t1 M7 (bezier_moves h) (fun t ht => h.rough t ht.1 ht.2)
  obtain ⟨len, e1, e2⟩ := hl ans0 t2
  rw [t3, Option.some.injEq] at e1
  rw [e1]
  rwa [fact7] at e2

theorem U_nonneg (h : BezierFits b U M7 κ) : 0 ≤ U :=
  le_trans (by norm_num) ((h.moves 0 le_rfl zero_le_one).trans (h.fast 0 le_rfl zero_le_one))

theorem M7_nonneg (h : BezierFits b U M7 κ) : 0 ≤ M7 := (abs_nonneg _).trans (h.rough 0 le_rfl zero_le_one)

theorem arc_lip (h : BezierFits b U M7 κ) {t t' : ℝ} (h0 : 0 ≤ t) (ht : t ≤ t') (h1 : t' ≤ 1) :
    |bezierArc b t' - bezierArc b t| ≤ U * (t' - t) := by
  rw [← onwardLen_eq h0 (ht.trans h1), ← onwardLen_eq (h0.trans ht) h1]
  have := mean (f := onwardLen b) (f' := fun t => (onward b t).length) (fun s => onwardLen_deriv b s) (s := t) (s' := t')
    (C := U) (fun u _ => by
      rw [abs_of_pos (onward_pos h u)]
      exact h.fast _ (le_max_left _ _) (max_le zero_le_one (min_le_left _ _)))
  rwa [abs_of_nonneg (sub_nonneg.2 ht)] at this

theorem bezier_at (h : BezierFits b U M7 κ) (hT : FromTable e b) (s : ℝ) :
    ∃ t, 0 ≤ t ∧ t ≤ 1 ∧ (e.bezierInfo b).value s = b.bezierValue t ∧
      (|bezierArc b t - s| ≤ M7 / 10 ^ 7 / 5040 + U / 2 ^ 52 ∨ t = 0 ∧ s ≤ 0 ∨ t = 1 ∧ bezierArc b 1 ≤ s) := by
  have hlen := bezier_len h hT
  have hU := U_nonneg h
  have hM := M7_nonneg h
  have hU' : 0 ≤ U / 2 ^ 52 := by positivity
  have hM' : 0 ≤ M7 / 10 ^ 7 / 5040 := by positivity
  by_cases c0 : s ≤ 0
  · exact ⟨0, le_rfl, zero_le_one, by simp only [Draw.Env.bezierInfo, if_pos c0], .inr (.inl ⟨rfl, c0⟩)⟩
  by_cases c1 : s ≥ e.bezierLength b
  · refine ⟨1, zero_le_one, le_rfl, by simp only [Draw.Env.bezierInfo, if_neg c0, if_pos c1], ?_⟩
    by_cases c2 : bezierArc b 1 ≤ s
    · exact .inr (.inr ⟨rfl, c2⟩)
    · left
      rw [abs_of_nonneg (by linarith)]
      linarith [(abs_le.1 hlen).1]
  · push Not at c0 c1
    obtain ⟨segs, ans0, t1, t2, t3, t4⟩ := hT
    obtain ⟨ans, a1, a2⟩ := t4 s c0 c1
    obtain ⟨t, v1, v2, t', ⟨v3, v4⟩, v5, v6⟩ := C76_value b segs t1 M7 (bezier_moves h) (fun t ht => h.rough t ht.1 ht.2) ans0 t2 _ t3
      s c0.le c1.le ans a1
    refine ⟨t, v2, v3.trans v5, ?_, .inl ?_⟩
    · simp only [Bezier.valueAt, if_neg (not_le.2 c0), t3, a2, Option.bind_eq_bind, Option.bind_some, if_neg (not_le.2 c1),
        Option.some.injEq, ge_iff_le] at v1
      simp only [Draw.Env.bezierInfo, if_neg (not_le.2 c0), ge_iff_le, if_neg (not_le.2 c1)]
      exact v1
    · have g1 := arc_lip h v2 v3 v5
      have g2 : U * (t' - t) ≤ U / 2 ^ 52 := by
        rw [div_eq_mul_one_div]
        exact mul_le_mul_of_nonneg_left (by linarith) hU
      have g3 : t' * M7 / 10 ^ 7 / (Nat.factorial 7 : ℝ) ≤ M7 / 10 ^ 7 / 5040 := by
        rw [fact7]
        gcongr
        exact mul_le_of_le_one_left hM v5
      rw [abs_sub_comm] at g1
      calc |bezierArc b t - s| ≤ |bezierArc b t - bezierArc b t'| + |bezierArc b t' - s| := abs_sub_le _ _ _
        _ ≤ _ := by linarith

theorem bezier_near (h : BezierFits b U M7 κ) (hT : FromTable e b) {D ε w : ℝ} (hD : M7 / 10 ^ 7 / 5040 + U / 2 ^ 52 ≤ D)
    (hε : κ * (M7 / 10 ^ 7 / 5040 + U / 2 ^ 52) ≤ ε) : Near (e.bezierInfo b) (bezierShape b) D ε w := by
  have hS := bezier_smooth h
  have hk := kappa_nonneg h
  have hU' : 0 ≤ U / 2 ^ 52 := div_nonneg (U_nonneg h) (by norm_num)
  have hM' : 0 ≤ M7 / 10 ^ 7 / 5040 := div_nonneg (div_nonneg (M7_nonneg h) (by norm_num)) (by norm_num)
  have hε0 : 0 ≤ ε := le_trans (mul_nonneg hk (by linarith)) hε
  have hval : ∀ t, 0 ≤ t → t ≤ 1 → b.bezierValue t = ((bezierShape b).pt (bezierArc b t), (bezierShape b).dir (bezierArc b t)) := by
    intro t h0 h1
    rw [(shape_pt h h0 h1).1, (shape_pt h h0 h1).2, ← C42_point, ← C42_direction b t h0 h1 (h.moves t h0 h1)]
  have hz : bezierArc b 0 = 0 := by simp [bezierArc]
  have hmono := (param_mono h).monotone
  have p0 : onwardParam b 0 = 0 := by
    have := param_len h 0
    rwa [onwardLen_zero] at this
  have p1 : onwardParam b (bezierArc b 1) = 1 := by
    have := param_len h 1
    rwa [onwardLen_eq zero_le_one le_rfl] at this
  refine ⟨?_, ?_, ?_, ?_⟩
  · exact (bezier_len h hT).trans (by linarith)
  · show ((e.bezierInfo b).value 0).1 = _
    have : (e.bezierInfo b).value 0 = b.bezierValue 0 := by simp only [Draw.Env.bezierInfo, if_pos le_rfl]
    rw [this, hval 0 le_rfl zero_le_one, hz]
    exact hS.origin
  · intro s _ _ i
    obtain ⟨t, t0, t1, hv, hc⟩ := bezier_at h hT s
    rw [hv, hval t t0 t1]
    refine (hS.lip i _ _).trans ?_
    rcases hc with hc | ⟨rfl, hc⟩ | ⟨rfl, hc⟩
    · have : 0 ≤ beyond (bezierShape b).len s := le_max_left _ _
      linarith
    · rw [hz, zero_sub, abs_neg, abs_of_nonpos hc]
      have : -s ≤ beyond (bezierShape b).len s := (le_max_left _ _).trans (le_max_right _ _)
      linarith
    · rw [abs_of_nonpos (by linarith)]
      have : s - bezierArc b 1 ≤ beyond (bezierShape b).len s := (le_max_right _ _).trans (le_max_right _ _)
      linarith
  · intro s _ _ i
    obtain ⟨t, t0, t1, hv, hc⟩ := bezier_at h hT s
    rw [hv, hval t t0 t1]
    rcases hc with hc | ⟨rfl, hc⟩ | ⟨rfl, hc⟩
    · exact (hS.bends i _ _).trans ((mul_le_mul_of_nonneg_left hc hk).trans hε)
    · have e1 : onward b (onwardParam b s) = onward b (onwardParam b 0) := by
        have := hmono hc
        rw [p0] at this ⊢
        simp only [onward, max_eq_left (min_le_of_right_le this), min_eq_right (zero_le_one' ℝ), max_self]
      show |coord (onward b (onwardParam b (bezierArc b 0))).unit i - coord (onward b (onwardParam b s)).unit i| ≤ ε
      rw [e1, hz, sub_self, abs_zero]
      exact hε0
    · have e1 : onward b (onwardParam b s) = onward b (onwardParam b (bezierArc b 1)) := by
        have := hmono hc
        rw [p1] at this ⊢
        simp only [onward, min_eq_left this, min_self]
      show |coord (onward b (onwardParam b (bezierArc b 1))).unit i - coord (onward b (onwardParam b s)).unit i| ≤ ε
      rw [e1, sub_self, abs_zero]
      exact hε0

/-! ### Arcs and paths -/

theorem id_rounding : FloatRounding id := by
  refine ⟨fun x => ?_, fun _ _ => rfl, fun _ => rfl⟩
  rw [id, sub_self, abs_zero]
  positivity

theorem id_trig : FloatTrig Real.sin Real.cos := by
  constructor <;> intro x <;> rw [sub_self, abs_zero] <;> norm_num

theorem arc_exact_end {r a c : ℝ} (hr : 0 < r) (pos : Vec) :
    pos + ((Circle.new r a c).value (Circle.new r a c).length).1 = placedAt (pos, arcShape r a c) (r * |c - a|) := by
  have key : r * |c - a| * (Circle.new r a c).angleScale + a = a + sign a c * (r * |c - a|) / r := by
    unfold Circle.new sign
    split <;> field_simp <;> ring
  have e1 : (Circle.new r a c).length = r * |c - a| := rfl
  rw [e1, placedAt]
  show pos + ((⟨Real.cos (r * |c - a| * (Circle.new r a c).angleScale + a) * r,
      Real.sin (r * |c - a| * (Circle.new r a c).angleScale + a) * r⟩ : Vec) + ⟨-Real.cos a * r, -Real.sin a * r⟩) = _
  rw [key, arcShape_eq]
  simp only [vec_add]
  congr 2 <;> ring

theorem exact_path {e : Draw.Env} (hT : Tables e) {M d D ε κ w : ℝ} {ρ : Axis → ℝ} {P0 : Axis → ℤ} (hD : 0 ≤ D) :
    ∀ (segs : List Seg) (B : ℝ) (stops : List Vec) (pos : Vec), ExactPath e.stepScale M d D ε κ w ρ P0 B stops pos segs →
      FloatPath id (exactEnv e) pictures M d D ε κ w ρ P0 B stops pos segs
  | [], _, _, _, _ => trivial
  | .goTo p :: segs, B, stops, pos, ⟨h1, h2, h3⟩ =>
    ⟨fun i => ⟨h1 i, rfl⟩, exact_path hT hD segs B stops p h2, fun hb => exact_path hT hD segs B stops pos (h3 hb)⟩
  | .lineTo p :: segs, B, stops, pos, ⟨h1, h2, h3, h4⟩ => ⟨fun i => ⟨h1 i, rfl⟩, h2, h3, exact_path hT hD segs _ _ p h4⟩
  | .closeTo p :: segs, B, stops, pos, ⟨h1, .inl ⟨h2, h3⟩⟩ => ⟨fun i => ⟨h1 i, rfl⟩, .inl ⟨h2, exact_path hT hD segs _ _ p h3⟩⟩
  | .closeTo p :: segs, B, stops, pos, ⟨h1, .inr ⟨h2, h3, h4, h5⟩⟩ =>
    ⟨fun i => ⟨h1 i, rfl⟩, .inr ⟨h2, h3, h4, exact_path hT hD segs _ _ p h5⟩⟩
  | .curveTo p c1 c2 :: segs, B, stops, pos, ⟨h1, ⟨U, M7, h2, h3, h4⟩, h5, h6, h7⟩ => by
    refine ⟨e.bezierInfo (bezierOf pos p c1 c2), p, rfl, fun i => ⟨h1 i, rfl⟩, bezier_smooth h2,
      bezier_near h2 (hT _ _ _ _ h2) h3 h4, ?_, h5, h6, exact_path hT hD segs _ _ p h7⟩
    intro i
    have e1 : (pictures pos (.curveTo p c1 c2)).pt (pictures pos (.curveTo p c1 c2)).len = p - pos := by
      show (bezierShape (bezierOf pos p c1 c2)).pt (bezierArc (bezierOf pos p c1 c2) 1) = _
      rw [(shape_pt h2 zero_le_one le_rfl).1]
      ext <;> simp [bernstein, bezierOf]
    rw [e1]
    have e2 : coord (p - pos) i = coord p i - coord pos i := by cases i <;> rfl
    rw [e2, show coord pos i + (coord p i - coord pos i) - coord p i = 0 by ring, abs_zero]
    exact hD
  | .arc rx ry a c rot :: segs, B, stops, pos, ⟨⟨A, h1, h2, h3⟩, h4, h5, h6, h7, h8, h9, h10⟩ => by
    have hr : 0 < rx := lt_of_lt_of_le (by norm_num) h1.big
    have hM : 0 ≤ M := (abs_nonneg _).trans (h7 .x)
    have hA : 0 < A := lt_of_lt_of_le one_pos h1.one
    have hs := arc_smooth hr a c
    refine ⟨(Circle.new rx a c).info, placedAt (pos, arcShape rx a c) (rx * |c - a|), ?_, fun i => ⟨h7 i, rfl⟩,
      ⟨hs.origin, hs.moves, hs.unit, fun i s s' => (hs.bends i s s').trans (by gcongr)⟩,
      arc_near id_rounding (fun _ => rfl) id_trig h1 rfl h5 (le_trans ?_ h2) h3, ?_, h8, h9, exact_path hT hD segs _ _ _ h10⟩
    · show (if |rx - ry| > Draw.epsilon then none else _) = _
      have e0 : Draw.epsilon = 1 / 2 ^ 52 := by norm_num [Draw.epsilon]
      rw [if_neg (by rw [e0]; exact not_lt.2 h4), arc_exact_end hr]
    · gcongr
      nlinarith
    · intro i
      have e1 : coord (placedAt (pos, arcShape rx a c) (rx * |c - a|)) i =
        coord pos i + coord ((arcShape rx a c).pt (rx * |c - a|)) i := by cases i <;> rfl
      rw [e1]
      show |_ + coord ((arcShape rx a c).pt (rx * |c - a|)) i - _| ≤ D
      rw [sub_self, abs_zero]
      exact hD

theorem exact_apart {e : Draw.Env} {ρ : Axis → ℝ} {P0 : Axis → ℤ} : ∀ (segs : List Seg) (stops : List Vec) (pos : Vec) {M d D ε κ w B : ℝ},
    ExactPath e.stepScale M d D ε κ w ρ P0 B stops pos segs → ExactApart e.stepScale ρ P0 stops pos segs →
      Apart id (exactEnv e) ρ P0 stops pos segs
  | [], _, _, _, _, _, _, _, _, _, _, _ => trivial
  | .goTo p :: segs, stops, pos, _, _, _, _, _, _, _, h, h' => ⟨h'.1, exact_apart segs _ _ h.2.1 h'.2⟩
  | .lineTo p :: segs, stops, pos, _, _, _, _, _, _, _, h, h' => fun _ hq => by
    cases hq
    exact exact_apart segs _ _ h.2.2.2 h'
  | .closeTo p :: segs, stops, pos, _, _, _, _, _, _, _, ⟨_, .inl h⟩, h' => fun _ hq => by
    cases hq
    exact exact_apart segs _ _ h.2 h'
  | .closeTo p :: segs, stops, pos, _, _, _, _, _, _, _, ⟨_, .inr h⟩, h' => fun _ hq => by
    cases hq
    exact exact_apart segs _ _ h.2.2.2 h'
  | .curveTo p c1 c2 :: segs, stops, pos, _, _, _, _, _, _, _, h, h' => by
    rintro q ⟨k, hk⟩
    cases hk
    exact exact_apart segs _ _ h.2.2.2.2 h'
  | .arc rx ry a c rot :: segs, stops, pos, _, _, _, _, _, _, _, ⟨⟨A, h1, _, _⟩, _, _, _, _, _, _, h⟩, h' => by
    have hr : 0 < rx := lt_of_lt_of_le (by norm_num) h1.big
    rintro q ⟨k, hk⟩
    have hk : (if |rx - ry| > Draw.epsilon then none else
      some ((Circle.new rx a c).info, pos + ((Circle.new rx a c).value (Circle.new rx a c).length).1)) = some (k, q) := hk
    split at hk
    · cases hk
    · cases hk
      rw [arc_exact_end hr]
      exact exact_apart segs _ _ h h'

/-- There are tables for all curves that are not extreme. -/
theorem tables_exist (b : Bezier) (h : ∃ U M7 κ, BezierFits b U M7 κ) :
    ∃ (len : ℝ) (param : ℝ → ℝ), ∃ segs ans0, b.table = some segs ∧ Found (segs.map (·.start)) 1 ans0 ∧
      Bezier.lengthAt segs ans0 = some len ∧
      ∀ pos, 0 < pos → pos < len →
        ∃ ans, Found (segs.map (fun s => s.int.getD 0 0)) pos ans ∧ findParamAt segs pos ans = some (param pos) := by
  obtain ⟨U, M7, κ, h⟩ := h
  obtain ⟨segs, hs⟩ := C76_returns b
  obtain ⟨⟨ans0, a0⟩, hl⟩ := C76_length b segs hs M7 (bezier_moves h) (fun t ht => h.rough t ht.1 ht.2)
  obtain ⟨len, l1, -⟩ := hl ans0 a0
  obtain ⟨p, p1, p2, p3⟩ := table_polynomial b
  have hsp : (fun u => √(polyval p u)) = fun u => (velocity b.c1 b.c2 b.p2 u).length := funext (speed_length b p3)
  have hpos : ∀ t ∈ Set.Icc (0 : ℝ) 1, 0 < polyval p t := fun t ht => by
    have := (length_pos_iff _).1 (bezier_moves h t ht)
    rw [← speed_length b p3] at this
    exact Real.sqrt_pos.1 this
  have hs' := hs
  rw [p2] at hs'
  have key : ∀ pos, ∃ t, 0 < pos → pos < len →
      ∃ ans, Found (segs.map (fun s => s.int.getD 0 0)) pos ans ∧ findParamAt segs pos ans = some t := by
    intro pos
    by_cases hc : 0 < pos ∧ pos < len
    · obtain ⟨⟨ans, f1⟩, f2⟩ := C75_search p 1 M7 9 segs hs' one_pos hpos (by rw [hsp]; exact fun t ht => h.rough t ht.1 ht.2)
        (fun t ht => by
          rw [speed_length b p3]
          refine lt_of_le_of_lt (le_of_eq ?_) (h.tame t ht.1 ht.2)
          rw [fact7]
          norm_num
          ring) len ans0 a0 l1 pos
      have : findParamAt segs pos ans ≠ none := by
        rw [Ne, f2 ans f1]
        push Not
        exact ⟨hc.1.le, hc.2.le⟩
      obtain ⟨t, ht⟩ := Option.ne_none_iff_exists'.1 this
      exact ⟨t, fun _ _ => ⟨ans, f1, ht⟩⟩
    · exact ⟨0, fun h1 h2 => absurd ⟨h1, h2⟩ hc⟩
  choose param hparam using key
  exact ⟨len, param, segs, ans0, hs, a0, l1, hparam⟩

end StepperPaths.Rounded.CurvePath
