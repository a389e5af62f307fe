import Verif.Model.RoundedArc
import Verif.Spec.RoundedArc
import Verif.Proof.CurveShape
import Mathlib.Analysis.SpecialFunctions.Trigonometric.Bounds

/-! Arcs with rounding. -/

namespace StepperPaths.Rounded.CurvePath
open Coords Curves Context IntegerCurve Spec Props Draw

/-- The sign of an arc. -/
noncomputable def sign (a b : ℝ) : ℝ := if a ≤ b then 1 else -1

theorem sign_sq (a b : ℝ) : sign a b * sign a b = 1 := by unfold sign; split <;> norm_num
theorem sign_abs (a b : ℝ) : |sign a b| = 1 := by unfold sign; split <;> norm_num

theorem arcShape_eq (r a b : ℝ) : arcShape r a b = ⟨r * |b - a|,
    fun s => ⟨r * (Real.cos (a + sign a b * s / r) - Real.cos a), r * (Real.sin (a + sign a b * s / r) - Real.sin a)⟩,
    fun s => ⟨-(sign a b * Real.sin (a + sign a b * s / r)), sign a b * Real.cos (a + sign a b * s / r)⟩⟩ := rfl

theorem abs_cos_sub (x y : ℝ) : |Real.cos x - Real.cos y| ≤ |x - y| := by
  have := mean (f := Real.cos) (f' := fun s => -Real.sin s) (fun s => Real.hasDerivAt_cos s) (s := y) (s' := x) (C := 1)
    (fun s _ => by rw [abs_neg]; exact Real.abs_sin_le_one s)
  rwa [one_mul] at this

theorem abs_sin_sub (x y : ℝ) : |Real.sin x - Real.sin y| ≤ |x - y| := by
  have := mean (f := Real.sin) (f' := fun s => Real.cos s) (fun s => Real.hasDerivAt_sin s) (s := y) (s' := x) (C := 1)
    (fun s _ => Real.abs_cos_le_one s)
  rwa [one_mul] at this

theorem arc_smooth {r : ℝ} (hr : 0 < r) (a b : ℝ) : (arcShape r a b).Smooth (1 / r) := by
  rw [arcShape_eq]
  have hq := sign_sq a b
  have hσ := sign_abs a b
  have hd : ∀ s, HasDerivAt (fun s => a + sign a b * s / r) (sign a b / r) s := by
    intro s
    have := (((hasDerivAt_id s).const_mul (sign a b)).div_const r).const_add a
    simpa using this
  have hb : ∀ s s', |(a + sign a b * s / r) - (a + sign a b * s' / r)| = 1 / r * |s - s'| := by
    intro s s'
    rw [show (a + sign a b * s / r) - (a + sign a b * s' / r) = sign a b * (1 / r * (s - s')) by ring, abs_mul, hσ,
      one_mul, abs_mul, abs_of_pos (by positivity : 0 < 1 / r)]
  refine ⟨by simp, fun i s => ?_, fun s => ?_, fun i s s' => ?_⟩
  · cases i
    · have := (((hd s).cos).sub_const (Real.cos a)).const_mul r
      show HasDerivAt (fun s => r * (Real.cos (a + sign a b * s / r) - Real.cos a)) (-(sign a b * Real.sin (a + sign a b * s / r))) s
      rwa [show -(sign a b * Real.sin (a + sign a b * s / r)) = r * (-Real.sin (a + sign a b * s / r) * (sign a b / r)) by field_simp]
    · have := (((hd s).sin).sub_const (Real.sin a)).const_mul r
      show HasDerivAt (fun s => r * (Real.sin (a + sign a b * s / r) - Real.sin a)) (sign a b * Real.cos (a + sign a b * s / r)) s
      rwa [show sign a b * Real.cos (a + sign a b * s / r) = r * (Real.cos (a + sign a b * s / r) * (sign a b / r)) by field_simp]
  · show (-(sign a b * Real.sin (a + sign a b * s / r))) ^ 2 + (sign a b * Real.cos (a + sign a b * s / r)) ^ 2 = 1
    have := Real.sin_sq_add_cos_sq (a + sign a b * s / r)
    linear_combination this * (sign a b * sign a b) + hq
  · rw [← hb]
    cases i
    · show |-(sign a b * Real.sin (a + sign a b * s / r)) - -(sign a b * Real.sin (a + sign a b * s' / r))| ≤ _
      rw [show -(sign a b * Real.sin (a + sign a b * s / r)) - -(sign a b * Real.sin (a + sign a b * s' / r)) =
        -(sign a b * (Real.sin (a + sign a b * s / r) - Real.sin (a + sign a b * s' / r))) by ring, abs_neg, abs_mul, hσ, one_mul]
      exact abs_sin_sub _ _
    · show |sign a b * Real.cos (a + sign a b * s / r) - sign a b * Real.cos (a + sign a b * s' / r)| ≤ _
      rw [← mul_sub, abs_mul, hσ, one_mul]
      exact abs_cos_sub _ _

theorem rel {fl : ℝ → ℝ} (R : FloatRounding fl) {x X : ℝ} (hx : |x| ≤ X) (hX : 1 / 2 ^ 200 ≤ X) : |fl x - x| ≤ X / 2 ^ 52 := by
  have h := R.near x
  have h1 : (2⁻¹ : ℝ) ^ 53 * |x| ≤ 2⁻¹ ^ 53 * X := by gcongr
  have h2 : (2⁻¹ : ℝ) ^ 1075 ≤ 2⁻¹ ^ 53 * X := by
    have : (2⁻¹ : ℝ) ^ 1075 ≤ 2⁻¹ ^ 53 * (1 / 2 ^ 200) := by
      rw [one_div, ← inv_pow, ← pow_add]
      exact pow_le_pow_of_le_one (by norm_num) (by norm_num) (by norm_num)
    exact this.trans (by gcongr)
  have h4 : X / 2 ^ 52 = 2⁻¹ ^ 53 * X + 2⁻¹ ^ 53 * X := by ring
  rw [h4]
  exact h.trans (add_le_add h1 h2)

theorem abs3 {x y z p q : ℝ} (h1 : |x - y| ≤ p) (h2 : |y - z| ≤ q) : |x - z| ≤ p + q := by
  obtain ⟨a1, a2⟩ := abs_le.1 h1
  obtain ⟨b1, b2⟩ := abs_le.1 h2
  rw [abs_le]; constructor <;> linarith

theorem abs_of_near {x y p q : ℝ} (h1 : |x - y| ≤ p) (h2 : |y| ≤ q) : |x| ≤ p + q := by
  have := abs3 (z := 0) h1 (by simpa using h2)
  simpa using this

/-- The computed angle. -/
theorem angle_near {fl : ℝ → ℝ} (R : FloatRounding fl) {r a b A s : ℝ} (h : ArcFits r a b A) (hs : |s| ≤ 3 * A * r) :
    |fl (fl (s * (if a ≤ b then fl (1 / r) else fl (-1 / r))) + a) - (a + sign a b * s / r)| ≤ 12 * A / 2 ^ 52 := by
  have hr : 0 < r := lt_of_lt_of_le (by norm_num) h.big
  have hA : 0 < A := lt_of_lt_of_le one_pos h.one
  obtain ⟨sc, hsc, hsc'⟩ : ∃ sc, (if a ≤ b then fl (1 / r) else fl (-1 / r)) = sc ∧ |sc - sign a b / r| ≤ (1 / r) / 2 ^ 52 := by
    have hX : (1 : ℝ) / 2 ^ 200 ≤ 1 / r := one_div_le_one_div_of_le hr (h.small.trans (pow_le_pow_right₀ (by norm_num) (by norm_num)))
    refine ⟨_, rfl, ?_⟩
    unfold sign
    split
    · exact rel R (by rw [abs_of_pos (by positivity)]) hX
    · exact rel R (by rw [neg_div, abs_neg, abs_of_pos (by positivity)]) hX
  rw [hsc]
  have h1 : |s * sc - sign a b * s / r| ≤ 3 * A / 2 ^ 52 := by
    rw [show s * sc - sign a b * s / r = s * (sc - sign a b / r) by ring, abs_mul]
    calc |s| * |sc - sign a b / r| ≤ (3 * A * r) * ((1 / r) / 2 ^ 52) := by gcongr
      _ = 3 * A / 2 ^ 52 := by field_simp
  have h2 : |sign a b * s / r| ≤ 3 * A := by
    rw [abs_div, abs_mul, sign_abs, one_mul, abs_of_pos hr, div_le_iff₀ hr]
    exact hs
  have hX : (1 : ℝ) / 2 ^ 200 ≤ A := le_trans (by norm_num) h.one
  have h3 : |s * sc| ≤ 4 * A := (abs_of_near h1 h2).trans (by linarith [show 3 * A / 2 ^ 52 ≤ A by rw [div_le_iff₀ (by norm_num)]; linarith])
  have h4 := rel R h3 (by linarith)
  have h5 := abs3 h4 h1
  have h6 : |fl (s * sc) + a - (a + sign a b * s / r)| ≤ 4 * A / 2 ^ 52 + 3 * A / 2 ^ 52 := by
    rwa [show fl (s * sc) + a - (a + sign a b * s / r) = fl (s * sc) - sign a b * s / r by ring]
  have h7 : |fl (s * sc) + a| ≤ 5 * A := by
    have := abs_of_near h5 h2
    have h8 := abs_add_le (fl (s * sc)) a
    have := h.start
    have : 4 * A / 2 ^ 52 + 3 * A / 2 ^ 52 ≤ A := by
      rw [← add_div, div_le_iff₀ (by norm_num)]; linarith
    linarith
  have h8 := rel R h7 (by linarith)
  exact (abs3 h8 h6).trans (by ring_nf; rfl)

variable {fl sn cs : ℝ → ℝ}

/-- The computed sine or cosine. -/
theorem trig_near {f g : ℝ → ℝ} (hf : ∀ x, |g x - f x| ≤ 1 / 2 ^ 52) (hl : ∀ x y, |f x - f y| ≤ |x - y|) {x y A : ℝ}
    (hA : 1 ≤ A) (h : |x - y| ≤ 12 * A / 2 ^ 52) : |g x - f y| ≤ 13 * A / 2 ^ 52 := by
  have := abs3 (hf x) ((hl x y).trans h)
  refine this.trans ?_
  rw [← add_div]
  gcongr
  linarith

/-- The computed point. -/
theorem arc_coord (R : FloatRounding fl) {r a b A : ℝ} (h : ArcFits r a b A) {f g : ℝ → ℝ}
    (hf : ∀ x, |g x - f x| ≤ 1 / 2 ^ 52) (h1 : ∀ x, |f x| ≤ 1) {x y : ℝ} (hg : |g x - f y| ≤ 13 * A / 2 ^ 52) :
    |fl (fl (g x * r) + fl (-g a * r)) - r * (f y - f a)| ≤ 22 * A * r / 2 ^ 52 := by
  have hr : 0 < r := lt_of_lt_of_le (by norm_num) h.big
  have hA : 0 < A := lt_of_lt_of_le one_pos h.one
  have hX : (1 : ℝ) / 2 ^ 200 ≤ r := le_trans (by norm_num) h.big
  have hA' : 13 * A / 2 ^ 52 ≤ 1 / 1000 := by
    rw [div_le_iff₀ (by norm_num)]
    linarith [h.huge]
  have a1 : |g x * r - f y * r| ≤ 13 * A / 2 ^ 52 * r := by
    rw [← sub_mul, abs_mul, abs_of_pos hr]
    gcongr
  have a2 : |f y * r| ≤ 1 * r := by
    rw [abs_mul, abs_of_pos hr]
    gcongr
    exact h1 y
  have a3 : |g x * r| ≤ 2 * r := (abs_of_near a1 a2).trans (by nlinarith)
  have a4 := abs3 (rel R a3 (by linarith)) a1
  have b1 : |-g a * r - -f a * r| ≤ 1 / 2 ^ 52 * r := by
    rw [← sub_mul, abs_mul, abs_of_pos hr]
    gcongr
    rw [neg_sub_neg, abs_sub_comm]
    exact hf a
  have b2 : |-f a * r| ≤ 1 * r := by
    rw [abs_mul, abs_of_pos hr, abs_neg]
    gcongr
    exact h1 a
  have b3 : |-g a * r| ≤ 2 * r := (abs_of_near b1 b2).trans (by nlinarith)
  have b4 := abs3 (rel R b3 (by linarith)) b1
  have c1 : |fl (g x * r) + fl (-g a * r) - r * (f y - f a)| ≤
      (2 * r / 2 ^ 52 + 13 * A / 2 ^ 52 * r) + (2 * r / 2 ^ 52 + 1 / 2 ^ 52 * r) := by
    rw [show fl (g x * r) + fl (-g a * r) - r * (f y - f a) = (fl (g x * r) - f y * r) + (fl (-g a * r) - -f a * r) by ring]
    exact (abs_add_le _ _).trans (add_le_add a4 b4)
  have c2 : |r * (f y - f a)| ≤ 2 * r := by
    rw [show r * (f y - f a) = f y * r + -f a * r by ring]
    exact (abs_add_le _ _).trans (by linarith)
  have c3 : (2 * r / 2 ^ 52 + 13 * A / 2 ^ 52 * r) + (2 * r / 2 ^ 52 + 1 / 2 ^ 52 * r) ≤ 18 * (A * r) / 2 ^ 52 := by
    have : r ≤ A * r := le_mul_of_one_le_left hr.le h.one
    linarith
  have c4 : 18 * (A * r) / 2 ^ 52 ≤ r := by nlinarith
  have c5 : |fl (g x * r) + fl (-g a * r)| ≤ 4 * r := (abs_of_near (c1.trans c3) c2).trans (by linarith)
  have c6 := abs3 (rel R c5 (by linarith)) (c1.trans c3)
  refine c6.trans ?_
  have : r ≤ A * r := le_mul_of_one_le_left hr.le h.one
  linarith

theorem arc_len (R : FloatRounding fl) {r a b A : ℝ} (h : ArcFits r a b A) :
    abs (fl (r * |fl (b - a)|) - r * |b - a|) ≤ 5 * A * r / 2 ^ 52 := by
  have hr : 0 < r := lt_of_lt_of_le (by norm_num) h.big
  have hA : 0 < A := lt_of_lt_of_le one_pos h.one
  have hX : (1 : ℝ) / 2 ^ 200 ≤ r := le_trans (by norm_num) h.big
  have hX' : (1 : ℝ) / 2 ^ 200 ≤ A := le_trans (by norm_num) h.one
  have a0 : |b - a| ≤ 2 * A := by
    obtain ⟨a1, a2⟩ := abs_le.1 h.start
    obtain ⟨b1, b2⟩ := abs_le.1 h.stop
    rw [abs_le]; constructor <;> linarith
  have a1 := rel R a0 (by linarith)
  have a2 : abs (r * |fl (b - a)| - r * |b - a|) ≤ r * (2 * A / 2 ^ 52) := by
    rw [← mul_sub, abs_mul, abs_of_pos hr]
    gcongr
    exact (abs_abs_sub_abs_le_abs_sub _ _).trans a1
  have a3 : abs (r * |b - a|) ≤ r * (2 * A) := by
    rw [abs_mul, abs_of_pos hr, abs_abs]
    gcongr
  have hAr : r ≤ A * r := le_mul_of_one_le_left hr.le h.one
  have a4 : abs (r * |fl (b - a)|) ≤ 3 * (A * r) := (abs_of_near a2 a3).trans (by nlinarith)
  exact (abs3 (rel R a4 (by linarith)) a2).trans (by linarith)

/-- The values of a computed arc. -/
theorem arc_values (R : FloatRounding fl) (T : FloatTrig sn cs) {r a b A s : ℝ} (h : ArcFits r a b A) (hs : |s| ≤ 3 * A * r)
    (i : Axis) :
    |coord (circleValue fl sn cs (circleNew fl sn cs r a b) s).1 i - coord ((arcShape r a b).pt s) i| ≤ 22 * A * r / 2 ^ 52 ∧
    |coord (circleValue fl sn cs (circleNew fl sn cs r a b) s).2 i - coord ((arcShape r a b).dir s) i| ≤ 13 * A / 2 ^ 52 := by
  have ha := angle_near R h hs
  have hsn := trig_near T.sin abs_sin_sub h.one ha
  have hcs := trig_near T.cos abs_cos_sub h.one ha
  have hx := arc_coord R h T.cos Real.abs_cos_le_one hcs
  have hy := arc_coord R h T.sin Real.abs_sin_le_one hsn
  rw [arcShape_eq]
  cases i
  · refine ⟨hx, ?_⟩
    by_cases hab : a ≤ b
    · simp only [circleValue, circleNew, if_pos hab, coord, sign, one_mul] at hsn ⊢
      rwa [neg_sub_neg, abs_sub_comm]
    · simp only [circleValue, circleNew, if_neg hab, coord, sign] at hsn ⊢
      rwa [show ∀ x y : ℝ, x - -(-1 * y) = x - y by intros; ring]
  · refine ⟨hy, ?_⟩
    by_cases hab : a ≤ b
    · simp only [circleValue, circleNew, if_pos hab, coord, sign, one_mul] at hcs ⊢
      exact hcs
    · simp only [circleValue, circleNew, if_neg hab, coord, sign] at hcs ⊢
      rwa [show ∀ x y : ℝ, -x - (-1 * y) = -(x - y) by intros; ring, abs_neg]

theorem arc_start (R : FloatRounding fl) (odd : ∀ x, fl (-x) = -fl x) {r a b : ℝ} (ha : fl a = a) :
    (circleValue fl sn cs (circleNew fl sn cs r a b) 0).1 = ⟨0, 0⟩ := by
  have h0 : fl (fl (0 * (circleNew fl sn cs r a b).angleScale) + a) = a := by rw [zero_mul, R.zero, zero_add, ha]
  have hz : ∀ x, fl (fl (x * r) + fl (-x * r)) = 0 := by
    intro x
    rw [neg_mul, odd, add_neg_cancel, R.zero]
  show (⟨fl (fl (cs (fl (fl (0 * (circleNew fl sn cs r a b).angleScale) + a)) * r) + fl (-cs a * r)),
    fl (fl (sn (fl (fl (0 * (circleNew fl sn cs r a b).angleScale) + a)) * r) + fl (-sn a * r))⟩ : Vec) = _
  rw [h0, hz, hz]

theorem arc_near (R : FloatRounding fl) (odd : ∀ x, fl (-x) = -fl x) (T : FloatTrig sn cs) {r a b A D ε w : ℝ}
    (h : ArcFits r a b A) (ha : fl a = a) (hw : w ≤ r) (hD : 22 * A * r / 2 ^ 52 ≤ D) (hε : 13 * A / 2 ^ 52 ≤ ε) :
    Near (circleInfo fl sn cs (circleNew fl sn cs r a b)) (arcShape r a b) D ε w := by
  have hr : 0 < r := lt_of_lt_of_le (by norm_num) h.big
  have hA : 0 < A := lt_of_lt_of_le one_pos h.one
  have hAr : r ≤ A * r := le_mul_of_one_le_left hr.le h.one
  have hrange : ∀ s, -w ≤ s → s ≤ (arcShape r a b).len + w → |s| ≤ 3 * A * r := by
    intro s h1 h2
    have h2 : s ≤ r * |b - a| + w := h2
    have h3 : |b - a| ≤ 2 * A := by
      obtain ⟨a1, a2⟩ := abs_le.1 h.start
      obtain ⟨b1, b2⟩ := abs_le.1 h.stop
      rw [abs_le]; constructor <;> linarith
    have h4 := mul_le_mul_of_nonneg_left h3 hr.le
    rw [abs_le]; constructor <;> linarith
  refine ⟨(arc_len R h).trans (le_trans ?_ hD), arc_start R odd ha, fun s h1 h2 i => ?_, fun s h1 h2 i => ?_⟩
  · have : 0 < A * r := by positivity
    linarith
  · exact (arc_values R T h (hrange s h1 h2) i).1.trans (hD.trans (le_add_of_nonneg_right (le_max_left _ _)))
  · exact (arc_values R T h (hrange s h1 h2) i).2.trans hε

theorem coord_vadd (fl : ℝ → ℝ) (a b : Vec) (i : Axis) : coord (vadd fl a b) i = fl (coord a i + coord b i) := by cases i <;> rfl

/-- The computed end of an arc. -/
theorem arc_end (R : FloatRounding fl) (T : FloatTrig sn cs) {r a b A M : ℝ}
    (h : ArcFits r a b A) {pos : Vec} (hp : ∀ i, |coord pos i| ≤ M) (i : Axis) :
    |coord pos i + coord ((arcShape r a b).pt (arcShape r a b).len) i -
      coord (vadd fl pos (circleValue fl sn cs (circleNew fl sn cs r a b) (circleLength fl (circleNew fl sn cs r a b))).1) i| ≤
      (31 * A * r + M) / 2 ^ 52 := by
  have hr : 0 < r := lt_of_lt_of_le (by norm_num) h.big
  have hA : 0 < A := lt_of_lt_of_le one_pos h.one
  have hAr : r ≤ A * r := le_mul_of_one_le_left hr.le h.one
  have hM : 0 ≤ M := (abs_nonneg _).trans (hp .x)
  have hX : (1 : ℝ) / 2 ^ 200 ≤ r := le_trans (by norm_num) h.big
  have h0 : |b - a| ≤ 2 * A := by
    obtain ⟨a1, a2⟩ := abs_le.1 h.start
    obtain ⟨b1, b2⟩ := abs_le.1 h.stop
    rw [abs_le]; constructor <;> linarith
  have h0' := mul_le_mul_of_nonneg_left h0 hr.le
  have hl : |circleLength fl (circleNew fl sn cs r a b) - (arcShape r a b).len| ≤ 5 * A * r / 2 ^ 52 := arc_len R h
  have hl' : |(arcShape r a b).len| ≤ 2 * (A * r) := by
    show abs (r * |b - a|) ≤ _
    rw [abs_mul, abs_abs, abs_of_pos hr]
    linarith
  generalize circleLength fl (circleNew fl sn cs r a b) = l at hl ⊢
  have h5 : 5 * A * r / 2 ^ 52 ≤ A * r := by linarith
  have h1 := (arc_values R T h (s := l) (by have := abs_of_near hl hl'; linarith) i).1
  have h2 := abs3 h1 (((arc_smooth hr a b).lip i (arcShape r a b).len l).trans hl)
  rw [coord_vadd]
  have h3 : |coord ((arcShape r a b).pt (arcShape r a b).len) i| ≤ 2 * r := by
    rw [arcShape_eq]
    have two : ∀ x y : ℝ, |x| ≤ 1 → |y| ≤ 1 → |r * (x - y)| ≤ 2 * r := by
      intro x y hx hy
      rw [abs_mul, abs_of_pos hr, mul_comm]
      gcongr
      rw [abs_le] at *; constructor <;> linarith
    cases i
    · exact two _ _ (Real.abs_cos_le_one _) (Real.abs_cos_le_one _)
    · exact two _ _ (Real.abs_sin_le_one _) (Real.abs_sin_le_one _)
  have hA' : 22 * A * r / 2 ^ 52 + 5 * A * r / 2 ^ 52 ≤ r := by
    have : 27 * A / 2 ^ 52 ≤ 1 := by
      rw [div_le_iff₀ (by norm_num)]
      linarith [h.huge]
    nlinarith
  have h4 := (abs_of_near h2 h3).trans (add_le_add_left hA' _)
  have h6 : |coord pos i + coord (circleValue fl sn cs (circleNew fl sn cs r a b) l).1 i| ≤ M + 3 * r :=
    (abs_add_le _ _).trans (by linarith [hp i])
  have h7 := rel R h6 (by linarith)
  rw [abs_sub_comm]
  have h8 := add_sub_add_left_eq_sub (coord (circleValue fl sn cs (circleNew fl sn cs r a b) l).1 i)
    (coord ((arcShape r a b).pt (arcShape r a b).len) i) (coord pos i)
  rw [← h8] at h2
  refine (abs3 h7 h2).trans ?_
  linarith

end StepperPaths.Rounded.CurvePath
