import Verif.Proof.RoundedAngle

/-!
The image of a circle under different scales of the axes, `svg_path_parser.rs` 417-458, with rounding.
-/

namespace StepperPaths.Rounded.Acc
open Spec Coords Svg

variable {fl : ℝ → ℝ} {lib : Lib} {k l n m : ℕ}

/-- The sum of a number times about 1 and another number times about 0. -/
theorem mix_near (hf : FloatRounding fl) {K : ℕ} {u' u v' v c s : ℝ} (hu : App K 80 u' u u) (hv : App K 80 v' v v) (u0 : 0 < u)
    (hv1 : v ≤ 2 ^ 40 * u) (u1 : 1 / 2 ^ 80 ≤ u) (v1 : 1 / 2 ^ 80 ≤ v) (hc : |c - 1| ≤ 1 / 2 ^ 49) (hs : |s| ≤ 1 / 2 ^ 48) (hK : K ≤ 2 ^ 49) :
    App (K + 20) 80 (fl (fl (u' * fl (c * c)) + fl (v' * fl (s * s)))) u u := by
  have gl : ∀ {e : ℝ} (q : ℕ), e ≤ q / 2 ^ 52 → e ≤ g q := by
    intro e q he
    have h := one_add_mul_le_pow (show (-2 : ℝ) ≤ 1 / 2 ^ 52 by norm_num) q
    unfold g
    refine he.trans ?_
    rw [div_eq_mul_one_div]
    linarith
  have c1 : App 8 0 c 1 1 := ⟨by simp, by rw [mul_one]; exact hc.trans (gl 8 (by norm_num)), .inl (by simp)⟩
  have h1 := hu.mulr (c1.mulr c1 hf (by norm_num)) hf (by norm_num)
  simp only [mul_one] at h1
  have tiny : (2⁻¹ : ℝ) ^ 1075 ≤ 1 / 2 ^ 200 := by
    have h1 : (2⁻¹ : ℝ) ^ 1075 ≤ 2⁻¹ ^ 200 := pow_le_pow_of_le_one (by norm_num) (by norm_num) (by norm_num)
    have h2 : (2⁻¹ : ℝ) ^ 200 = 1 / 2 ^ 200 := by rw [inv_pow, one_div]
    rw [h2] at h1
    exact h1
  have bound : ∀ {x b : ℝ}, |x| ≤ b → |fl x| ≤ 3 / 2 * b + 1 / 2 ^ 200 := by
    intro x b hx
    have h3 := hf.near x
    generalize (2⁻¹ : ℝ) ^ 1075 = y at *
    have h4 := abs_add_le (fl x - x) x
    rw [sub_add_cancel] at h4
    have h5 : (2⁻¹ : ℝ) ^ 53 * |x| ≤ 1 / 2 * |x| := mul_le_mul_of_nonneg_right (by norm_num) (abs_nonneg _)
    linarith
  have s1 : |fl (s * s)| ≤ 1 / 2 ^ 95 := by
    refine (bound (b := 1 / 2 ^ 96) ?_).trans (by norm_num)
    rw [abs_mul]
    calc |s| * |s| ≤ 1 / 2 ^ 48 * (1 / 2 ^ 48) := by gcongr
      _ = _ := by norm_num
  have vb : |v'| ≤ 3 / 2 * v := by
    have h2 := hv.abs_le
    have h3 : g K ≤ 1 / 2 := g_half (by omega)
    have v0 : 0 ≤ v := hv.nonneg
    nlinarith
  have w1 : |fl (v' * fl (s * s))| ≤ 1 / 2 ^ 52 * u := by
    have : |v' * fl (s * s)| ≤ 1 / 2 ^ 54 * u := by
      rw [abs_mul]
      calc |v'| * |fl (s * s)| ≤ (3 / 2 * (2 ^ 40 * u)) * (1 / 2 ^ 95) := by
            gcongr
            exact vb.trans (by linarith)
        _ ≤ _ := by linarith
    refine (bound this).trans ?_
    have : (1 : ℝ) / 2 ^ 200 ≤ 1 / 2 ^ 120 * u := by
      calc (1 : ℝ) / 2 ^ 200 = 1 / 2 ^ 120 * (1 / 2 ^ 80) := by norm_num
        _ ≤ _ := by gcongr
    linarith
  have sum : App (K + 18 + 1) 80 (fl (u' * fl (c * c)) + fl (v' * fl (s * s))) u u := by
    refine ⟨h1.le, ?_, .inl u1⟩
    have h2 := h1.err
    have h3 := abs_add_le (fl (u' * fl (c * c)) - u) (fl (v' * fl (s * s)))
    rw [show fl (u' * fl (c * c)) - u + fl (v' * fl (s * s)) = fl (u' * fl (c * c)) + fl (v' * fl (s * s)) - u by ring] at h3
    have h4 : g 1 = 1 / 2 ^ 52 := by simp [g]
    have h5 : g (K + 18 + 1) * u = g (K + 18) * u + 1 / 2 ^ 52 * u + g (K + 18) * (1 / 2 ^ 52) * u := by
      rw [g_add (K + 18) 1, h4]; ring
    have h6 : 0 ≤ g (K + 18) * (1 / 2 ^ 52) * u := by
      have := g_nonneg (K + 18)
      positivity
    have h7 : g (K + (8 + 8 + 1) + 1) = g (K + 18) := rfl
    rw [h7] at h2
    linarith
  exact sum.rnd hf (by norm_num)

/-- The half axis that belongs to a number of the form. -/
theorem half_axis_near (hf : FloatRounding fl) {K : ℕ} {d' a : ℝ} (a0 : 0 < a) (a2 : 1 / 2 ^ 20 ≤ a)
    (hd : App K 80 d' (1 / a ^ 2) (1 / a ^ 2)) (hK : K ≤ 2 ^ 48) :
    App (2 * K + 2) 20 (fl √(fl (1 / d'))) a a := by
  have q0 : 0 < 1 / a ^ 2 := by positivity
  have q1 : 1 / a ^ 2 ≤ 2 ^ 40 := by
    rw [div_le_iff₀ (by positivity)]
    have : (1 / 2 ^ 20 : ℝ) ^ 2 ≤ a ^ 2 := by gcongr
    calc (1 : ℝ) = 2 ^ 40 * (1 / 2 ^ 20) ^ 2 := by norm_num
      _ ≤ _ := by gcongr
  have qa : |1 / a ^ 2| = 1 / a ^ 2 := abs_of_pos q0
  have h6 := ((show App _ _ d' (1 / a ^ 2) |1 / a ^ 2| by rw [qa]; exact hd).inv q0.ne' (g_half (by omega)) (m := 40)
    (by rw [qa]; exact q1)).rnd hf (by norm_num)
  rw [qa, one_div_one_div] at h6
  have hg : g (2 * K + 1) ≤ 1 / 2 := g_half (by omega)
  have h8 := h6.err
  have h7 := neg_abs_le (fl (1 / d') - a ^ 2)
  have m0 : 0 ≤ fl (1 / d') := by nlinarith [pow_pos a0 2]
  have h9 := sqrt_near a0 le_rfl h8 m0
  rw [Real.sqrt_sq a0.le] at h9
  have h10 : App (2 * K + 1) 20 √(fl (1 / d')) a a := by
    refine ⟨(abs_of_pos a0).le, h9.trans (le_of_eq ?_), .inl a2⟩
    field_simp
  exact h10.rnd hf (by norm_num)

/-- Sine and cosine of an angle close to 0 or to a right one. -/
theorem turn_near (hl : FloatLib lib) {t : ℝ} :
    (|t| ≤ 1 / 2 ^ 49 → |lib.cos t - 1| ≤ 1 / 2 ^ 49 ∧ |lib.sin t| ≤ 1 / 2 ^ 48) ∧
    (|t - Real.pi / 2| ≤ 1 / 2 ^ 49 → |lib.sin t - 1| ≤ 1 / 2 ^ 49 ∧ |lib.cos t| ≤ 1 / 2 ^ 48) ∧
    (|t + Real.pi / 2| ≤ 1 / 2 ^ 49 → |-lib.sin t - 1| ≤ 1 / 2 ^ 49 ∧ |lib.cos t| ≤ 1 / 2 ^ 48) := by
  have hs := hl.trig.sin t
  have hc := hl.trig.cos t
  have near : ∀ x : ℝ, |x| ≤ 1 / 2 ^ 49 → |Real.cos x - 1| ≤ 1 / 2 ^ 50 ∧ |Real.sin x| ≤ 1 / 2 ^ 49 := by
    intro x hx
    constructor
    · have h1 := Real.one_sub_sq_div_two_le_cos (x := x)
      have h2 := Real.cos_le_one x
      have h3 : x ^ 2 ≤ (1 / 2 ^ 49) ^ 2 := by rw [← sq_abs]; gcongr
      rw [abs_le]
      constructor
      · have : ((1 : ℝ) / 2 ^ 49) ^ 2 ≤ 1 / 2 ^ 50 := by norm_num
        linarith
      · linarith [show (0 : ℝ) ≤ 1 / 2 ^ 50 by norm_num]
    · exact Real.abs_sin_le_abs.trans hx
  have tri : ∀ {a b e f : ℝ}, |a - b| ≤ e → |b| ≤ f → |a| ≤ e + f := by
    intro a b e f h1 h2
    have := abs_add_le (a - b) b
    rw [sub_add_cancel] at this
    linarith
  have tri' : ∀ {a b e f : ℝ}, |a - b| ≤ e → |b - 1| ≤ f → |a - 1| ≤ e + f := by
    intro a b e f h1 h2
    have := abs_sub_le a b 1
    linarith
  have n1 : (1 : ℝ) / 2 ^ 52 + 1 / 2 ^ 50 ≤ 1 / 2 ^ 49 := by norm_num
  have n2 : (1 : ℝ) / 2 ^ 52 + 1 / 2 ^ 49 ≤ 1 / 2 ^ 48 := by norm_num
  refine ⟨fun h => ?_, fun h => ?_, fun h => ?_⟩
  · obtain ⟨a, b⟩ := near t h
    exact ⟨(tri' hc a).trans n1, (tri hs b).trans n2⟩
  · obtain ⟨a, b⟩ := near _ h
    rw [Real.cos_sub_pi_div_two] at a
    rw [Real.sin_sub_pi_div_two, abs_neg] at b
    exact ⟨(tri' hs a).trans n1, (tri hc b).trans n2⟩
  · obtain ⟨a, b⟩ := near _ h
    rw [Real.cos_add_pi_div_two] at a
    rw [Real.sin_add_pi_div_two] at b
    have hs' : |-lib.sin t - -Real.sin t| ≤ 1 / 2 ^ 52 := by
      rw [show -lib.sin t - -Real.sin t = -(lib.sin t - Real.sin t) by ring, abs_neg]; exact hs
    exact ⟨(tri' hs' a).trans n1, (tri hc b).trans n2⟩

theorem near_small (hf : FloatRounding fl) (x : ℝ) : |fl x - x| ≤ 1 / 2 ^ 53 * |x| + 1 / 2 ^ 100 := by
  have h1 : (2⁻¹ : ℝ) ^ 1075 ≤ 2⁻¹ ^ 100 := pow_le_pow_of_le_one (by norm_num) (by norm_num) (by norm_num)
  have h2 : (2⁻¹ : ℝ) ^ 100 = 1 / 2 ^ 100 := by rw [inv_pow, one_div]
  have h3 : (2⁻¹ : ℝ) ^ 53 = 1 / 2 ^ 53 := by rw [inv_pow, one_div]
  have h4 := hf.near x
  rw [h2] at h1
  rw [h3] at h4
  generalize (2⁻¹ : ℝ) ^ 1075 = y at *
  linarith

/-- The rotation of a form without mixed term: none or a right angle. -/
theorem rotation_near (hf : FloatRounding fl) (hl : FloatAngles lib) (x : ℝ) :
    |fl (lib.atan2 0 x / 2)| ≤ 1 / 2 ^ 49 ∨ |fl (lib.atan2 0 x / 2) - Real.pi / 2| ≤ 1 / 2 ^ 49 ∨
      |fl (lib.atan2 0 x / 2) + Real.pi / 2| ≤ 1 / 2 ^ 49 := by
  have p4 := Real.pi_lt_four
  have p0 := Real.pi_pos
  have key : ∀ {a b : ℝ}, |a - b| ≤ 1 / 2 ^ 50 → |b| ≤ 4 → |fl (a / 2) - b / 2| ≤ 1 / 2 ^ 49 := by
    intro a b h hb
    have h1 := near_small hf (a / 2)
    have h2 := abs_add_le (a - b) b
    rw [sub_add_cancel] at h2
    have h3 : |a / 2| ≤ 3 := by rw [abs_div, abs_two]; linarith [show (1 : ℝ) / 2 ^ 50 ≤ 1 by norm_num]
    have h4 : |a / 2 - b / 2| ≤ 1 / 2 ^ 51 := by
      rw [← sub_div, abs_div, abs_two]; linarith
    have h5 := abs_sub_le (fl (a / 2)) (a / 2) (b / 2)
    have h6 : (1 : ℝ) / 2 ^ 53 * |a / 2| ≤ 1 / 2 ^ 53 * 3 := by gcongr
    have h7 : (1 : ℝ) / 2 ^ 53 * 3 + 1 / 2 ^ 100 + 1 / 2 ^ 51 ≤ 1 / 2 ^ 49 := by norm_num
    linarith
  by_cases h0 : x = 0
  · left
    rw [h0, hl.zero, zero_div, fl_zero hf]
    norm_num
  rcases hl.near 0 x (by tauto) with h | ⟨-, -, h⟩
  · rcases lt_or_gt_of_ne h0 with hx | hx
    · right; left
      have : Vec.atan2 0 x = Real.pi := by
        unfold Vec.atan2
        exact Complex.arg_ofReal_of_neg hx
      rw [this] at h
      exact key h (by rw [abs_of_pos p0]; exact p4.le)
    · left
      have : Vec.atan2 0 x = 0 := by
        unfold Vec.atan2
        exact Complex.arg_ofReal_of_nonneg hx.le
      rw [this] at h
      have := key h (by simp)
      rwa [zero_div, sub_zero] at this
  · right; right
    have := key (a := lib.atan2 0 x) (b := -Real.pi) (by rwa [sub_neg_eq_add]) (by rw [abs_neg, abs_of_pos p0]; exact p4.le)
    rwa [neg_div, sub_neg_eq_add] at this

/-- The half axes of a form without mixed term, in one order or the other. -/
theorem axes_near (hf : FloatRounding fl) (hl : FloatLib lib) (ha : FloatAngles lib) {K : ℕ} {q1' q2' a b : ℝ} (a0 : 1 / 2 ^ 20 ≤ a) (a1 : a ≤ 2 ^ 30)
    (b0 : 1 / 2 ^ 20 ≤ b) (b1 : b ≤ 2 ^ 30) (hab : a ≤ 2 ^ 20 * b) (hba : b ≤ 2 ^ 20 * a)
    (h1 : App K 80 q1' (1 / a ^ 2) (1 / a ^ 2)) (h2 : App K 80 q2' (1 / b ^ 2) (1 / b ^ 2)) (hK : K ≤ 2 ^ 40) :
    ∃ R1 R2 rot, formAxesF fl lib ⟨q1', 0, 0, q2'⟩ = some (R1, R2, rot) ∧
    (App (2 * K + 42) 20 R1 a a ∧ App (2 * K + 42) 20 R2 b b ∨ App (2 * K + 42) 20 R1 b b ∧ App (2 * K + 42) 20 R2 a a) := by
  have z := fl_zero hf
  have hid := hf.idem
  have ap : 0 < a := lt_of_lt_of_le (by norm_num) a0
  have bp : 0 < b := lt_of_lt_of_le (by norm_num) b0
  have low : ∀ {x : ℝ}, 0 < x → x ≤ 2 ^ 30 → 1 / 2 ^ 80 ≤ 1 / x ^ 2 := by
    intro x h0 hx
    refine one_div_le_one_div_of_le (by positivity) ?_
    calc x ^ 2 ≤ (2 ^ 30) ^ 2 := by gcongr
      _ ≤ _ := by norm_num
  have comp : ∀ {x y : ℝ}, 0 < x → 0 < y → x ≤ 2 ^ 20 * y → 1 / y ^ 2 ≤ 2 ^ 40 * (1 / x ^ 2) := by
    intro x y hx hy hxy
    rw [mul_one_div, div_le_div_iff₀ (by positivity) (by positivity)]
    have : x ^ 2 ≤ (2 ^ 20 * y) ^ 2 := by gcongr
    linarith [show ((2 : ℝ) ^ 20 * y) ^ 2 = 2 ^ 40 * y ^ 2 by ring]
  have positive : ∀ {d u : ℝ}, 0 < u → App (K + 20) 80 d u u → 0 < d := by
    intro d u u0 hd
    have := hd.err
    have hg : g (K + 20) ≤ 1 / 2 := g_half (by omega)
    have h3 := neg_abs_le (d - u)
    nlinarith
  generalize ht : fl (lib.atan2 0 (fl (q2' - q1')) / 2) = t
  obtain ⟨t1, t2, t3⟩ := turn_near (t := t) hl
  have hr := rotation_near hf ha (fl (q2' - q1'))
  rw [ht] at hr
  have n1 : ∀ {c s : ℝ}, |c - 1| ≤ 1 / 2 ^ 49 → |s| ≤ 1 / 2 ^ 48 →
      App (K + 20) 80 (fl (fl (q1' * fl (c * c)) + fl (q2' * fl (s * s)))) (1 / a ^ 2) (1 / a ^ 2) := fun hc hs =>
    mix_near hf h1 h2 (by positivity) (comp ap bp hab) (low ap a1) (low bp b1) hc hs (by omega)
  have n2 : ∀ {c s : ℝ}, |c - 1| ≤ 1 / 2 ^ 49 → |s| ≤ 1 / 2 ^ 48 →
      App (K + 20) 80 (fl (fl (q1' * fl (s * s)) + fl (q2' * fl (c * c)))) (1 / b ^ 2) (1 / b ^ 2) := fun hc hs => by
    rw [add_comm (fl (q1' * _))]
    exact mix_near hf h2 h1 (by positivity) (comp bp ap hba) (low bp b1) (low ap a1) hc hs (by omega)
  have pa : 0 < 1 / a ^ 2 := by positivity
  have pb : 0 < 1 / b ^ 2 := by positivity
  have ok : ∀ {d d' : ℝ}, fl (fl (q1' * fl (lib.cos t * lib.cos t)) + fl (q2' * fl (lib.sin t * lib.sin t))) = d →
      fl (fl (q1' * fl (lib.sin t * lib.sin t)) + fl (q2' * fl (lib.cos t * lib.cos t))) = d' → 0 < d → 0 < d' →
      formAxesF fl lib ⟨q1', 0, 0, q2'⟩ = some (fl √(fl (1 / d)), fl √(fl (1 / d')), t) := by
    intro d d' e1 e2 h1 h2
    simp only [formAxesF, neg_zero, zero_mul, mul_zero, z, add_zero, sub_zero, hid, ht, e1, e2, if_neg (not_le.2 h1), if_neg (not_le.2 h2)]
  rcases hr with hr | hr | hr
  · obtain ⟨c, s⟩ := t1 hr
    exact ⟨_, _, _, ok rfl rfl (positive pa (n1 c s)) (positive pb (n2 c s)), .inl ⟨half_axis_near hf ap a0 (n1 c s) (by omega),
      half_axis_near hf bp b0 (n2 c s) (by omega)⟩⟩
  · obtain ⟨c, s⟩ := t2 hr
    exact ⟨_, _, _, ok rfl rfl (positive pb (n2 c s)) (positive pa (n1 c s)), .inr ⟨half_axis_near hf bp b0 (n2 c s) (by omega),
      half_axis_near hf ap a0 (n1 c s) (by omega)⟩⟩
  · obtain ⟨c, s⟩ := t3 hr
    have k1 := n1 c s
    have k2 := n2 c s
    rw [neg_mul_neg] at k1 k2
    exact ⟨_, _, _, ok rfl rfl (positive pb k2) (positive pa k1), .inr ⟨half_axis_near hf bp b0 k2 (by omega),
      half_axis_near hf ap a0 k1 (by omega)⟩⟩

/-- The form of a circle; the rotation does not matter. -/
theorem form_near (hf : FloatRounding fl) (hl : FloatLib lib) {r' r : ℝ} (hr : App k 10 r' r r) (r0 : 1 / 2 ^ 10 ≤ r) (r1 : r ≤ 2 ^ 20)
    (hk : k ≤ 2 ^ 30) (rot : ℝ) : ∃ A, ellipseFormF fl lib r' r' rot = ⟨A, 0, 0, A⟩ ∧
      App (8 * k + 16) 40 A (1 / (r * r)) (1 / (r * r)) := by
  have rp : 0 < r := lt_of_lt_of_le (by positivity) r0
  have z := fl_zero hf
  have h1 := hr.mulr hr hf (by norm_num)
  have rr : |r * r| = r * r := abs_of_pos (by positivity)
  have h1' : App (k + k + 1) (10 + 10) (fl (r' * r')) (r * r) |r * r| := by rw [rr]; exact h1
  have h2 := h1'.inv (by positivity) (g_half (by omega)) (m := 40) (by rw [rr]; nlinarith)
  rw [rr] at h2
  have g1 : g 1 = 1 / 2 ^ 52 := by simp [g]
  have trig : ∀ {y x : ℝ}, |y - x| ≤ 1 / 2 ^ 52 → |x| ≤ 1 → App (2 * (k + k + 1) + 4) 40 (fl (fl (y * y) / fl (r' * r'))) (x * x * (1 / (r * r))) (1 / (r * r)) := by
    intro y x h h'
    have a : App 1 0 y x 1 := ⟨h', by rw [g1, mul_one]; exact h, .inl (by norm_num)⟩
    have b := ((a.mulr a hf (by norm_num)).mulr h2 hf (by norm_num)).mono (l := 2 * (k + k + 1) + 4) (m := 40) (by omega) (by norm_num)
    simpa only [mul_one, one_mul, mul_one_div] using b
  have hs := trig (hl.trig.sin rot) (Real.abs_sin_le_one rot)
  have hc := trig (hl.trig.cos rot) (Real.abs_cos_le_one rot)
  refine ⟨fl (fl (fl (lib.cos rot * lib.cos rot) / fl (r' * r')) + fl (fl (lib.sin rot * lib.sin rot) / fl (r' * r'))), ?_, ?_⟩
  · simp only [ellipseFormF, sub_self, z, zero_mul]
    rw [add_comm (fl (fl (lib.sin rot * lib.sin rot) / fl (r' * r')))]
  · have h3 := hc.add hs
    have low : (1 : ℝ) / 2 ^ 40 ≤ 1 / (r * r) := one_div_le_one_div_of_le (by positivity) (by nlinarith)
    have p0 : 0 < 1 / (r * r) := by positivity
    rw [show Real.cos rot * Real.cos rot * (1 / (r * r)) + Real.sin rot * Real.sin rot * (1 / (r * r)) = 1 / (r * r) by
      rw [← add_mul, ← pow_two, ← pow_two, add_comm, Real.sin_sq_add_cos_sq, one_mul]] at h3
    have h4 : App ((2 * (k + k + 1) + 4) * 2) 40 (fl (fl (lib.cos rot * lib.cos rot) / fl (r' * r')) + fl (fl (lib.sin rot * lib.sin rot) / fl (r' * r')))
        (1 / (r * r)) (1 / (r * r)) := by
      refine ⟨(abs_of_pos p0).le, h3.err.trans ?_, .inl low⟩
      have := g_mul (2 * (k + k + 1) + 4) 2
      push_cast at this
      calc g (2 * (k + k + 1) + 4) * (1 / (r * r) + 1 / (r * r)) = 2 * g (2 * (k + k + 1) + 4) * (1 / (r * r)) := by ring
        _ ≤ _ := by gcongr
    exact (h4.rnd hf (by norm_num)).mono (by omega) le_rfl

/-- The image of a circle under different scales of the axes: its half axes are close to the true ones. -/
theorem stretched_near (hf : FloatRounding fl) (hl : FloatLib lib) (ha : FloatAngles lib) {r' r sx' sx sy' sy : ℝ} (hr : App k 10 r' r r)
    (hx : App l 10 sx' sx sx) (hy : App l 10 sy' sy sy) (r0 : 1 / 2 ^ 10 ≤ r) (r1 : r ≤ 2 ^ 20) (x0 : 1 / 2 ^ 10 ≤ sx) (x1 : sx ≤ 2 ^ 10)
    (y0 : 1 / 2 ^ 10 ≤ sy) (y1 : sy ≤ 2 ^ 10) (hk : k ≤ 2 ^ 30) (hl' : l ≤ 2 ^ 30) (rot : ℝ) :
    ∃ R1 R2 rot', transformEllipseF fl lib r' r' rot ⟨sx', 0, 0, sy'⟩ = some (R1, R2, rot') ∧
    (App (16 * k + 20 * l + 116) 20 R1 (r * sx) (r * sx) ∧ App (16 * k + 20 * l + 116) 20 R2 (r * sy) (r * sy) ∨
    App (16 * k + 20 * l + 116) 20 R1 (r * sy) (r * sy) ∧ App (16 * k + 20 * l + 116) 20 R2 (r * sx) (r * sx)) := by
  have rp : 0 < r := lt_of_lt_of_le (by positivity) r0
  have xp : 0 < sx := lt_of_lt_of_le (by positivity) x0
  have yp : 0 < sy := lt_of_lt_of_le (by positivity) y0
  have z := fl_zero hf
  have hid := hf.idem
  obtain ⟨A, form, h2⟩ := form_near hf hl hr r0 r1 hk rot
  -- the inverse
  have h3 := hx.mulr hy hf (by norm_num)
  have ss : |sx * sy| = sx * sy := abs_of_pos (by positivity)
  have h3' : App (l + l + 1) (10 + 10) (fl (sx' * sy')) (sx * sy) |sx * sy| := by rw [ss]; exact h3
  have s20 : sx * sy ≤ 2 ^ 20 := by
    calc sx * sy ≤ 2 ^ 10 * 2 ^ 10 := by gcongr
      _ = _ := by norm_num
  have h4 := h3'.inv (by positivity) (g_half (by omega)) (m := 20) (by rw [ss]; exact s20)
  have h5 := hy.mulr h4 hf (by norm_num)
  have h6 := hx.mulr h4 hf (by norm_num)
  rw [ss, mul_one_div] at h5 h6
  have hd0 : fl (sx' * sy') ≠ 0 := by
    intro h0
    have := h3.err
    rw [h0, zero_sub, abs_neg, ss] at this
    have g1 : g (l + l + 1) ≤ 1 / 2 := g_half (by omega)
    nlinarith [mul_pos xp yp]
  unfold transformEllipseF invert2x2F
  simp only [mul_zero, z, sub_zero, hid, neg_zero, zero_div, form, if_neg hd0]
  obtain ⟨i, hi⟩ : ∃ i, i = fl (sy' / fl (sx' * sy')) := ⟨_, rfl⟩
  obtain ⟨j, hj⟩ : ∃ j, j = fl (sx' / fl (sx' * sy')) := ⟨_, rfl⟩
  rw [← hi, show sy * (1 / (sx * sy)) = 1 / sx by field_simp] at h5
  rw [← hj, show sx * (1 / (sx * sy)) = 1 / sy by field_simp] at h6
  -- the product
  have h7 := (h5.mulr h2 hf (by norm_num)).mulr h5 hf (by norm_num)
  have h8 := (h6.mulr h2 hf (by norm_num)).mulr h6 hf (by norm_num)
  obtain ⟨P, hP⟩ : ∃ P, P = fl (fl (i * A) * i) := ⟨_, rfl⟩
  obtain ⟨Q, hQ⟩ : ∃ Q, Q = fl (fl (j * A) * j) := ⟨_, rfl⟩
  rw [← hP, show 1 / sx * (1 / (r * r)) * (1 / sx) = 1 / (r * sx) ^ 2 by field_simp] at h7
  rw [← hQ, show 1 / sy * (1 / (r * r)) * (1 / sy) = 1 / (r * sy) ^ 2 by field_simp] at h8
  have mul : mul2x2F fl (mul2x2F fl (transpose2x2 ⟨i, 0, 0, j⟩) ⟨A, 0, 0, A⟩) ⟨i, 0, 0, j⟩ = ⟨P, 0, 0, Q⟩ := by
    simp only [mul2x2F, transpose2x2, mul_zero, zero_mul, z, add_zero, zero_add, hid]; rw [hP, hQ]
  simp only [Option.bind_some, ← hi, ← hj, mul]
  have low : ∀ {s : ℝ}, 1 / 2 ^ 10 ≤ s → 1 / 2 ^ 20 ≤ r * s := by
    intro s hs
    calc (1 : ℝ) / 2 ^ 20 = 1 / 2 ^ 10 * (1 / 2 ^ 10) := by norm_num
      _ ≤ _ := by gcongr
  have high : ∀ {s : ℝ}, 0 < s → s ≤ 2 ^ 10 → r * s ≤ 2 ^ 30 := by
    intro s h0 hs
    calc r * s ≤ 2 ^ 20 * 2 ^ 10 := by gcongr
      _ = _ := by norm_num
  have comp : ∀ {s t : ℝ}, s ≤ 2 ^ 10 → 1 / 2 ^ 10 ≤ t → r * s ≤ 2 ^ 20 * (r * t) := by
    intro s t hs ht
    rw [show (2 : ℝ) ^ 20 * (r * t) = r * (2 ^ 20 * t) by ring]
    gcongr
    linarith
  have flo : ∀ {s : ℝ}, 0 < s → s ≤ 2 ^ 10 → 1 / 2 ^ 80 ≤ 1 / (r * s) ^ 2 := by
    intro s h0 hs
    refine one_div_le_one_div_of_le (by positivity) ?_
    calc (r * s) ^ 2 ≤ (2 ^ 30) ^ 2 := by
          have := high h0 hs
          gcongr
      _ ≤ _ := by norm_num
  have e7 : App (10 * l + 8 * k + 36) 80 P (1 / (r * sx) ^ 2) (1 / (r * sx) ^ 2) := (h7.mono (by omega) le_rfl).floor' (flo xp x1)
  have e8 : App (10 * l + 8 * k + 36) 80 Q (1 / (r * sy) ^ 2) (1 / (r * sy) ^ 2) := (h8.mono (by omega) le_rfl).floor' (flo yp y1)
  obtain ⟨R1, R2, rot', h, this⟩ := axes_near hf hl ha (low x0) (high xp x1) (low y0) (high yp y1) (comp x1 y0) (comp y1 x0) e7 e8 (by omega)
  refine ⟨R1, R2, rot', h, ?_⟩
  refine this.imp (fun h => ⟨h.1.mono (by omega) le_rfl, h.2.mono (by omega) le_rfl⟩)
    fun h => ⟨h.1.mono (by omega) le_rfl, h.2.mono (by omega) le_rfl⟩

/-- The computed half axes are not equal, if the true ones are different enough. -/
theorem stretched_uneven (hf : FloatRounding fl) (hl : FloatLib lib) (ha : FloatAngles lib) {r' r sx' sx sy' sy : ℝ} (hr : App 1 10 r' r r)
    (hx : App (12 * l) 10 sx' sx sx) (hy : App (12 * l) 10 sy' sy sy) (r0 : 1 / 2 ^ 10 ≤ r) (r1 : r ≤ 2 ^ 20) (x0 : 1 / 2 ^ 10 ≤ sx) (x1 : sx ≤ 2 ^ 10)
    (y0 : 1 / 2 ^ 10 ≤ sy) (y1 : sy ≤ 2 ^ 10) (hl' : l ≤ 30) {R1 R2 rot rot' : ℝ}
    (h : transformEllipseF fl lib r' r' rot ⟨sx', 0, 0, sy'⟩ = some (R1, R2, rot'))
    (hd : 1 / 2 ^ 51 + (1000 * l + 1000) / 2 ^ 52 * (r * max sx sy) < r * |sx - sy|) : 1 / 4503599627370496 < |fl (R1 - R2)| := by
  have rp : 0 < r := lt_of_lt_of_le (by positivity) r0
  obtain ⟨S1, S2, rot1, e, key⟩ := stretched_near hf hl ha hr hx hy r0 r1 x0 x1 y0 y1 (by norm_num) (by omega) rot
  rw [h] at e
  simp only [Option.some.injEq, Prod.mk.injEq] at e
  obtain ⟨rfl, rfl, -⟩ := e
  obtain ⟨M, hM⟩ : ∃ M, M = 16 * 1 + 20 * (12 * l) + 116 := ⟨_, rfl⟩
  rw [← hM] at key
  have hg : g M ≤ (500 * l + 300) / 2 ^ 52 := by
    have h1 : (M : ℝ) = 240 * l + 132 := by rw [hM]; push_cast; ring
    have h2 : (l : ℝ) ≤ 30 := by exact_mod_cast hl'
    refine (g_le (by rw [h1]; linarith)).trans ?_
    rw [h1]
    have : (0 : ℝ) ≤ l := Nat.cast_nonneg l
    gcongr
    linarith
  obtain ⟨m, hm⟩ : ∃ m, m = r * max sx sy := ⟨_, rfl⟩
  have mx : r * sx ≤ m := by rw [hm]; gcongr; exact le_max_left _ _
  have my : r * sy ≤ m := by rw [hm]; gcongr; exact le_max_right _ _
  have m0 : 0 < m := lt_of_lt_of_le (mul_pos rp (lt_of_lt_of_le (by positivity) x0)) mx
  have g0 := g_nonneg M
  have ex : g M * (r * sx) ≤ (500 * l + 300) / 2 ^ 52 * m := mul_le_mul hg mx (by nlinarith) (by positivity)
  have ey : g M * (r * sy) ≤ (500 * l + 300) / 2 ^ 52 * m := mul_le_mul hg my (by nlinarith) (by positivity)
  rw [← hm] at hd
  have rd : r * |sx - sy| = |r * sx - r * sy| := by rw [← mul_sub, abs_mul, abs_of_pos rp]
  rw [rd] at hd
  have far : 1 / 2 ^ 51 < |R1 - R2| := by
    have tri : ∀ {p q a b : ℝ}, |p - a| ≤ (500 * l + 300) / 2 ^ 52 * m → |q - b| ≤ (500 * l + 300) / 2 ^ 52 * m →
        |a - b| ≤ |p - q| + 2 * ((500 * l + 300) / 2 ^ 52 * m) := by
      intro p q a b h1 h2
      have h3 := abs_sub_le a p b
      have h4 := abs_sub_le p q b
      rw [abs_sub_comm] at h1
      linarith
    have fin : 2 * ((500 * l + 300) / 2 ^ 52 * m) ≤ (1000 * l + 1000) / 2 ^ 52 * m := by
      rw [← mul_assoc]
      gcongr
      rw [← mul_div_assoc]
      gcongr
      linarith
    rcases key with ⟨k1, k2⟩ | ⟨k1, k2⟩
    · have := tri (k1.err.trans ex) (k2.err.trans ey)
      linarith
    · have := tri (k1.err.trans ey) (k2.err.trans ex)
      rw [abs_sub_comm] at hd
      linarith
  have h1 := near_small hf (R1 - R2)
  have h2 := abs_add_le (R1 - R2 - fl (R1 - R2)) (fl (R1 - R2))
  rw [sub_add_cancel, abs_sub_comm (R1 - R2)] at h2
  have h3 : (1 : ℝ) / 2 ^ 53 * |R1 - R2| ≤ 1 / 4 * |R1 - R2| := by gcongr; norm_num
  norm_num at far h1 h3 ⊢
  linarith

end StepperPaths.Rounded.Acc
