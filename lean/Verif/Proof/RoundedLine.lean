import Verif.Proof.RoundedDraw
import Mathlib.Analysis.Complex.Norm

/-! Lines with rounding: how far the computed points are from the line. -/

namespace StepperPaths.Rounded
open Coords Curves Context IntegerCurve Spec Props Draw

theorem _root_.StepperPaths.Spec.FloatRounding.rel {fl : ℝ → ℝ} (R : FloatRounding fl) {x M : ℝ} (hx : |x| ≤ M)
    (hM : 1 / 2 ^ 200 ≤ M) : |fl x - x| ≤ M / 2 ^ 52 := by
  have h := R.near x
  have h1 : (2⁻¹ : ℝ) ^ 53 * |x| ≤ 2⁻¹ ^ 53 * M := by gcongr
  have h2 : (2⁻¹ : ℝ) ^ 1075 ≤ 2⁻¹ ^ 53 * 2⁻¹ ^ 200 := by
    rw [← pow_add]
    exact pow_le_pow_of_le_one (by norm_num) (by norm_num) (by norm_num)
  have h3 : (2⁻¹ : ℝ) ^ 53 * 2⁻¹ ^ 200 ≤ 2⁻¹ ^ 53 * M := by
    gcongr
    rw [inv_pow, ← one_div]
    exact hM
  have h4 : M / 2 ^ 52 = 2⁻¹ ^ 53 * M + 2⁻¹ ^ 53 * M := by ring
  rw [h4]
  exact h.trans (add_le_add h1 (h2.trans h3))

theorem le_length (d : Vec) (i : Axis) : |coord d i| ≤ d.length := by
  unfold Vec.length
  apply Real.abs_le_sqrt
  cases i
  · simp only [coord]; nlinarith [mul_self_nonneg d.y]
  · simp only [coord]; nlinarith [mul_self_nonneg d.x]

theorem length_le (d : Vec) : d.length ≤ |d.x| + |d.y| := by
  unfold Vec.length
  rw [Real.sqrt_le_left (by positivity)]
  have e1 := abs_mul_abs_self d.x
  have e2 := abs_mul_abs_self d.y
  have := mul_nonneg (abs_nonneg d.x) (abs_nonneg d.y)
  nlinarith

theorem length_near (a b : Vec) : |a.length - b.length| ≤ |a.x - b.x| + |a.y - b.y| := by
  have key : ∀ d : Vec, d.length = ‖(⟨d.x, d.y⟩ : ℂ)‖ := by
    intro d
    rw [Complex.norm_def, Complex.normSq_mk]
    rfl
  rw [key, key]
  refine (abs_norm_sub_norm_le _ _).trans ?_
  have := Complex.norm_le_abs_re_add_abs_im ((⟨a.x, a.y⟩ : ℂ) - ⟨b.x, b.y⟩)
  simpa using this

/-- The computed length of a vector. -/
theorem vlength_near {fl : ℝ → ℝ} (R : FloatRounding fl) {d : Vec} (h : 1 / 2 ^ 50 ≤ d.length) :
    |vlength fl d - d.length| ≤ 6 * d.length / 2 ^ 52 := by
  set N := d.length with hN
  have hN0 : 0 < N := lt_of_lt_of_le (by norm_num) h
  have hsq : N * N = d.x * d.x + d.y * d.y := by
    rw [hN]; unfold Vec.length
    exact Real.mul_self_sqrt (by nlinarith [mul_self_nonneg d.x, mul_self_nonneg d.y])
  have hlow : 1 / 2 ^ 200 ≤ N * N := by
    refine le_trans ?_ (mul_le_mul h h (by norm_num) hN0.le)
    norm_num
  have hx := mul_self_nonneg d.x
  have hy := mul_self_nonneg d.y
  have e1 := R.rel (x := d.x * d.x) (M := N * N) (by rw [abs_of_nonneg hx]; linarith) hlow
  have e2 := R.rel (x := d.y * d.y) (M := N * N) (by rw [abs_of_nonneg hy]; linarith) hlow
  obtain ⟨a1, a2⟩ := abs_le.1 e1
  obtain ⟨b1, b2⟩ := abs_le.1 e2
  have hNN : 0 < N * N := by positivity
  have e3 := R.rel (x := fl (d.x * d.x) + fl (d.y * d.y)) (M := 2 * (N * N))
    (by rw [abs_le]; constructor <;> linarith) (by linarith)
  obtain ⟨c1, c2⟩ := abs_le.1 e3
  set q := fl (fl (d.x * d.x) + fl (d.y * d.y)) with hq
  have hqN : |q - N * N| ≤ 4 * (N * N) / 2 ^ 52 := by rw [abs_le]; constructor <;> linarith
  have hq0 : 0 ≤ q := by
    have := (abs_le.1 hqN).1
    linarith
  have hs := Real.mul_self_sqrt hq0
  have hs0 := Real.sqrt_nonneg q
  have e4 : |√q - N| ≤ 4 * N / 2 ^ 52 := by
    have : |√q - N| * N ≤ 4 * N / 2 ^ 52 * N := by
      calc |√q - N| * N ≤ |√q - N| * (√q + N) := by
            apply mul_le_mul_of_nonneg_left _ (abs_nonneg _)
            linarith
        _ = |q - N * N| := by
            rw [← abs_of_nonneg (show 0 ≤ √q + N by linarith), ← abs_mul,
              show (√q - N) * (√q + N) = √q * √q - N * N by ring, hs]
        _ ≤ _ := by rw [show 4 * N / 2 ^ 52 * N = 4 * (N * N) / 2 ^ 52 by ring]; exact hqN
    exact le_of_mul_le_mul_right this hN0
  obtain ⟨f1, f2⟩ := abs_le.1 e4
  have e5 := R.rel (x := √q) (M := 2 * N) (by rw [abs_of_nonneg hs0]; linarith)
    (by refine le_trans ?_ (le_trans h (by linarith)); norm_num)
  obtain ⟨g1, g2⟩ := abs_le.1 e5
  have ev : vlength fl d = fl √q := rfl
  rw [ev, abs_le]
  constructor <;> linarith

/-- A line from `s` to `p`, as it is computed: the rounded difference, its length and direction. -/
theorem line_near {fl : ℝ → ℝ} (R : FloatRounding fl) {p s : Vec} (h : 1 / 2 ^ 40 ≤ (p - s).length) :
    |vlength fl (vsub fl p s) - (p - s).length| ≤ 9 * (p - s).length / 2 ^ 52 ∧
    ∀ i, |coord (vunit fl (vsub fl p s)) i - coord (p - s) i / (p - s).length| ≤ 13 / 2 ^ 52 := by
  set ℓ := (p - s).length with hℓ
  have hℓ0 : 0 < ℓ := lt_of_lt_of_le (by norm_num) h
  have hlow : (1 : ℝ) / 2 ^ 200 ≤ ℓ := le_trans (by norm_num) h
  have diff : ∀ i, |coord (vsub fl p s) i - coord (p - s) i| ≤ ℓ / 2 ^ 52 := by
    intro i
    have := R.rel (x := coord (p - s) i) (M := ℓ) (le_length _ i) hlow
    cases i <;> exact this
  have hN : |(vsub fl p s).length - ℓ| ≤ 2 * ℓ / 2 ^ 52 := by
    have h1 := length_near (vsub fl p s) (p - s)
    have h2 := diff .x
    have h3 := diff .y
    simp only [coord] at h2 h3
    refine h1.trans ?_
    linarith
  obtain ⟨n1, n2⟩ := abs_le.1 hN
  have hL := vlength_near R (d := vsub fl p s) (by
    refine le_trans ?_ (show ℓ / 2 ≤ _ by linarith)
    refine le_trans ?_ (div_le_div_of_nonneg_right h (by norm_num : (0 : ℝ) ≤ 2))
    norm_num)
  have hL' : |vlength fl (vsub fl p s) - ℓ| ≤ 9 * ℓ / 2 ^ 52 := by
    obtain ⟨l1, l2⟩ := abs_le.1 hL
    rw [abs_le]
    constructor <;> linarith
  refine ⟨hL', fun i => ?_⟩
  obtain ⟨l1, l2⟩ := abs_le.1 hL'
  set L := vlength fl (vsub fl p s) with hLdef
  have hL0 : 0 < L := by linarith
  have eu : coord (vunit fl (vsub fl p s)) i = fl (coord (vsub fl p s) i / L) := by cases i <;> rfl
  have hd := diff i
  have hD := le_length (p - s) i
  rw [← hℓ] at hD
  set d := coord (vsub fl p s) i with hdd
  set D := coord (p - s) i with hDD
  have q : |d / L - D / ℓ| ≤ 11 / 2 ^ 52 := by
    have e1 : d / L - D / ℓ = ((d - D) * ℓ - D * (L - ℓ)) / (L * ℓ) := by
      field_simp
      ring
    rw [e1, abs_div, abs_of_pos (a := L * ℓ) (by positivity), div_le_iff₀ (by positivity)]
    have e2 := abs_sub ((d - D) * ℓ) (D * (L - ℓ))
    rw [abs_mul, abs_mul, abs_of_pos hℓ0] at e2
    have e3 : |d - D| * ℓ ≤ ℓ / 2 ^ 52 * ℓ := mul_le_mul_of_nonneg_right hd hℓ0.le
    have e4 : |D| * |L - ℓ| ≤ ℓ * (9 * ℓ / 2 ^ 52) := mul_le_mul hD hL' (abs_nonneg _) hℓ0.le
    have e5 : 11 / 2 ^ 52 * (L * ℓ) ≥ 11 / 2 ^ 52 * (10 / 11 * ℓ * ℓ) := by
      apply mul_le_mul_of_nonneg_left _ (by norm_num)
      apply mul_le_mul_of_nonneg_right _ hℓ0.le
      linarith
    have e6 : 11 / 2 ^ 52 * (10 / 11 * ℓ * ℓ) = ℓ / 2 ^ 52 * ℓ + ℓ * (9 * ℓ / 2 ^ 52) := by ring
    linarith
  have hDℓ : |D / ℓ| ≤ 1 := by
    rw [abs_div, abs_of_pos hℓ0, div_le_one hℓ0]
    exact hD
  obtain ⟨q1, q2⟩ := abs_le.1 q
  obtain ⟨r1, r2⟩ := abs_le.1 hDℓ
  have hf := R.rel (x := d / L) (M := 2) (by rw [abs_le]; constructor <;> linarith) (by norm_num)
  obtain ⟨f1, f2⟩ := abs_le.1 hf
  rw [eu, abs_le]
  constructor <;> linarith

/-- The computed points of a line: from `s`, in the direction `u` (nearly `D/ℓ`), of the length `L`
(nearly `ℓ`), in `n` steps. -/
theorem point_near {fl : ℝ → ℝ} (R : FloatRounding fl) {L ℓ u D s g : ℝ} {k n : ℕ} (hk : k ≤ n) (hn0 : 0 < n)
    (hn : n ≤ 2 ^ 31) (h : 1 / 2 ^ 40 ≤ ℓ) (hD : |D| ≤ ℓ) (hL : |L - ℓ| ≤ 9 * ℓ / 2 ^ 52) (hu : |u - D / ℓ| ≤ 13 / 2 ^ 52)
    (hg : 0 < g) (hB : (ℓ + |s|) * g ≤ 2 ^ 31) (hB' : 1 / 2 ^ 150 ≤ g) :
    |fl (fl (fl (u * fl (k * fl (L / n))) + s) * g) - (s + D * (k / n)) * g| ≤ 1 / 2 ^ 15 := by
  have hℓ0 : 0 < ℓ := lt_of_lt_of_le (by norm_num) h
  have hn0' : (0 : ℝ) < n := by exact_mod_cast hn0
  have hnr : (n : ℝ) ≤ 2 ^ 31 := by exact_mod_cast hn
  have hkr : (k : ℝ) ≤ n := by exact_mod_cast hk
  have hk0 : (0 : ℝ) ≤ k := by positivity
  obtain ⟨l1, l2⟩ := abs_le.1 hL
  have hL0 : 0 < L := by linarith
  have frac0 : (0 : ℝ) ≤ k / n := by positivity
  have frac1 : (k : ℝ) / n ≤ 1 := (div_le_one hn0').2 hkr
  -- the length so far
  have e1 : |fl (L / n) - L / n| ≤ 2 * ℓ / n / 2 ^ 52 := by
    apply R.rel
    · rw [abs_of_pos (by positivity)]
      apply div_le_div_of_nonneg_right _ hn0'.le
      linarith
    · rw [le_div_iff₀ hn0']
      refine le_trans (mul_le_mul_of_nonneg_left hnr (by norm_num)) ?_
      refine le_trans ?_ (show 1 / 2 ^ 40 ≤ 2 * ℓ by linarith)
      norm_num
  have e2 : |k * fl (L / n) - ℓ * (k / n)| ≤ 11 * ℓ / 2 ^ 52 := by
    have q1 : |(k : ℝ) * (fl (L / n) - L / n)| ≤ 2 * ℓ / 2 ^ 52 := by
      rw [abs_mul, abs_of_nonneg hk0]
      refine (mul_le_mul hkr e1 (abs_nonneg _) hn0'.le).trans (le_of_eq ?_)
      field_simp
    have q2 : |(L - ℓ) * (k / n)| ≤ 9 * ℓ / 2 ^ 52 := by
      rw [abs_mul, abs_of_nonneg frac0]
      refine (mul_le_mul hL frac1 frac0 (by positivity)).trans (le_of_eq (by ring))
    have q3 : (k : ℝ) * fl (L / n) - ℓ * (k / n) = k * (fl (L / n) - L / n) + (L - ℓ) * (k / n) := by
      field_simp
      ring
    rw [q3]
    refine (abs_add_le _ _).trans ?_
    linarith
  have f0 : 0 ≤ ℓ * (k / n) := by positivity
  have f1 : ℓ * (k / n) ≤ ℓ := mul_le_of_le_one_right hℓ0.le frac1
  obtain ⟨a1, a2⟩ := abs_le.1 e2
  have e3 := R.rel (x := k * fl (L / n)) (M := 2 * ℓ) (by rw [abs_le]; constructor <;> linarith)
    (by refine le_trans ?_ (show 1 / 2 ^ 40 ≤ 2 * ℓ by linarith); norm_num)
  set P := fl (k * fl (L / n)) with hP
  obtain ⟨b1, b2⟩ := abs_le.1 e3
  have e4 : |P - ℓ * (k / n)| ≤ 13 * ℓ / 2 ^ 52 := by rw [abs_le]; constructor <;> linarith
  obtain ⟨c1, c2⟩ := abs_le.1 e4
  -- the vector so far
  have hDℓ : |D / ℓ| ≤ 1 := by
    rw [abs_div, abs_of_pos hℓ0, div_le_one hℓ0]
    exact hD
  have e5 : |u * P - D * (k / n)| ≤ 39 * ℓ / 2 ^ 52 := by
    have q1 : |(u - D / ℓ) * P| ≤ 26 * ℓ / 2 ^ 52 := by
      rw [abs_mul]
      refine (mul_le_mul hu (show |P| ≤ 2 * ℓ by rw [abs_le]; constructor <;> linarith) (abs_nonneg _)
        (by norm_num)).trans (le_of_eq (by ring))
    have q2 : |D / ℓ * (P - ℓ * (k / n))| ≤ 13 * ℓ / 2 ^ 52 := by
      rw [abs_mul]
      refine (mul_le_mul hDℓ e4 (abs_nonneg _) (by norm_num)).trans (le_of_eq (by ring))
    have q3 : u * P - D * (k / n) = (u - D / ℓ) * P + D / ℓ * (P - ℓ * (k / n)) := by
      field_simp
      ring
    rw [q3]
    refine (abs_add_le _ _).trans ?_
    linarith
  have hDk : |D * (k / n)| ≤ ℓ := by
    rw [abs_mul, abs_of_nonneg frac0]
    exact (mul_le_mul hD frac1 frac0 hℓ0.le).trans (by rw [mul_one])
  obtain ⟨d1, d2⟩ := abs_le.1 e5
  obtain ⟨d3, d4⟩ := abs_le.1 hDk
  have e6 := R.rel (x := u * P) (M := 2 * ℓ) (by rw [abs_le]; constructor <;> linarith)
    (by refine le_trans ?_ (show 1 / 2 ^ 40 ≤ 2 * ℓ by linarith); norm_num)
  obtain ⟨g1, g2⟩ := abs_le.1 e6
  set X := fl (u * P) with hX
  -- from the start
  set B := ℓ + |s| with hBdef
  have hBℓ : ℓ ≤ B := by have := abs_nonneg s; linarith
  have hsB : |s| ≤ B - ℓ := by linarith
  obtain ⟨s1, s2⟩ := abs_le.1 hsB
  have e7 := R.rel (x := X + s) (M := 2 * B) (by rw [abs_le]; constructor <;> linarith)
    (by refine le_trans ?_ (show 1 / 2 ^ 40 ≤ 2 * B by linarith); norm_num)
  obtain ⟨h1, h2⟩ := abs_le.1 e7
  set Y := fl (X + s) with hY
  have e8 : |Y - (s + D * (k / n))| ≤ 43 * B / 2 ^ 52 := by rw [abs_le]; constructor <;> linarith
  have hY2 : |Y| ≤ 2 * B := by
    obtain ⟨y1, y2⟩ := abs_le.1 e8
    rw [abs_le]; constructor <;> linarith
  have e9 := R.rel (x := Y * g) (M := 2 * (B * g)) (by
      rw [abs_mul, abs_of_pos hg]
      have := mul_le_mul_of_nonneg_right hY2 hg.le
      linarith)
    (by
      have : 1 / 2 ^ 40 * (1 / 2 ^ 150) ≤ B * g := mul_le_mul (h.trans hBℓ) hB' (by norm_num) (by linarith)
      refine le_trans ?_ (show 1 / 2 ^ 40 * (1 / 2 ^ 150) ≤ 2 * (B * g) by
        have : 0 ≤ B * g := by positivity
        linarith)
      norm_num)
  have e10 : |Y * g - (s + D * (k / n)) * g| ≤ 43 * (B * g) / 2 ^ 52 := by
    rw [← sub_mul, abs_mul, abs_of_pos hg]
    refine (mul_le_mul_of_nonneg_right e8 hg.le).trans (le_of_eq (by ring))
  obtain ⟨i1, i2⟩ := abs_le.1 e9
  obtain ⟨j1, j2⟩ := abs_le.1 e10
  have hfin : 45 * (B * g) / 2 ^ 52 ≤ 1 / 2 ^ 15 := by
    have : 45 * (B * g) / 2 ^ 52 ≤ 45 * 2 ^ 31 / 2 ^ 52 := by gcongr
    refine this.trans (by norm_num)
  rw [abs_le]
  constructor <;> linarith

/-- The computed speed on a line. -/
theorem speed_near {fl : ℝ → ℝ} (R : FloatRounding fl) {u w v g : ℝ} (hu : |u - w| ≤ 13 / 2 ^ 52) (hw : |w| ≤ 1)
    (hv : 1 / 2 ^ 80 ≤ v) (hg : 1 / 2 ^ 80 ≤ g) (hB : v * g ≤ 2 ^ 31) :
    |fl (fl (u * v) * fl (g / 2)) - w * v * g / 2| ≤ 1 / 2 ^ 16 := by
  have hv0 : 0 < v := lt_of_lt_of_le (by norm_num) hv
  have hg0 : 0 < g := lt_of_lt_of_le (by norm_num) hg
  have e1 : |u * v - w * v| ≤ 13 * v / 2 ^ 52 := by
    rw [← sub_mul, abs_mul, abs_of_pos hv0]
    exact (mul_le_mul_of_nonneg_right hu hv0.le).trans (le_of_eq (by ring))
  have hwv : |w * v| ≤ v := by
    rw [abs_mul, abs_of_pos hv0]
    exact (mul_le_mul_of_nonneg_right hw hv0.le).trans (by rw [one_mul])
  obtain ⟨a1, a2⟩ := abs_le.1 e1
  obtain ⟨b1, b2⟩ := abs_le.1 hwv
  have e2 := R.rel (x := u * v) (M := 2 * v) (by rw [abs_le]; constructor <;> linarith)
    (by refine le_trans ?_ (show 1 / 2 ^ 80 ≤ 2 * v by linarith); norm_num)
  obtain ⟨c1, c2⟩ := abs_le.1 e2
  set W := fl (u * v) with hW
  have e3 : |W - w * v| ≤ 15 * v / 2 ^ 52 := by rw [abs_le]; constructor <;> linarith
  have e4 := R.rel (x := g / 2) (M := g) (by rw [abs_of_pos (by positivity)]; linarith)
    (by refine le_trans ?_ hg; norm_num)
  obtain ⟨d1, d2⟩ := abs_le.1 e4
  set G := fl (g / 2) with hG
  have hGg : |G| ≤ g := by rw [abs_le]; constructor <;> linarith
  have e5 : |W * G - w * v * g / 2| ≤ 16 * (v * g) / 2 ^ 52 := by
    have q1 : |(W - w * v) * G| ≤ 15 * (v * g) / 2 ^ 52 := by
      rw [abs_mul]
      exact (mul_le_mul e3 hGg (abs_nonneg _) (by positivity)).trans (le_of_eq (by ring))
    have q2 : |w * v * (G - g / 2)| ≤ v * g / 2 ^ 52 := by
      rw [abs_mul]
      exact (mul_le_mul hwv e4 (abs_nonneg _) hv0.le).trans (le_of_eq (by ring))
    rw [show W * G - w * v * g / 2 = (W - w * v) * G + w * v * (G - g / 2) by ring]
    refine (abs_add_le _ _).trans ?_
    linarith
  have hWv : |W| ≤ 2 * v := by
    obtain ⟨x1, x2⟩ := abs_le.1 e3
    rw [abs_le]; constructor <;> linarith
  have e6 := R.rel (x := W * G) (M := 2 * (v * g)) (by
      rw [abs_mul]
      exact (mul_le_mul hWv hGg (abs_nonneg _) (by positivity)).trans (le_of_eq (by ring)))
    (by
      have : 1 / 2 ^ 80 * (1 / 2 ^ 80) ≤ v * g := mul_le_mul hv hg (by norm_num) hv0.le
      refine le_trans ?_ (show 1 / 2 ^ 80 * (1 / 2 ^ 80) ≤ 2 * (v * g) by
        have : 0 ≤ v * g := by positivity
        linarith)
      norm_num)
  obtain ⟨f1, f2⟩ := abs_le.1 e5
  obtain ⟨g1, g2⟩ := abs_le.1 e6
  have hfin : 18 * (v * g) / 2 ^ 52 ≤ 1 / 2 ^ 16 := by
    have : 18 * (v * g) / 2 ^ 52 ≤ 18 * 2 ^ 31 / 2 ^ 52 := by gcongr
    refine this.trans (by norm_num)
  rw [abs_le]
  constructor <;> linarith

/-- The computed number of ticks. -/
theorem count_near {fl : ℝ → ℝ} (R : FloatRounding fl) {L ℓ v : ℝ} (h : 0 < v) (h1 : v ≤ ℓ) (h2 : ℓ ≤ 2 ^ 30 * v)
    (hL : |L - ℓ| ≤ 9 * ℓ / 2 ^ 52) :
    |(Draw.round (fl (L / v)) : ℝ) - ℓ / v| ≤ 1 / 2 + 1 / 2 ^ 18 := by
  have q1 : 1 ≤ ℓ / v := (one_le_div h).2 h1
  have q2 : ℓ / v ≤ 2 ^ 30 := by rw [div_le_iff₀ h]; exact h2
  have e1 : |L / v - ℓ / v| ≤ 9 * (ℓ / v) / 2 ^ 52 := by
    rw [← sub_div, abs_div, abs_of_pos h, div_le_iff₀ h]
    refine hL.trans (le_of_eq ?_)
    field_simp
  obtain ⟨a1, a2⟩ := abs_le.1 e1
  have e2 := R.rel (x := L / v) (M := 2 * (ℓ / v)) (by rw [abs_le]; constructor <;> linarith)
    (le_trans (by norm_num) (show 1 ≤ 2 * (ℓ / v) by linarith))
  obtain ⟨b1, b2⟩ := abs_le.1 e2
  obtain ⟨c1, c2⟩ := abs_le.1 (round_near (fl (L / v)))
  have hfin : 11 * (ℓ / v) / 2 ^ 52 ≤ 1 / 2 ^ 18 := by
    have : 11 * (ℓ / v) / 2 ^ 52 ≤ 11 * 2 ^ 30 / 2 ^ 52 := by gcongr
    exact this.trans (by norm_num)
  rw [abs_le]
  constructor <;> linarith

end StepperPaths.Rounded
