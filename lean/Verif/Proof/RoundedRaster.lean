import Verif.Model.RoundedRaster
import Verif.Spec.Rounded
import Verif.Proof.Config

/-! Relative errors of products and quotients, and the parameters of a scan with rounding. -/

namespace StepperPaths.Rounded
open Context Draw Config Control Program Raster Spec

/-- `b` is `a` up to a relative error of `k / 2^52`. -/
def Rel (k : ℕ) (b a : ℝ) : Prop := ∃ θ : ℝ, |θ| ≤ k / 2 ^ 52 ∧ b = a * (1 + θ)

namespace Rel

theorem refl (a : ℝ) : Rel 0 a a := ⟨0, by norm_num, by ring⟩

theorem mono {j k : ℕ} {b a : ℝ} (h : Rel j b a) (hk : j ≤ k) : Rel k b a := by
  obtain ⟨θ, h1, h2⟩ := h
  refine ⟨θ, h1.trans ?_, h2⟩
  have : (j : ℝ) ≤ k := by exact_mod_cast hk
  gcongr

theorem near {k : ℕ} {b a : ℝ} (h : Rel k b a) : |b - a| ≤ k / 2 ^ 52 * |a| := by
  obtain ⟨θ, h1, rfl⟩ := h
  have : a * (1 + θ) - a = θ * a := by ring
  rw [this, abs_mul]
  exact mul_le_mul_of_nonneg_right h1 (abs_nonneg a)

theorem fl {k : ℕ} {b a : ℝ} {fl : ℝ → ℝ} (R : FloatRounding fl) (h : Rel k b a) (hk : k ≤ 100) (ha : 1 / 2 ^ 150 ≤ |a|) :
    Rel (k + 2) (fl b) a := by
  obtain ⟨θ, h1, rfl⟩ := h
  have hk' : (k : ℝ) ≤ 100 := by exact_mod_cast hk
  have h1' : |θ| ≤ 100 / 2 ^ 52 := h1.trans (by gcongr)
  have ha0 : a ≠ 0 := by
    rintro rfl
    norm_num at ha
  have hb : 1 / 2 ^ 151 ≤ |a * (1 + θ)| := by
    rw [abs_mul]
    have : 1 / 2 ≤ |1 + θ| := by
      rw [abs_le] at h1'
      rw [abs_of_pos (by norm_num at h1' ⊢; linarith)]
      norm_num at h1' ⊢
      linarith
    have := mul_le_mul ha this (by norm_num) (abs_nonneg a)
    refine le_trans ?_ this
    norm_num
  have hn := R.near (a * (1 + θ))
  have e1 : (2⁻¹ : ℝ) ^ 1075 ≤ 2⁻¹ ^ 250 := pow_le_pow_of_le_one (by norm_num) (by norm_num) (by norm_num)
  have e2 : (2⁻¹ : ℝ) ^ 250 = 1 / 2 ^ 250 := by rw [inv_pow, one_div]
  have e3 : (2⁻¹ : ℝ) ^ 53 = 1 / 2 ^ 53 := by rw [inv_pow, one_div]
  rw [e2] at e1
  rw [e3] at hn
  generalize (2⁻¹ : ℝ) ^ 1075 = y at *
  have e4 : (1 : ℝ) / 2 ^ 250 ≤ 1 / 2 ^ 60 * (1 / 2 ^ 151) := by norm_num
  have e5 : (1 : ℝ) / 2 ^ 60 * (1 / 2 ^ 151) ≤ 1 / 2 ^ 60 * |a * (1 + θ)| := by gcongr
  have e6 : |fl (a * (1 + θ)) - a * (1 + θ)| ≤ (1 / 2 ^ 53 + 1 / 2 ^ 60) * |a * (1 + θ)| := by linarith
  have e7 : |1 + θ| ≤ 1 + 100 / 2 ^ 52 := by
    refine (abs_add_le _ _).trans ?_
    rw [abs_one]
    linarith
  have e8 : |fl (a * (1 + θ)) - a * (1 + θ)| ≤ 1 / 2 ^ 52 * |a| := by
    refine e6.trans ?_
    rw [abs_mul]
    have : (1 / 2 ^ 53 + 1 / 2 ^ 60) * (|a| * |1 + θ|) ≤ (1 / 2 ^ 53 + 1 / 2 ^ 60) * (|a| * (1 + 100 / 2 ^ 52)) := by gcongr
    refine this.trans ?_
    have h0 := abs_nonneg a
    norm_num
    linarith
  refine ⟨fl (a * (1 + θ)) / a - 1, ?_, by field_simp; ring⟩
  have : fl (a * (1 + θ)) / a - 1 = (fl (a * (1 + θ)) - a * (1 + θ)) / a + θ := by field_simp; ring
  rw [this]
  refine (abs_add_le _ _).trans ?_
  have h3 : |(fl (a * (1 + θ)) - a * (1 + θ)) / a| ≤ 1 / 2 ^ 52 := by
    rw [abs_div, div_le_iff₀ (abs_pos.2 ha0)]
    exact e8
  push_cast
  rw [add_div]
  have : (1 : ℝ) / 2 ^ 52 ≤ 2 / 2 ^ 52 := by norm_num
  linarith

theorem mul {j : ℕ} {b a : ℝ} (h : Rel j b a) (c : ℝ) : Rel j (b * c) (a * c) := by
  obtain ⟨θ, h1, rfl⟩ := h
  exact ⟨θ, h1, by ring⟩

theorem mul' {j : ℕ} {b a : ℝ} (h : Rel j b a) (c : ℝ) : Rel j (c * b) (c * a) := by
  obtain ⟨θ, h1, rfl⟩ := h
  exact ⟨θ, h1, by ring⟩

theorem div {j : ℕ} {b a : ℝ} (h : Rel j b a) (c : ℝ) : Rel j (b / c) (a / c) := by
  obtain ⟨θ, h1, rfl⟩ := h
  exact ⟨θ, h1, by ring⟩

theorem quot {j k : ℕ} {b a d c : ℝ} (h : Rel j b a) (h' : Rel k d c) (hj : j ≤ 100) (hk : k ≤ 100) :
    Rel (j + k + 1) (b / d) (a / c) := by
  obtain ⟨θ, h1, rfl⟩ := h
  obtain ⟨η, h2, rfl⟩ := h'
  have hj' : (j : ℝ) ≤ 100 := by exact_mod_cast hj
  have hk' : (k : ℝ) ≤ 100 := by exact_mod_cast hk
  have j0 : (0 : ℝ) ≤ j := by positivity
  have k0 : (0 : ℝ) ≤ k := by positivity
  have h2' : |η| ≤ 100 / 2 ^ 52 := h2.trans (by gcongr)
  have hp : 1 - 100 / 2 ^ 52 ≤ 1 + η := by
    rw [abs_le] at h2'
    linarith
  have hpos : 0 < 1 + η := lt_of_lt_of_le (by norm_num) hp
  refine ⟨(θ - η) / (1 + η), ?_, ?_⟩
  · rw [abs_div, abs_of_pos hpos, div_le_iff₀ hpos]
    have h3 : |θ - η| ≤ (j + k) / 2 ^ 52 := by
      refine (abs_sub θ η).trans ?_
      rw [add_div]
      linarith
    refine h3.trans ?_
    push_cast
    have : ((j : ℝ) + k + 1) / 2 ^ 52 * (1 - 100 / 2 ^ 52) ≤ (j + k + 1) / 2 ^ 52 * (1 + η) :=
      mul_le_mul_of_nonneg_left hp (by positivity)
    refine le_trans ?_ this
    norm_num
    linarith
  · by_cases hc : c = 0
    · subst hc
      simp
    · field_simp
      ring

end Rel

/-- The size of the picture. -/
theorem pictureSize_rel {fl : ℝ → ℝ} (R : FloatRounding fl) {width height : Option ℝ} {x y : ℕ} {w h : ℝ}
    (hx : 0 < x) (hy : 0 < y) (hw : 1 / 2 ^ 20 ≤ w) (hh : 1 / 2 ^ 20 ≤ h)
    (hs : pictureSize width height x y = (w, h)) :
    Rel 4 (pictureSizeF fl width height x y).1 w ∧ Rel 4 (pictureSizeF fl width height x y).2 h := by
  have hxr : (1 : ℝ) ≤ x := by exact_mod_cast hx
  have hyr : (1 : ℝ) ≤ y := by exact_mod_cast hy
  have small : ∀ {a : ℝ} {n : ℕ}, 1 / 2 ^ 20 ≤ a → (1 : ℝ) ≤ n → 1 / 2 ^ 150 ≤ |a * n| := by
    intro a n ha hn
    rw [abs_of_nonneg (mul_nonneg (le_trans (by norm_num) ha) (by linarith))]
    have := mul_le_mul ha hn (by norm_num) (le_trans (by norm_num) ha)
    refine le_trans ?_ this
    norm_num
  have key : ∀ {a : ℝ} {m n : ℕ}, 1 / 2 ^ 20 ≤ a → (1 : ℝ) ≤ n → 1 / 2 ^ 20 ≤ a * n / m →
      Rel 4 (fl (fl (a * n) / m)) (a * n / m) := by
    intro a m n ha hn hq
    have h1 := ((Rel.refl (a * n)).fl R (by norm_num) (small ha hn)).div (m : ℝ)
    refine h1.fl R (by norm_num) ?_
    rw [abs_of_nonneg (le_trans (by norm_num) hq)]
    refine le_trans ?_ hq
    norm_num
  unfold pictureSize at hs
  unfold pictureSizeF
  cases width <;> cases height <;> simp only [Prod.mk.injEq] at hs ⊢ <;> obtain ⟨rfl, rfl⟩ := hs
  · exact ⟨(Rel.refl _).mono (by norm_num), key (by norm_num) hyr hh⟩
  · exact ⟨key hh hxr hw, (Rel.refl _).mono (by norm_num)⟩
  · exact ⟨(Rel.refl _).mono (by norm_num), key hw hyr hh⟩
  · exact ⟨(Rel.refl _).mono (by norm_num), (Rel.refl _).mono (by norm_num)⟩

/-- A value rounded to an integer. -/
theorem satU32_near {q q' : ℝ} {k : ℕ} (h : Rel k q' q) (hk : k ≤ 32) (h0 : 0 ≤ q) (h1 : q + 1 ≤ 2 ^ 32) :
    |(satU32 (Draw.round q') : ℝ) - q| ≤ 1 / 2 + 1 / 2 ^ 14 := by
  have hn := h.near
  rw [abs_of_nonneg h0] at hn
  have hk' : (k : ℝ) ≤ 32 := by exact_mod_cast hk
  have hn' : |q' - q| ≤ 1 / 2 ^ 15 := by
    refine hn.trans ?_
    have : (k : ℝ) / 2 ^ 52 * q ≤ 32 / 2 ^ 52 * 2 ^ 32 := by
      have : q ≤ 2 ^ 32 := by linarith
      gcongr
    refine this.trans (by norm_num)
  have hr := round_near q'
  have h3 : |(Draw.round q' : ℝ) - q| ≤ 1 / 2 + 1 / 2 ^ 15 := by
    have := abs_sub_le (Draw.round q' : ℝ) q' q
    linarith
  have h4 := abs_le.1 h3
  have p0 : 0 ≤ Draw.round q' := by
    by_contra hc
    have : Draw.round q' ≤ -1 := by omega
    have : (Draw.round q' : ℝ) ≤ -1 := by exact_mod_cast this
    norm_num at h4
    linarith
  have p1 : Draw.round q' < 2 ^ 32 := by
    have : (Draw.round q' : ℝ) < 2 ^ 32 := by
      norm_num at h4 h1 ⊢
      linarith
    exact_mod_cast this
  have e : ((satU32 (Draw.round q') : ℕ) : ℝ) = (Draw.round q' : ℝ) := by exact_mod_cast satU32_eq p0 p1
  rw [e]
  refine h3.trans (by norm_num)

theorem big_mul {a b : ℝ} {m n : ℕ} (ha : 1 / 2 ^ m ≤ |a|) (hb : 1 / 2 ^ n ≤ |b|) : 1 / 2 ^ (m + n) ≤ |a * b| := by
  rw [abs_mul]
  have := mul_le_mul ha hb (by positivity) (abs_nonneg a)
  refine le_trans (le_of_eq ?_) this
  rw [pow_add]
  field_simp

theorem big_mono {a : ℝ} {m : ℕ} (n : ℕ) (ha : 1 / 2 ^ m ≤ |a|) (h : m ≤ n) : 1 / 2 ^ n ≤ |a| := by
  refine le_trans ?_ ha
  exact one_div_le_one_div_of_le (by positivity) (pow_le_pow_right₀ (by norm_num) h)

theorem big_pos {a : ℝ} {m : ℕ} (ha : 1 / 2 ^ m ≤ a) : 1 / 2 ^ m ≤ |a| := ha.trans (le_abs_self a)

theorem big_nat {n : ℕ} (h : 1 ≤ n) : 1 / 2 ^ 0 ≤ |(n : ℝ)| := by
  have : (1 : ℝ) ≤ n := by exact_mod_cast h
  rw [abs_of_nonneg (by linarith)]
  norm_num
  exact h

theorem big_div {a b : ℝ} {m n : ℕ} (ha : 1 / 2 ^ m ≤ |a|) (hb : |b| ≤ 2 ^ n) (hb0 : b ≠ 0) : 1 / 2 ^ (m + n) ≤ |a / b| := by
  rw [abs_div, le_div_iff₀ (abs_pos.2 hb0)]
  refine le_trans ?_ ha
  rw [div_mul_eq_mul_div, one_mul, div_le_div_iff₀ (by positivity) (by positivity), one_mul, pow_add, mul_comm]
  gcongr

/-- The width in half steps. -/
theorem widthF_rel {fl : ℝ → ℝ} (R : FloatRounding fl) {c : Xy} {r : Request} {w : ℝ} (h : Rel 4 r.width w)
    (hw : 1 / 2 ^ 20 ≤ w) (hs : 1 / 2 ^ 20 ≤ |(c.stepper .x).stepsPerMillimeter|) :
    Rel 6 (widthF fl c r) (w * (c.stepper .x).stepsPerMillimeter) :=
  (h.mul _).fl R (by norm_num) (big_mono 150 (big_mul (big_pos hw) hs) (by norm_num))

/-- The number of ticks of a pixel, before it is rounded. -/
theorem ticks_rel {fl : ℝ → ℝ} (R : FloatRounding fl) {c : Xy} {r : Request} {x : ℕ} {w : ℝ} (h : Rel 4 r.width w)
    (hw : 1 / 2 ^ 20 ≤ w) (hs : 1 / 2 ^ 20 ≤ |(c.stepper .x).stepsPerMillimeter|) (hv : 1 / 2 ^ 20 ≤ r.speed)
    (ht : 1 ≤ c.ticksPerSecond) (hx : 1 ≤ x) (hx' : x < 2 ^ 32) (hv' : r.speed ≤ 2 ^ 31) :
    Rel 16 (fl (fl (widthF fl c r * c.ticksPerSecond) / fl (x * fl (r.speed * (c.stepper .x).stepsPerMillimeter))))
      (w * c.ticksPerSecond / (x * r.speed)) := by
  set s := (c.stepper .x).stepsPerMillimeter with hsd
  have s0 : s ≠ 0 := by
    intro h0
    rw [h0] at hs
    norm_num at hs
  have v0 : 0 < r.speed := lt_of_lt_of_le (by norm_num) hv
  have x0 : (0 : ℝ) < x := by exact_mod_cast hx
  have h1 : Rel 8 (fl (widthF fl c r * c.ticksPerSecond)) (w * s * c.ticksPerSecond) :=
    ((widthF_rel R h hw hs).mul _).fl R (by norm_num)
      (big_mono 150 (big_mul (big_mul (big_pos hw) hs) (big_nat ht)) (by norm_num))
  have h2 : Rel 4 (fl (x * fl (r.speed * s))) (x * (r.speed * s)) :=
    (((Rel.refl (r.speed * s)).fl R (by norm_num) (big_mono 150 (big_mul (big_pos hv) hs) (by norm_num))).mul' (x : ℝ)).fl R
      (by norm_num) (big_mono 150 (big_mul (big_nat hx) (big_mul (big_pos hv) hs)) (by norm_num))
  have h3 := h1.quot h2 (by norm_num) (by norm_num)
  have e : w * s * c.ticksPerSecond / (x * (r.speed * s)) = w * c.ticksPerSecond / (x * r.speed) := by
    field_simp
  rw [e] at h3
  have hx2 : |(x : ℝ)| ≤ 2 ^ 32 := by
    rw [abs_of_pos x0]
    exact_mod_cast hx'.le
  have hv2 : |r.speed| ≤ 2 ^ 31 := by
    rw [abs_of_pos v0]
    exact hv'
  have hd : |(x : ℝ) * r.speed| ≤ 2 ^ (32 + 31) := by
    rw [abs_mul, pow_add]
    gcongr
  have h4 := h3.fl R (by norm_num) (big_mono 150 (big_div (big_mul (big_pos hw) (big_nat ht)) hd (by positivity)) (by norm_num))
  exact h4.mono (by norm_num)

/-- The number of lines of a row of pixels, before it is rounded. -/
theorem lines_rel {fl : ℝ → ℝ} (R : FloatRounding fl) {r : Request} {y : ℕ} {h d : ℝ} (hr : Rel 4 r.height h) (hd : Rel 2 r.spot d)
    (hh : 1 / 2 ^ 20 ≤ h) (hd1 : 1 / 2 ^ 20 ≤ d) (hd2 : d ≤ 2 ^ 31) (hy : 1 ≤ y) (hy' : y < 2 ^ 32) :
    Rel 16 (fl (r.height / fl (y * r.spot))) (h / (y * d)) := by
  have d0 : 0 < d := lt_of_lt_of_le (by norm_num) hd1
  have y0 : (0 : ℝ) < y := by exact_mod_cast hy
  have h2 : Rel 4 (fl (y * r.spot)) (y * d) :=
    (hd.mul' (y : ℝ)).fl R (by norm_num) (big_mono 150 (big_mul (big_nat hy) (big_pos hd1)) (by norm_num))
  have h3 := hr.quot h2 (by norm_num) (by norm_num)
  have hy2 : |(y : ℝ)| ≤ 2 ^ 32 := by
    rw [abs_of_pos y0]
    exact_mod_cast hy'.le
  have hd3 : |d| ≤ 2 ^ 31 := by
    rw [abs_of_pos d0]
    exact hd2
  have hd : |(y : ℝ) * d| ≤ 2 ^ (32 + 31) := by
    rw [abs_mul, pow_add]
    gcongr
  have h4 := h3.fl R (by norm_num) (big_mono 150 (big_div (big_pos hh) hd (by positivity)) (by norm_num))
  exact h4.mono (by norm_num)

/-- The scanning speed. -/
theorem vXF_near {fl : ℝ → ℝ} (R : FloatRounding fl) {c : Xy} {r : Request} {x : ℕ} {w : ℝ} (h : Rel 4 r.width w)
    (hw : 1 / 2 ^ 20 ≤ w) (hs : 1 / 2 ^ 20 ≤ (c.stepper .x).stepsPerMillimeter) (hx : 1 ≤ x)
    (hn : x * resXF fl c r x < 2 ^ 31) (hW : w * (c.stepper .x).stepsPerMillimeter + 4 ≤ 2 ^ 32) :
    |(vXF fl c r x : ℝ) - w * (c.stepper .x).stepsPerMillimeter / (2 * (x * resXF fl c r x : ℕ))| ≤
      1 / 2 + 1 / 2 ^ 49 * (w * (c.stepper .x).stepsPerMillimeter / (2 * (x * resXF fl c r x : ℕ))) := by
  set s := (c.stepper .x).stepsPerMillimeter with hsd
  have hres : 1 ≤ resXF fl c r x := le_max_left _ _
  have s0 : 0 < s := lt_of_lt_of_le (by norm_num) hs
  have w0 : 0 < w := lt_of_lt_of_le (by norm_num) hw
  unfold vXF
  generalize hN : x * resXF fl c r x = n at hn ⊢
  have hn1 : 1 ≤ n := by
    rw [← hN]
    exact Nat.mul_pos hx hres
  have n1 : (1 : ℝ) ≤ n := by exact_mod_cast hn1
  have n2 : (n : ℝ) ≤ 2 ^ 31 := by exact_mod_cast hn.le
  have hd : |((2 * n : ℕ) : ℝ)| ≤ 2 ^ 32 := by
    push_cast
    rw [abs_of_pos (by linarith)]
    have : (2 : ℝ) ^ 32 = 2 * 2 ^ 31 := by norm_num
    linarith
  have h1 : Rel 8 (fl (widthF fl c r / (2 * n : ℕ))) (w * s / (2 * n : ℕ)) :=
    ((widthF_rel R h hw (big_pos hs)).div _).fl R (by norm_num)
      (big_mono 150 (big_div (big_mul (big_pos hw) (big_pos hs)) hd (by positivity)) (by norm_num))
  have h2 := h1.near
  push_cast at h1 h2 ⊢
  set q := w * s / (2 * n) with hq
  have q0 : 0 < q := by positivity
  have q1 : q ≤ 2 ^ 31 - 2 := by
    rw [hq, div_le_iff₀ (by linarith)]
    norm_num at hW ⊢
    nlinarith
  rw [abs_of_pos q0] at h2
  have h3 : |fl (widthF fl c r / (2 * n)) - q| ≤ 1 / 2 := by
    refine h2.trans ?_
    norm_num at q1 ⊢
    linarith
  have h4 := satI32_round (x := fl (widthF fl c r / (2 * n))) (by
    have := abs_sub_abs_le_abs_sub (fl (widthF fl c r / (2 * n))) q
    rw [abs_of_pos q0] at this
    linarith)
  have h5 := abs_sub_le (satI32 (Draw.round (fl (widthF fl c r / (2 * n)))) : ℝ) (fl (widthF fl c r / (2 * n))) q
  have : (8 : ℝ) / 2 ^ 52 = 1 / 2 ^ 49 := by norm_num
  rw [this] at h2
  linarith

/-- The distance of the lines. -/
theorem stepYF_near {fl : ℝ → ℝ} (R : FloatRounding fl) {c : Xy} {r : Request} {y : ℕ} {h : ℝ} (hr : Rel 4 r.height h)
    (hh : 1 / 2 ^ 20 ≤ h) (hs : 1 / 2 ^ 20 ≤ |(c.stepper .y).stepsPerMillimeter|) (hy : 1 ≤ y) (h1 : 1 ≤ resYF fl r y)
    (hn : resYF fl r y * y < 2 ^ 32) (hH : h * |(c.stepper .y).stepsPerMillimeter| ≤ 2 ^ 47) :
    |(stepYF fl c r y : ℝ) - h * (c.stepper .y).stepsPerMillimeter / (resYF fl r y * y : ℕ)| ≤
      1 / 2 + 1 / 2 ^ 49 * (h * |(c.stepper .y).stepsPerMillimeter| / (resYF fl r y * y : ℕ)) := by
  set s := (c.stepper .y).stepsPerMillimeter with hsd
  have h0 : 0 < h := lt_of_lt_of_le (by norm_num) hh
  unfold stepYF
  generalize hN : resYF fl r y * y = n at hn ⊢
  have hn1 : 1 ≤ n := by
    rw [← hN]
    exact Nat.mul_pos h1 hy
  have n1 : (1 : ℝ) ≤ n := by exact_mod_cast hn1
  have n2 : (n : ℝ) ≤ 2 ^ 32 := by exact_mod_cast hn.le
  have hd : |(n : ℝ)| ≤ 2 ^ 32 := by
    rw [abs_of_pos (by linarith)]
    exact n2
  have k0 : Rel 6 (fl (r.height * s)) (h * s) :=
    (hr.mul _).fl R (by norm_num) (big_mono 150 (big_mul (big_pos hh) hs) (by norm_num))
  have k1 : Rel 8 (fl (fl (r.height * s) / n)) (h * s / n) :=
    (k0.div _).fl R (by norm_num) (big_mono 150 (big_div (big_mul (big_pos hh) hs) hd (by positivity)) (by norm_num))
  have k2 := k1.near
  have ea : |h * s / n| = h * |s| / n := by
    rw [abs_div, abs_mul, abs_of_pos h0, abs_of_pos (by linarith : (0 : ℝ) < n)]
  rw [ea] at k2
  have q1 : h * |s| / n ≤ 2 ^ 47 := (div_le_self (by positivity) n1).trans hH
  have q0 : 0 ≤ h * |s| / n := by positivity
  have k3 : |fl (fl (r.height * s) / n) - h * s / n| ≤ 1 := by
    refine k2.trans ?_
    norm_num at q1 ⊢
    linarith
  have k4 := satI64_round (x := fl (fl (r.height * s) / n)) (by
    have := abs_sub_abs_le_abs_sub (fl (fl (r.height * s) / n)) (h * s / n)
    rw [ea] at this
    norm_num at q1 ⊢
    linarith)
  have k5 := abs_sub_le (satI64 (Draw.round (fl (fl (r.height * s) / n))) : ℝ) (fl (fl (r.height * s) / n)) (h * s / n)
  have : (8 : ℝ) / 2 ^ 52 = 1 / 2 ^ 49 := by norm_num
  push_cast at k2
  rw [this] at k2
  linarith

end StepperPaths.Rounded
