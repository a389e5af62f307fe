import Verif.Spec.Rounded

/-! FloatRounding to the nearest `f64` is a rounding. -/

namespace StepperPaths.Rounded
open Spec

theorem nearestEven_near (y : ℝ) : |(nearestEven y : ℝ) - y| ≤ 1 / 2 := by
  unfold nearestEven
  have h1 := Int.floor_le y
  have h2 := Int.lt_floor_add_one y
  split
  · rename_i h
    have h3 : (⌊y⌋ : ℝ) + 1 / 2 = y := by rw [← h]; exact Int.floor_add_fract y
    rcases Int.emod_two_eq_zero_or_one ⌊y⌋ with h4 | h4
    · have : 2 * ((⌊y⌋ + 1) / 2) = ⌊y⌋ := by omega
      rw [this, abs_le]
      constructor <;> linarith
    · have : 2 * ((⌊y⌋ + 1) / 2) = ⌊y⌋ + 1 := by omega
      rw [this, abs_le]
      push_cast
      constructor <;> linarith
  · have h3 := Int.floor_le (y + 1 / 2)
    have h4 := Int.lt_floor_add_one (y + 1 / 2)
    rw [abs_le]
    constructor <;> linarith

theorem nearestEven_int (n : ℤ) : nearestEven (n : ℝ) = n := by
  unfold nearestEven
  rw [if_neg (by simp)]
  rw [Int.floor_eq_iff]
  constructor <;> linarith

/-- Numbers of 53 binary digits are not changed. -/
theorem double_exact {k j : ℤ} (hk : |k| ≤ 2 ^ 53) (hj : -1074 ≤ j) : double (k * 2 ^ j) = k * 2 ^ j := by
  have key : ∀ {e : ℤ}, (∃ m : ℤ, (k : ℝ) * 2 ^ j = m * 2 ^ e) →
      (nearestEven ((k : ℝ) * 2 ^ j / 2 ^ e) : ℝ) * 2 ^ e = k * 2 ^ j := by
    rintro e ⟨m, hm⟩
    rw [hm, mul_div_assoc, div_self (by positivity), mul_one, nearestEven_int]
  unfold double
  apply key
  set e := max (Int.log 2 |(k : ℝ) * 2 ^ j|) (-1022) - 52 with he
  by_cases h0 : k = 0
  · exact ⟨0, by simp [h0]⟩
  have fine : e ≤ j → ∃ m : ℤ, (k : ℝ) * 2 ^ j = m * 2 ^ e := by
    intro h
    refine ⟨k * 2 ^ (j - e).toNat, ?_⟩
    push_cast
    rw [mul_assoc, ← zpow_natCast, ← zpow_add₀ (by norm_num)]
    congr 2
    omega
  rcases lt_or_eq_of_le hk with h1 | h1
  · apply fine
    have hp : 0 < |(k : ℝ) * 2 ^ j| := by
      rw [abs_pos]
      have : (k : ℝ) ≠ 0 := by exact_mod_cast h0
      positivity
    have : Int.log 2 |(k : ℝ) * 2 ^ j| < 53 + j := by
      rw [← Int.lt_zpow_iff_log_lt (by norm_num) hp, abs_mul, abs_of_pos (a := (2 : ℝ) ^ j) (by positivity)]
      push_cast
      rw [zpow_add₀ (by norm_num)]
      have : |(k : ℝ)| < 2 ^ (53 : ℤ) := by exact_mod_cast h1
      exact mul_lt_mul_of_pos_right this (by positivity)
    omega
  · have hlog : Int.log 2 |(k : ℝ) * 2 ^ j| = 53 + j := by
      have : |(k : ℝ) * 2 ^ j| = ((2 : ℕ) : ℝ) ^ (53 + j) := by
        rw [abs_mul, abs_of_pos (a := (2 : ℝ) ^ j) (by positivity)]
        push_cast
        rw [zpow_add₀ (by norm_num)]
        have : |(k : ℝ)| = 2 ^ (53 : ℤ) := by exact_mod_cast h1
        rw [this]
      rw [this, Int.log_zpow (by norm_num)]
    by_cases h2 : e ≤ j
    · exact fine h2
    have he1 : e = j + 1 := by omega
    have : k = 2 ^ 53 ∨ k = -2 ^ 53 := by
      rcases abs_choice k with h | h <;> omega
    rcases this with h | h
    · refine ⟨2 ^ 52, ?_⟩
      rw [h, he1, zpow_add₀ (by norm_num)]
      push_cast
      ring
    · refine ⟨-2 ^ 52, ?_⟩
      rw [h, he1, zpow_add₀ (by norm_num)]
      push_cast
      ring

theorem double_near (x : ℝ) : |double x - x| ≤ 2⁻¹ ^ 53 * |x| + 2⁻¹ ^ 1075 := by
  have gen : ∀ n : ℕ, (1 / 2 : ℝ) * 2 ^ (-(n : ℤ)) = 2⁻¹ ^ (n + 1) := by
    intro n
    rw [zpow_neg, zpow_natCast, pow_succ, inv_pow, one_div, mul_comm]
  rcases eq_or_ne x 0 with rfl | h0
  · have := double_exact (k := 0) (j := 0) (by norm_num) (by norm_num)
    simp only [Int.cast_zero, zero_mul] at this
    rw [this, sub_self, abs_zero, mul_zero, zero_add]
    exact pow_nonneg (by norm_num) _
  unfold double
  simp only
  set L := Int.log 2 |x| with hL
  have h1 : |(nearestEven (x / 2 ^ (max L (-1022) - 52)) : ℝ) * 2 ^ (max L (-1022) - 52) - x| ≤
      1 / 2 * 2 ^ (max L (-1022) - 52) := by
    have h := nearestEven_near (x / 2 ^ (max L (-1022) - 52))
    have h0 : (0 : ℝ) < 2 ^ (max L (-1022) - 52) := by positivity
    have e1 : (nearestEven (x / 2 ^ (max L (-1022) - 52)) : ℝ) * 2 ^ (max L (-1022) - 52) - x =
        ((nearestEven (x / 2 ^ (max L (-1022) - 52)) : ℝ) - x / 2 ^ (max L (-1022) - 52)) *
          2 ^ (max L (-1022) - 52) := by
      rw [sub_mul, div_mul_cancel₀ _ h0.ne']
    rw [e1, abs_mul, abs_of_pos h0]
    exact mul_le_mul_of_nonneg_right h h0.le
  refine h1.trans ?_
  rcases le_total L (-1022) with h2 | h2
  · rw [max_eq_right h2]
    have : (1 / 2 : ℝ) * 2 ^ ((-1022 : ℤ) - 52) = 2⁻¹ ^ 1075 := by
      rw [show ((-1022 : ℤ) - 52) = -((1074 : ℕ) : ℤ) by norm_num]
      exact gen 1074
    rw [this]
    have : 0 ≤ (2⁻¹ : ℝ) ^ 53 * |x| := by positivity
    exact le_add_of_nonneg_left this
  · rw [max_eq_left h2]
    have hx : 0 < |x| := abs_pos.2 h0
    have h3 := Int.zpow_log_le_self (b := 2) (by norm_num) hx
    rw [← hL] at h3
    have : (1 / 2 : ℝ) * 2 ^ (L - 52) = 2⁻¹ ^ 53 * 2 ^ L := by
      rw [zpow_sub₀ (by norm_num)]
      norm_num
      ring
    rw [this]
    have : (2⁻¹ : ℝ) ^ 53 * 2 ^ L ≤ 2⁻¹ ^ 53 * |x| := mul_le_mul_of_nonneg_left (by exact_mod_cast h3) (by positivity)
    exact this.trans (le_add_of_nonneg_right (by positivity))

theorem double_idem (x : ℝ) : double (double x) = double x := by
  rcases eq_or_ne x 0 with rfl | hx
  · have := double_exact (k := 0) (j := 0) (by norm_num) (by norm_num)
    simp at this
    rw [this, this]
  have e1 : double x = nearestEven (x / 2 ^ (max (Int.log 2 |x|) (-1022) - 52)) *
    2 ^ (max (Int.log 2 |x|) (-1022) - 52) := rfl
  rw [e1]
  apply double_exact _ (by omega)
  set e := max (Int.log 2 |x|) (-1022) - 52 with he
  have h1 := nearestEven_near (x / 2 ^ e)
  have h2 : |x| < 2 ^ (Int.log 2 |x| + 1) := by
    have := Int.lt_zpow_succ_log_self (b := 2) (by norm_num) |x|
    exact_mod_cast this
  have h3 : |x / 2 ^ e| < 2 ^ 53 := by
    rw [abs_div, abs_of_pos (a := (2 : ℝ) ^ e) (by positivity), div_lt_iff₀ (by positivity)]
    refine h2.trans_le ?_
    have : (2 : ℝ) ^ 53 * 2 ^ e = 2 ^ (53 + e) := by
      rw [zpow_add₀ (by norm_num)]
      norm_num
    rw [this]
    exact zpow_le_zpow_right₀ (by norm_num) (by omega)
  have h4 : |(nearestEven (x / 2 ^ e) : ℝ)| < 2 ^ 53 + 1 := by
    rw [abs_le] at h1
    rw [abs_lt] at *
    constructor <;> linarith [h1.1, h1.2, h3.1, h3.2]
  have h5 : |nearestEven (x / 2 ^ e)| < 2 ^ 53 + 1 := by exact_mod_cast h4
  omega

theorem nearestEven_neg (y : ℝ) : nearestEven (-y) = -nearestEven y := by
  by_cases h0 : Int.fract y = 0
  · obtain ⟨n, hn⟩ : ∃ n : ℤ, (n : ℝ) = y := ⟨⌊y⌋, by unfold Int.fract at h0; linarith⟩
    rw [← hn, ← Int.cast_neg, nearestEven_int, nearestEven_int]
  have h1 : Int.fract (-y) = 1 - Int.fract y := Int.fract_neg h0
  have h2 : ⌊-y⌋ = -⌊y⌋ - 1 := by
    have a1 : (⌊-y⌋ : ℝ) = -y - Int.fract (-y) := by unfold Int.fract; ring
    have a2 : (⌊y⌋ : ℝ) = y - Int.fract y := by unfold Int.fract; ring
    have : (⌊-y⌋ : ℝ) = ((-⌊y⌋ - 1 : ℤ) : ℝ) := by push_cast; rw [a1, a2, h1]; ring
    exact_mod_cast this
  unfold nearestEven
  by_cases h : Int.fract y = 1 / 2
  · rw [if_pos h, if_pos (by rw [h1, h]; norm_num), h2]
    omega
  · rw [if_neg h, if_neg (by rw [h1]; intro h'; apply h; linarith)]
    rcases lt_or_gt_of_ne h with hl | hl
    · have e1 : ⌊y + 1 / 2⌋ = ⌊y⌋ := by
        rw [Int.floor_eq_iff]
        unfold Int.fract at hl
        have := Int.floor_le y
        constructor <;> linarith
      have e2 : ⌊-y + 1 / 2⌋ = -⌊y⌋ := by
        rw [Int.floor_eq_iff]
        unfold Int.fract at hl
        have := Int.floor_le y
        push_cast
        constructor <;> linarith
      rw [e1, e2]
    · have hlt := Int.fract_lt_one y
      have e1 : ⌊y + 1 / 2⌋ = ⌊y⌋ + 1 := by
        rw [Int.floor_eq_iff]
        unfold Int.fract at hl hlt
        push_cast
        constructor <;> linarith
      have e2 : ⌊-y + 1 / 2⌋ = -(⌊y⌋ + 1) := by
        rw [Int.floor_eq_iff]
        unfold Int.fract at hl hlt
        push_cast
        constructor <;> linarith
      rw [e1, e2]

theorem double_neg (x : ℝ) : double (-x) = -double x := by
  unfold double
  simp only [abs_neg, neg_div, nearestEven_neg, Int.cast_neg, neg_mul]

end StepperPaths.Rounded
