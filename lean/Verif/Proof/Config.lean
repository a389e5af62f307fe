import Verif.Model.Config
import Verif.Proof.Draw

/-! Lemmas about the conversion of the configuration. -/

namespace StepperPaths.Config
open Context Draw

theorem satI32_eq {x : ℤ} (h0 : -2 ^ 31 ≤ x) (h1 : x < 2 ^ 31) : satI32 x = x := by
  unfold satI32
  norm_num at *
  omega

theorem satI64_eq {x : ℤ} (h0 : -2 ^ 63 ≤ x) (h1 : x < 2 ^ 63) : satI64 x = x := by
  unfold satI64
  norm_num at *
  omega

theorem satU32_eq {x : ℤ} (h0 : 0 ≤ x) (h1 : x < 2 ^ 32) : (satU32 x : ℤ) = x := by
  unfold satU32
  norm_num at *
  omega

theorem satU32_le (x : ℤ) : (satU32 x : ℤ) ≤ max 0 x := by
  unfold satU32
  omega

theorem satU32_zero {x : ℤ} (h0 : x ≤ 0) : satU32 x = 0 := by
  unfold satU32
  omega

/-- Rounding a number that fits. -/
theorem satI32_round {x : ℝ} (h : |x| + 1 ≤ 2 ^ 31) : |(satI32 (Draw.round x) : ℝ) - x| ≤ 1 / 2 := by
  have h1 := round_near x
  have h2 := abs_le.1 h1
  have h3 := abs_le.1 (show |x| ≤ 2 ^ 31 - 1 by linarith)
  rw [satI32_eq]
  · exact h1
  · have : (-2 ^ 31 : ℝ) ≤ (Draw.round x : ℝ) := by linarith [h2.1, h3.1]
    exact_mod_cast this
  · have : (Draw.round x : ℝ) < 2 ^ 31 := by linarith [h2.2, h3.2]
    exact_mod_cast this

theorem satI64_round {x : ℝ} (h : |x| + 1 ≤ 2 ^ 63) : |(satI64 (Draw.round x) : ℝ) - x| ≤ 1 / 2 := by
  have h1 := round_near x
  have h2 := abs_le.1 h1
  have h3 := abs_le.1 (show |x| ≤ 2 ^ 63 - 1 by linarith)
  rw [satI64_eq]
  · exact h1
  · have : (-2 ^ 63 : ℝ) ≤ (Draw.round x : ℝ) := by linarith [h2.1, h3.1]
    exact_mod_cast this
  · have : (Draw.round x : ℝ) < 2 ^ 63 := by linarith [h2.2, h3.2]
    exact_mod_cast this

theorem satI32_trunc {x : ℝ} (h0 : 0 ≤ x) (h : x < 2 ^ 31) :
    (satI32 (trunc x) : ℝ) ≤ x ∧ x < satI32 (trunc x) + 1 := by
  unfold trunc
  rw [if_pos h0, satI32_eq]
  · exact ⟨Int.floor_le x, Int.lt_floor_add_one x⟩
  · have := Int.floor_nonneg.2 h0
    norm_num
    omega
  · rw [Int.floor_lt]
    exact_mod_cast h

end StepperPaths.Config
