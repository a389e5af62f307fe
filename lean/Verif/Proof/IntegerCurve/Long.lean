import Verif.Proof.IntegerCurve.Final

/-! A simple sufficient condition for a duration to be accepted. -/

namespace StepperPaths.IntegerCurve
open Spec

theorem accPoly_long {ds v0 vn a vmax T : Int} (h : Valid ds v0 vn a vmax)
    (h1 : 8 * vmax + 4 * a ≤ a * T) (h2 : |ds| ≤ vmax * T) : 0 ≤ accPoly ds v0 vn a T := by
  have ha := h.a_pos
  have hv := h.v_pos
  have h0 := abs_le.1 h.h0
  have hn := abs_le.1 h.hn
  have hd := (abs_le.1 h2).2
  have e : accPoly ds v0 vn a T = (a * T) * (a * T) + 2 * (v0 + vn) * (a * T) -
      ((v0 - vn) * (v0 - vn) + a * a + 2 * (a * ds)) := by unfold accPoly; ring
  have hX : a * ds ≤ vmax * (a * T) := by
    have := mul_le_mul_of_nonneg_left hd (show 0 ≤ a by omega)
    linarith [this, show a * (vmax * T) = vmax * (a * T) by ring]
  rw [e]
  generalize a * T = X at *
  generalize a * ds = Y at *
  have hX0 : 0 ≤ X := by omega
  have b1 : -(4 * vmax * X) ≤ 2 * (v0 + vn) * X := by nlinarith
  have b2 : (v0 - vn) * (v0 - vn) ≤ 4 * vmax * vmax := by nlinarith
  nlinarith

/-- Sufficient condition for a duration to be accepted. -/
theorem SideOK.long {ds v0 vn a vmax T : Int} (h : Valid ds v0 vn a vmax) (hT : T < i64Max)
    (h1 : 8 * vmax + 4 * a ≤ a * T) (h2 : |ds| ≤ vmax * T) : SideOK ds v0 vn a vmax T := by
  have ha : 0 < a := h.a_pos
  have hv := h.v_pos
  have h0 := abs_le.1 h.h0
  have hn := abs_le.1 h.hn
  refine ⟨hT, ?_⟩
  by_cases hp : peakDist v0 vn a vmax ≤ ds
  · left
    have r1 := (rt_bounds ha (vmax - v0)).1
    have r2 := (rt_bounds ha (vmax - vn)).1
    rw [abs_of_nonneg (by omega)] at r1 r2
    have hr : 2 * (rt a (vmax - v0) + rt a (vmax - vn)) ≤ T := by
      apply le_of_mul_le_mul_left _ ha
      linarith
    have hT0 : 0 ≤ rt a (vmax - v0) + rt a (vmax - vn) :=
      add_nonneg (rt_nonneg ha _) (rt_nonneg ha _)
    refine ⟨hp, by omega, ?_⟩
    rw [pdv_peak]
    have := peakDist_nonneg ha h.h0 h.hn
    have hd := (abs_le.1 h2).2
    generalize rt a (vmax - v0) + rt a (vmax - vn) = r at *
    nlinarith
  · right
    refine ⟨by omega, ?_, accPoly_long h h1 h2, accPoly_long h (by linarith) (by linarith)⟩
    unfold tMin
    split
    · by_contra hc
      nlinarith
    · have r := (rt_bounds ha (v0 - vn)).1
      have : |v0 - vn| ≤ 2 * vmax := by rw [abs_le]; constructor <;> linarith
      by_contra hc
      nlinarith

end StepperPaths.IntegerCurve
