import Verif.Proof.RoundedArcSeg
import Verif.Props.Rounded
import Verif.Props.RoundedSvg

/-! # C102: arcs of circles with rounding -/

namespace StepperPaths.Props
open Coords Context Spec Draw StepperPaths.Svg Spec.Svg Rounded

/-- The exact functions satisfy what is assumed. -/
theorem C102_lib : FloatAngles exactLib :=
  ⟨Real.sin_zero, Real.cos_zero, Complex.arg_zero, fun y x _ => .inl (by simp [exactLib])⟩

/-- C102: for a circle of radius `r` that is scaled by `s`, and a chord `(dx, dy)` of length `D` that is not very short and not too close
to a diameter, an arc is computed, and it is close to the arc of the scaled circle over the chord with the given size and direction. -/
theorem C102_arc (fl : ℝ → ℝ) (hf : FloatRounding fl) (lib : Lib) (hl : FloatAngles lib) (r s tx ty dx dy D : ℝ) (large sweep : Prop)
    (fx : fl dx = dx) (fy : fl dy = dy) (r0 : 1 / 2 ^ 20 ≤ r) (r1 : r ≤ 2 ^ 20) (s0 : 1 / 2 ^ 20 ≤ s) (s1 : s ≤ 2 ^ 20)
    (h0 : 0 ≤ D) (len : D ^ 2 = dx ^ 2 + dy ^ 2) (long : r * s / 2 ^ 10 ≤ D)
    (h : ℕ) (hh : 1 ≤ h) (tight : h ≤ 2 ^ 10) (short : D ^ 2 * h ^ 2 ≤ (2 * (r * s)) ^ 2 * (h ^ 2 - 1)) :
    ∃ R a1 a2, arcSegF fl lib ⟨s, 0, 0, s, tx, ty⟩ ⟨dx, dy⟩ ⟨r, r, 0, large, sweep⟩ = some (.ok (.arc R R a1 a2 0)) ∧
      |R - r * s| ≤ 1 / 2 ^ 46 * (r * s) ∧
      ∀ p, ∃ γ, CircleArc (r * s) p ⟨p.x + dx, p.y + dy⟩ large sweep γ ∧
        CloseLines (fun _ => h / 2 ^ 26 * (r * s)) (pointAt p (.arc R R a1 a2 0)) γ := by
  have rp : 0 < r := lt_of_lt_of_le (by positivity) r0
  have sp : 0 < s := lt_of_lt_of_le (by positivity) s0
  have rs : 0 < r * s := by positivity
  have rs0 : (1 : ℝ) / 2 ^ 40 ≤ r * s := by
    have := mul_le_mul r0 s0 (by positivity) rp.le
    norm_num at this ⊢
    linarith
  have Dp : 0 < D := lt_of_lt_of_le (by positivity) long
  have D0 : (1 : ℝ) / 2 ^ 60 ≤ D := by
    refine le_trans ?_ long
    rw [le_div_iff₀ (by positivity)]
    refine le_trans ?_ rs0
    norm_num
  have hd : ¬ (dx = 0 ∧ dy = 0) := by
    rintro ⟨rfl, rfl⟩
    have : D = 0 := by simpa using len
    linarith
  have ax : |dx| ≤ D := abs_le_of_sq_le_sq (by nlinarith [sq_nonneg dy]) h0
  have ay : |dy| ≤ D := abs_le_of_sq_le_sq (by nlinarith [sq_nonneg dx]) h0
  have hh' : (1 : ℝ) ≤ h := by exact_mod_cast hh
  obtain ⟨R, a1, a2, b1, b2, e1, e2, e3, e4, e5⟩ := Acc.arc_near (k := 0) (l := 0) (K := 24) (h := h) (tr := ⟨s, 0, 0, s, tx, ty⟩)
    (d' := ⟨dx, dy⟩) (dx := dx) (dy := dy) (D := D) (r' := r) (s' := s) hf hl large sweep
    (Acc.App.exact (by rw [abs_of_pos rp]) (.inl r0)) (Acc.App.exact (by rw [abs_of_pos sp]) (.inl s0)) rfl rfl rfl rfl r0 r1 s0 s1
    ((Acc.App.exact ax (.inl D0)).mono (Nat.zero_le _) le_rfl) ((Acc.App.exact ay (.inl D0)).mono (Nat.zero_le _) le_rfl)
    fx fy len long (by linarith) le_rfl hh (by omega) tight
  have g0 : Acc.g 24 ≤ 48 / 2 ^ 52 := (Acc.g_le (by norm_num)).trans (by norm_num)
  have eR : |R - r * s| ≤ 48 / 2 ^ 52 * (r * s) := e2.err.trans (mul_le_mul_of_nonneg_right g0 rs.le)
  refine ⟨R, a1, a2, e1, eR.trans (mul_le_mul_of_nonneg_right (by norm_num) rs.le), fun p => ⟨_, Acc.circle_of_angles rs hd e3 p 0, ?_⟩⟩
  intro u u0 u1 i
  refine (Acc.arc_points eR rs.le e4 e5 u0 u1 p i 0 0).trans (mul_le_mul_of_nonneg_right ?_ rs.le)
  push_cast
  have : (h : ℝ) / 2 ^ 26 = 64 * h / 2 ^ 32 := by ring
  rw [this]
  have : (2 : ℝ) * (48 / 2 ^ 52) ≤ h / 2 ^ 32 := by
    rw [le_div_iff₀ (by positivity)]; norm_num; linarith
  have : (2 : ℝ) * (24 * h / 2 ^ 32) = 48 * h / 2 ^ 32 := by ring
  have : (h : ℝ) / 2 ^ 32 + 48 * h / 2 ^ 32 ≤ 64 * h / 2 ^ 32 := by
    rw [← add_div]; gcongr; linarith
  linarith

/-- A quarter of a circle of radius 10 mm that is drawn with twice the size: the computed arc is off by less than a thousandth of a
millimetre. -/
example (lib : Lib) (hl : FloatAngles lib) : ∃ R a1 a2, arcSegF double lib ⟨2, 0, 0, 2, 0, 0⟩ ⟨-20, 20⟩ ⟨10, 10, 0, False, True⟩ =
    some (.ok (.arc R R a1 a2 0)) ∧ ∃ γ, CircleArc (10 * 2) ⟨20, 0⟩ ⟨20 + -20, 0 + 20⟩ False True γ ∧
      CloseLines (fun _ => 1 / 1000) (pointAt ⟨20, 0⟩ (.arc R R a1 a2 0)) γ := by
  have hf := C90_double
  have f1 : double 20 = 20 := by simpa using hf.int 20 (by norm_num)
  have f2 : double (-20) = -20 := by simpa using hf.int (-20) (by norm_num)
  have sq : √(800 : ℝ) ^ 2 = 800 := Real.sq_sqrt (by norm_num)
  have s0 : 0 ≤ √(800 : ℝ) := Real.sqrt_nonneg _
  obtain ⟨R, a1, a2, e1, -, e3⟩ := C102_arc double hf lib hl 10 2 0 0 (-20) 20 √800 False True f2 f1 (by norm_num) (by norm_num)
    (by norm_num) (by norm_num) s0 (by rw [sq]; norm_num) (by nlinarith) 2 (by norm_num) (by norm_num) (by rw [sq]; norm_num)
  obtain ⟨γ, h1, h2⟩ := e3 ⟨20, 0⟩
  refine ⟨R, a1, a2, e1, γ, h1, fun u u0 u1 i => (h2 u u0 u1 i).trans (by norm_num)⟩

end StepperPaths.Props
