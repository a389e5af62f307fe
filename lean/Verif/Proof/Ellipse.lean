import Verif.Model.SvgPath
import Verif.Props.Coords

/-! Lemmas about the ellipse arithmetic of `svg_path_parser.rs`. -/

namespace StepperPaths.Svg
open Coords Draw

/-- The quadratic form of a matrix. -/
def form (q : Mat) (p : Vec) : ℝ := q.a * p.x ^ 2 + (q.b + q.c) * p.x * p.y + q.d * p.y ^ 2

/-- A matrix applied to a vector. -/
def Mat.app (m : Mat) (p : Vec) : Vec := ⟨m.a * p.x + m.b * p.y, m.c * p.x + m.d * p.y⟩

theorem form_ellipse {rx ry : ℝ} (hx : rx ≠ 0) (hy : ry ≠ 0) (rot : ℝ) (p : Vec) :
    form (ellipseForm rx ry rot) p =
      ((p.x * Real.cos rot + p.y * Real.sin rot) / rx) ^ 2 +
      ((-p.x * Real.sin rot + p.y * Real.cos rot) / ry) ^ 2 := by
  simp only [form, ellipseForm]
  field_simp
  ring

theorem form_mul (q n : Mat) (p : Vec) :
    form (mul2x2 (mul2x2 (transpose2x2 n) q) n) p = form q (n.app p) := by
  simp only [form, mul2x2, transpose2x2, Mat.app]
  ring

theorem invert_app {m n : Mat} (h : invert2x2 m = some n) (p : Vec) : n.app (m.app p) = p := by
  unfold invert2x2 at h
  simp only [] at h
  split at h
  · cases h
  rename_i hd
  cases h
  generalize hD : m.a * m.d - m.b * m.c = D at hd ⊢
  have hd' : D ≠ 0 := hd
  ext <;> simp only [Mat.app] <;> field_simp <;> rw [← hD] <;> ring

theorem app_invert {m n : Mat} (h : invert2x2 m = some n) (p : Vec) : m.app (n.app p) = p := by
  unfold invert2x2 at h
  simp only [] at h
  split at h
  · cases h
  rename_i hd
  cases h
  generalize hD : m.a * m.d - m.b * m.c = D at hd ⊢
  have hd' : D ≠ 0 := hd
  ext <;> simp only [Mat.app] <;> field_simp <;> rw [← hD] <;> ring

/-- The rotation of `formAxes` removes the mixed term. -/
theorem axes_rot (q : Mat) :
    let t := Vec.atan2 (-q.c * 2) (q.d - q.a) / 2
    (q.d - q.a) * (Real.cos t * Real.sin t) + q.c * (Real.cos t ^ 2 - Real.sin t ^ 2) = 0 := by
  intro t
  have h1 : Real.cos t * Real.sin t = Real.sin (2 * t) / 2 := by rw [Real.sin_two_mul]; ring
  have h2 : Real.cos t ^ 2 - Real.sin t ^ 2 = Real.cos (2 * t) := by rw [Real.cos_two_mul']
  rw [h1, h2, show 2 * t = Complex.arg ⟨q.d - q.a, -q.c * 2⟩ by simp only [t, Vec.atan2]; ring]
  by_cases hz : (⟨q.d - q.a, -q.c * 2⟩ : ℂ) = 0
  · have hc : -q.c * 2 = 0 := congrArg Complex.im hz
    have : q.c = 0 := by linarith
    rw [hz]
    simp [this]
  · rw [Complex.sin_arg, Complex.cos_arg hz]
    ring

/-- The half axes and the rotation that `formAxes` finds for a positive form. -/
theorem formAxes_spec {q : Mat} (hs : q.b = q.c) (hp : ∀ p : Vec, p ≠ ⟨0, 0⟩ → 0 < form q p) :
    ∃ rx ry rot, formAxes q = some (rx, ry, rot) ∧ 0 < rx ∧ 0 < ry ∧
      rot = Vec.atan2 (-q.c * 2) (q.d - q.a) / 2 ∧
      ∀ p : Vec, ((p.x * Real.cos rot + p.y * Real.sin rot) / rx) ^ 2 +
        ((-p.x * Real.sin rot + p.y * Real.cos rot) / ry) ^ 2 = form q p := by
  have hr := axes_rot q
  simp only [] at hr
  unfold formAxes
  simp only []
  generalize Vec.atan2 (-q.c * 2) (q.d - q.a) / 2 = t at hr ⊢
  have hcs := Real.cos_sq_add_sin_sq t
  have h1 := hp ⟨Real.cos t, Real.sin t⟩ (by
    intro h
    have hx : Real.cos t = 0 := congrArg Vec.x h
    have hy : Real.sin t = 0 := congrArg Vec.y h
    rw [hx, hy] at hcs; norm_num at hcs)
  have h2 := hp ⟨-Real.sin t, Real.cos t⟩ (by
    intro h
    have hx : -Real.sin t = 0 := congrArg Vec.x h
    have hy : Real.cos t = 0 := congrArg Vec.y h
    rw [neg_eq_zero] at hx
    rw [hx, hy] at hcs; norm_num at hcs)
  have e1 : q.a * (Real.cos t * Real.cos t) + 2 * q.c * (Real.cos t * Real.sin t) +
      q.d * (Real.sin t * Real.sin t) = form q ⟨Real.cos t, Real.sin t⟩ := by
    simp only [form, hs]; ring
  have e2 : q.a * (Real.sin t * Real.sin t) - 2 * q.c * (Real.cos t * Real.sin t) +
      q.d * (Real.cos t * Real.cos t) = form q ⟨-Real.sin t, Real.cos t⟩ := by
    simp only [form, hs]; ring
  rw [e1, e2, if_neg (not_le.2 h1), if_neg (not_le.2 h2)]
  refine ⟨_, _, _, rfl, Real.sqrt_pos.2 (by positivity), Real.sqrt_pos.2 (by positivity), rfl, ?_⟩
  intro p
  rw [div_pow, div_pow, Real.sq_sqrt (by positivity), Real.sq_sqrt (by positivity)]
  simp only [one_div, div_inv_eq_mul, form, hs]
  have hcs' : Real.sin t ^ 2 = 1 - Real.cos t ^ 2 := by linarith
  generalize Real.cos t = c at *
  generalize Real.sin t = s at *
  have k : (p.x * c + p.y * s) ^ 2 * (q.a * c ^ 2 + (q.c + q.c) * c * s + q.d * s ^ 2) +
      (-p.x * s + p.y * c) ^ 2 * (q.a * (-s) ^ 2 + (q.c + q.c) * -s * c + q.d * c ^ 2) =
      (q.a * p.x ^ 2 + (q.c + q.c) * p.x * p.y + q.d * p.y ^ 2) * (c ^ 2 + s ^ 2) ^ 2 +
      ((q.d - q.a) * (c * s) + q.c * (c ^ 2 - s ^ 2)) *
        (2 * (c * s) * (p.x ^ 2 - p.y ^ 2) - 2 * p.x * p.y * (c ^ 2 - s ^ 2)) := by
    ring
  rw [k, hr, hcs]
  ring

end StepperPaths.Svg
