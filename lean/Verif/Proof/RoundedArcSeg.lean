import Verif.Proof.RoundedAngle
import Verif.Proof.Picture

/-! The points of a computed arc. -/

namespace StepperPaths.Rounded.Acc
open Spec Coords Draw Context Svg

variable {fl : ℝ → ℝ} {lib : Lib}

/-- Arcs with close radii and angles are close. -/
theorem arc_points {R' R b1' b2' b1 b2 η ε : ℝ} (hR : |R' - R| ≤ η * R) (h0 : 0 ≤ R) (h1 : |b1' - b1| ≤ ε) (h2 : |b2' - b2| ≤ ε)
    {u : ℝ} (u0 : 0 ≤ u) (u1 : u ≤ 1) (p : Vec) (i : Axis) (rot' rot : ℝ) :
    |coord (pointAt p (.arc R' R' b1' b2' rot') u) i - coord (pointAt p (.arc R R b1 b2 rot) u) i| ≤ (2 * η + 2 * ε) * R := by
  have hθ : |(b1' + (b2' - b1') * u) - (b1 + (b2 - b1) * u)| ≤ ε := by
    rw [show (b1' + (b2' - b1') * u) - (b1 + (b2 - b1) * u) = (b1' - b1) * (1 - u) + (b2' - b2) * u by ring]
    refine (abs_add_le _ _).trans ?_
    rw [abs_mul, abs_mul, abs_of_nonneg u0, abs_of_nonneg (by linarith : (0 : ℝ) ≤ 1 - u)]
    nlinarith
  have key : ∀ (f : ℝ → ℝ) (q : ℝ), (∀ a b, |f a - f b| ≤ |a - b|) → (∀ a, |f a| ≤ 1) →
      |q + (R' * f (b1' + (b2' - b1') * u) - R' * f b1') - (q + (R * f (b1 + (b2 - b1) * u) - R * f b1))| ≤ (2 * η + 2 * ε) * R := by
    intro f q hf hf1
    have e1 := hf (b1' + (b2' - b1') * u) (b1 + (b2 - b1) * u)
    have e2 := hf b1' b1
    have e3 := hf1 (b1' + (b2' - b1') * u)
    have e4 := hf1 b1'
    have e5 := e1.trans hθ
    have e6 := e2.trans h1
    generalize f (b1' + (b2' - b1') * u) = A' at *
    generalize f (b1 + (b2 - b1) * u) = A at *
    generalize f b1' = B' at *
    generalize f b1 = B at *
    rw [show q + (R' * A' - R' * B') - (q + (R * A - R * B)) = (R' - R) * (A' - B') + R * ((A' - A) - (B' - B)) by ring]
    refine (abs_add_le _ _).trans ?_
    rw [abs_mul, abs_mul, abs_of_nonneg h0]
    have e7 : |A' - B'| ≤ 2 := (abs_sub _ _).trans (by linarith)
    have e8 : |A' - A - (B' - B)| ≤ 2 * ε := (abs_sub _ _).trans (by linarith)
    have e9 := mul_le_mul hR e7 (abs_nonneg _) ((abs_nonneg _).trans hR)
    have e10 := mul_le_mul_of_nonneg_left e8 h0
    linarith
  cases i
  · exact key Real.cos p.x Real.abs_cos_sub_cos_le Real.abs_cos_le_one
  · exact key Real.sin p.y Real.abs_sin_sub_sin_le Real.abs_sin_le_one

/-- An arc with such angles is the arc of a circle. -/
theorem circle_of_angles {r dx dy a1 a2 : ℝ} {large sweep : Prop} (hr : 0 < r) (hd : ¬ (dx = 0 ∧ dy = 0))
    (h : Props.ArcAngles r r dx dy large sweep a1 a2) (p : Vec) (rot : ℝ) :
    Spec.Svg.CircleArc r p ⟨p.x + dx, p.y + dy⟩ large sweep (pointAt p (.arc r r a1 a2 rot)) := by
  refine ⟨hr, fun he => hd ⟨?_, ?_⟩, a1, a2, fun u => ?_, ?_, ⟨fun hlt => ?_, h.pos⟩, h.turn, h.long, h.short⟩
  · have := congrArg Vec.x he; simp at this; exact this
  · have := congrArg Vec.y he; simp at this; exact this
  · simp only [pointAt, mul_sub]
  · have := h.x
    have := h.y
    ext
    · simp only [pointAt, mul_one, add_sub_cancel]; linarith
    · simp only [pointAt, mul_one, add_sub_cancel]; linarith
  · by_contra hs
    exact absurd hlt (not_lt.2 (h.neg hs).le)

end StepperPaths.Rounded.Acc
