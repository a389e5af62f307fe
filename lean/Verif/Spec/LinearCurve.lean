import Mathlib.Data.Real.Basic

/-! What is expected of `split_length` of a curve with the arc length function `L`. -/

namespace StepperPaths.Spec

/-- The split point lies between the ends, and the lengths that are returned are right up to
`δ` times the parameter width of the piece. -/
structure Estimates (L : ℝ → ℝ) (δ : ℝ) (split : ℝ → ℝ → ℝ × Option ℝ × Option ℝ) : Prop where
  between : ∀ a b, a ≤ b → a ≤ (split a b).1 ∧ (split a b).1 ≤ b
  low : ∀ a b, a ≤ b → ∀ x, (split a b).2.1 = some x →
    |x - (L (split a b).1 - L a)| ≤ δ * ((split a b).1 - a)
  high : ∀ a b, a ≤ b → ∀ x, (split a b).2.2 = some x →
    |x - (L b - L (split a b).1)| ≤ δ * (b - (split a b).1)

/-- Pieces shrink by a factor, and the lengths of short pieces are always returned. -/
structure Shrinks (ρ η : ℝ) (split : ℝ → ℝ → ℝ × Option ℝ × Option ℝ) : Prop where
  pos : 0 < ρ
  lt_one : ρ < 1
  short : 0 < η
  low : ∀ a b, a ≤ b → (split a b).1 - a ≤ ρ * (b - a)
  high : ∀ a b, a ≤ b → b - (split a b).1 ≤ ρ * (b - a)
  low_known : ∀ a b, a ≤ b → (split a b).1 - a ≤ η → (split a b).2.1 ≠ none
  high_known : ∀ a b, a ≤ b → b - (split a b).1 ≤ η → (split a b).2.2 ≠ none

end StepperPaths.Spec
