import Verif.Spec.CurvePath
import Verif.Spec.Rounded
import Mathlib.Analysis.SpecialFunctions.Trigonometric.Deriv

/-!
Arcs of circles, and what is assumed of the mathematical library.
-/

namespace StepperPaths.Spec
open Coords

/-- Sine and cosine of the library are off by at most `2^-52`. -/
structure FloatTrig (sn cs : ℝ → ℝ) : Prop where
  sin : ∀ x, |sn x - Real.sin x| ≤ 1 / 2 ^ 52
  cos : ∀ x, |cs x - Real.cos x| ≤ 1 / 2 ^ 52

/-- The arc of the circle with radius `r`, from the angle `a` to the angle `b`: counter-clockwise if
`a ≤ b`, else clockwise. -/
noncomputable def arcShape (r a b : ℝ) : Shape :=
  let σ : ℝ := if a ≤ b then 1 else -1
  ⟨r * |b - a|,
    fun s => ⟨r * (Real.cos (a + σ * s / r) - Real.cos a), r * (Real.sin (a + σ * s / r) - Real.sin a)⟩,
    fun s => ⟨-(σ * Real.sin (a + σ * s / r)), σ * Real.cos (a + σ * s / r)⟩⟩

/-- Neither radius nor angles are extreme; `A` bounds the angles. -/
structure ArcFits (r a b A : ℝ) : Prop where
  big : 1 / 2 ^ 40 ≤ r
  small : r ≤ 2 ^ 100
  one : 1 ≤ A
  huge : A ≤ 2 ^ 30
  start : |a| ≤ A
  stop : |b| ≤ A

end StepperPaths.Spec
