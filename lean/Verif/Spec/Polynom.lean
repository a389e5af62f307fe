import Mathlib.Algebra.BigOperators.Fin
import Mathlib.Data.Real.Basic

/-! Polynomials as functions, and the numbers that fit into an `f64`. -/

namespace StepperPaths.Spec

/-- The polynomial with the coefficients `c`, the constant one first. -/
def polyFn (c : List ℝ) (t : ℝ) : ℝ := ∑ i ∈ Finset.range c.length, c.getD i 0 * t ^ i

/-- The finite values of an `f64`. -/
def IsDouble (x : ℝ) : Prop :=
  ∃ m e : ℤ, |m| < 2 ^ 53 ∧ -1074 ≤ e ∧ e ≤ 971 ∧ x = m * (2 : ℝ) ^ e

/-- A rounding of real numbers to `f64`s, as far as there is no overflow. -/
structure Rounding (rd : ℝ → ℝ) : Prop where
  mono : Monotone rd
  exact : ∀ x, IsDouble x → rd x = x
  double : ∀ x, |x| ≤ 2 ^ 1023 → IsDouble (rd x)

end StepperPaths.Spec
