import Verif.Spec.SvgText

/-! Numbers written as text. -/

namespace StepperPaths.Spec
open Svg

/-- `disp` writes the number `x` as a decimal number that is read as `x` again, with `fl` the rounding of
numbers that are read. -/
def Shows (fl : ℝ → ℝ) (disp : ℝ → List Char) (x : ℝ) : Prop :=
  ∃ n : Num, n.Valid ∧ disp x = n.text ∧ fl ((n.value : ℚ) : ℝ) = x

end StepperPaths.Spec
