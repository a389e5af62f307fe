import Verif.Model.RoundedProgram
import Verif.Spec.RoundedBezier
import Verif.Spec.RoundedSvg

/-! What a machine must be able to do for a picture, when its points are computed with rounding. -/

namespace StepperPaths.Spec
open Coords Curves Context Draw

/-- The point where the machine is after so many steps, as it is computed. -/
noncomputable def floatPlace (fl : ℝ → ℝ) (scale : Axis → ℝ) (P : Axis → ℤ) : Vec :=
  ⟨fl (fl (P .x) / scale .x), fl (fl (P .y) / scale .y)⟩

/-- A machine at `P` can burn the picture that begins with a move to `p0` (see `TractablePath`), and no move is
left out, but possibly the first one (as `Fits`). -/
structure FloatFits (fl : ℝ → ℝ) (scale : Axis → ℝ) (M d D ε κ w : ℝ) (ρ : Axis → ℝ) (p0 : Vec) (rest : List Seg)
    (P : Axis → ℤ) : Prop where
  bounded : ∀ i, |coord (floatPlace fl scale P) i| ≤ M
  path : TractablePath fl scale M d D ε κ w ρ P M [] (floatPlace fl scale P) (.goTo p0 :: rest)
  apart : TractableApart fl scale D ρ P [] p0 rest
  apart' : (∀ i, Draw.round (fl (coord p0 i * scale i)) = P i) → TractableApart fl scale D ρ P [] (floatPlace fl scale P) rest

end StepperPaths.Spec
