import Verif.Model.Bezier

/-!
The text of a Bezier segment (`/repo/src/curves/bezier_curve.rs`).  `fl` rounds the sums, as in
`Model/Rounded.lean`; `disp` is `Display` of `f64`, of which no more is assumed than what its
documentation promises (`Spec.Shows`).
-/

namespace StepperPaths.Curves
open Coords

/-- `BezierSegment::to_svg_path`, bezier_curve.rs 47-57. -/
noncomputable def BezierSegment.toSvgPath (fl : ℝ → ℝ) (disp : ℝ → List Char) (b : BezierSegment) : List Char :=
  'c' :: (disp b.c1.x ++ [','] ++ disp b.c1.y ++ [' '] ++ disp (fl (b.c2.x + b.p2.x)) ++ [','] ++
    disp (fl (b.c2.y + b.p2.y)) ++ [' '] ++ disp b.p2.x ++ [','] ++ disp b.p2.y)

end StepperPaths.Curves
