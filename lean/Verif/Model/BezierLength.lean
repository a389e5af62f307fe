import Verif.Model.Bezier
import Verif.Model.SqrtPoly

/-!
Model of the arc length of a Bezier curve, `/repo/src/curves/bezier.rs`, in exact arithmetic.
-/

namespace StepperPaths.Curves
open Coords SqrtPoly

/-- `deriv_from_coefficients`, bezier.rs 90-92, on the array which
`coefficients_from_control` returns. -/
def derivOf : List ℝ → List ℝ
  | [c0, c1, c2] => derivFromCoefficients c0 c1 c2
  | _ => []

/-- The table which `Bezier::new` builds, bezier.rs 18-24.  `none` is a panic. -/
noncomputable def Bezier.table (b : Bezier) : Option (List Segment) :=
  let dx := derivOf (coefficientsFromControl b.c1.x b.c2.x b.p2.x)
  let dy := derivOf (coefficientsFromControl b.c1.y b.c2.y b.p2.y)
  (polymul dx dx).bind fun xx =>
  (polymul dy dy).bind fun yy =>
  buildSegments (polyadd xx yy) 0 1 9

/-- `Bezier::length`, bezier.rs 59-61, for an answer of the binary search. -/
def Bezier.lengthAt (segs : List Segment) (ans : Except ℕ ℕ) : Option ℝ := evalIntAt segs 1 ans

/-- `Bezier::value`, bezier.rs 63-72.  `ans0` is the answer of the binary search for the
length, `ans` the one for the parameter. -/
noncomputable def Bezier.valueAt (b : Bezier) (segs : List Segment) (ans0 ans : Except ℕ ℕ)
    (pos : ℝ) : Option (Vec × Vec) :=
  if pos ≤ 0 then some (b.bezierValue 0)
  else do
    let len ← Bezier.lengthAt segs ans0
    if pos ≥ len then some (b.bezierValue 1)
    else do
      let t ← findParamAt segs pos ans
      some (b.bezierValue t)

end StepperPaths.Curves
