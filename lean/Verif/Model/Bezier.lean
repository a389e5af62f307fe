import Verif.Model.Coords

/-!
Model of `/repo/src/curves/bezier.rs` and `/repo/src/curves/bezier_curve.rs` in exact
arithmetic (see `Verif.Model.Coords`).
-/

namespace StepperPaths.Curves
open Coords

/-- `struct Bezier`, bezier.rs 5-11, without the table for the arc length. -/
structure Bezier where
  c1 : Vec
  c2 : Vec
  p2 : Vec

/-- `Bezier::bezier_value`, bezier.rs 35-55. -/
noncomputable def Bezier.bezierValue (b : Bezier) (t : ℝ) : Vec × Vec :=
  let p00 := b.c1 * t
  let p01 := b.c1 + (b.c2 - b.c1) * t
  let p02 := b.c2 + (b.p2 - b.c2) * t
  let p10 := p00 + (p01 - p00) * t
  let p11 := p01 + (p02 - p01) * t
  let p20 := p10 + (p11 - p10) * t
  let d :=
    if t < 1 / 2 then
      if (p11 - p20).length < 1 / 1000000000 then b.c2 else p11 - p20
    else
      if (p20 - p10).length < 1 / 1000000000 then b.p2 - b.c1 else p20 - p10
  (p20, d.unit)

/-- `coefficients_from_control`, bezier.rs 82-88. -/
def coefficientsFromControl (p0 p1 p2 : ℝ) : List ℝ :=
  [3 * p0, 3 * (-2 * p0 + p1), 3 * (p0 - p1) + p2]

/-- `deriv_from_coefficients`, bezier.rs 90-92.  The argument has three elements. -/
def derivFromCoefficients (c0 c1 c2 : ℝ) : List ℝ := [c0, 2 * c1, 3 * c2]

/-- `struct BezierSegment`, bezier_curve.rs 7-11: `c2` is relative to `p2`. -/
@[ext] structure BezierSegment where
  c1 : Vec
  c2 : Vec
  p2 : Vec

/-- `BezierSegment::point`, bezier_curve.rs 27-32. -/
noncomputable def BezierSegment.point (b : BezierSegment) (t : ℝ) : Vec :=
  let t2 := t * t
  let ti := 1 - t
  let ti2 := ti * ti
  b.c1 * (3 * ti2 * t) + (b.p2 + b.c2) * (3 * ti * t2) + b.p2 * (t2 * t)

/-- `BezierSegment::split`, bezier_curve.rs 34-45. -/
noncomputable def BezierSegment.split (b : BezierSegment) (t : ℝ) : BezierSegment × BezierSegment :=
  let p00 := b.c1 * t
  let p01 := b.c1 + (b.p2 + b.c2 - b.c1) * t
  let p02 := b.p2 + b.c2 * (1 - t)
  let p10 := p00 + (p01 - p00) * t
  let p11 := p01 + (p02 - p01) * t
  let p20 := p10 + (p11 - p10) * t
  (⟨p00, p10 - p20, p20⟩, ⟨p11 - p20, p02 - b.p2, b.p2 - p20⟩)

end StepperPaths.Curves
