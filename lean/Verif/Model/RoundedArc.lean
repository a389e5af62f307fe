import Verif.Model.Rounded

/-!
Circle segments (`/repo/src/curves/circle_segment.rs`) with rounding, as in `Model/Rounded.lean`.
`sn` and `cs` are the functions of the mathematical library (`f64::sin_cos`).
-/

namespace StepperPaths.Rounded
open Coords Curves Context Draw

variable (fl sn cs : ℝ → ℝ)

/-- `CircleSegment::new`, circle_segment.rs 14-33.  (A change of sign is not rounded.) -/
noncomputable def circleNew (radius startAngle endAngle : ℝ) : Circle :=
  ⟨radius, startAngle, endAngle,
    ⟨fl (-cs startAngle * radius), fl (-sn startAngle * radius)⟩,
    if startAngle ≤ endAngle then fl (1 / radius) else fl (-1 / radius)⟩

/-- `CircleSegment::length`, circle_segment.rs 74-76. -/
noncomputable def circleLength (c : Circle) : ℝ := fl (c.radius * |fl (c.endAngle - c.startAngle)|)

/-- `CircleSegment::value`, circle_segment.rs 78-92. -/
noncomputable def circleValue (c : Circle) (pos : ℝ) : Vec × Vec :=
  let a := fl (fl (pos * c.angleScale) + c.startAngle)
  let s := sn a
  let k := cs a
  (vadd fl ⟨fl (k * c.radius), fl (s * c.radius)⟩ c.center,
    if c.startAngle ≤ c.endAngle then ⟨-s, k⟩ else ⟨s, -k⟩)

/-- A `CircleSegment` as `dyn CurveInfo`, circle_segment.rs 73-93. -/
noncomputable def circleInfo (c : Circle) : Curve := ⟨circleLength fl c, circleValue fl sn cs c⟩

/-- `curve_segment_to_info` for arcs, stepper_context.rs 116-125; `f64::EPSILON` is `2^-52`. -/
noncomputable def arcInfo (pos : Vec) (rx ry start stop : ℝ) : Option (Curve × Vec) :=
  if |fl (rx - ry)| > 1 / 2 ^ 52 then none
  else
    let c := circleNew fl sn cs rx start stop
    some (circleInfo fl sn cs c, vadd fl pos (circleValue fl sn cs c (circleLength fl c)).1)

end StepperPaths.Rounded
