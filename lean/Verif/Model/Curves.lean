import Verif.Model.Coords

/-!
Model of `/repo/src/curve_approx.rs`, `/repo/src/curves/line.rs`,
`/repo/src/curves/circle_segment.rs` and `/repo/src/curves/concat_curve.rs`
in exact arithmetic (see `Verif.Model.Coords`).
-/

namespace StepperPaths.Curves
open Coords

/-- `trait CurveInfo`, curve_approx.rs 3-17: what a `dyn CurveInfo` can be asked. -/
structure Curve where
  length : ℝ
  value : ℝ → Vec × Vec

/-! ### Line -/

/-- `struct Line`, line.rs 4-7. -/
structure Line where
  dir : Vec
  length : ℝ

/-- `Line::new`, line.rs 10-18. -/
noncomputable def Line.new (e : Vec) : Line :=
  let length := e.length
  ⟨if length = 0 then ⟨1, 0⟩ else e.unit, length⟩

/-- `Line::value`, line.rs 26-28. -/
noncomputable def Line.value (l : Line) (pos : ℝ) : Vec × Vec := (l.dir * pos, l.dir)

/-- A `Line` as `dyn CurveInfo`, line.rs 21-29. -/
noncomputable def Line.info (l : Line) : Curve := ⟨l.length, l.value⟩

/-! ### Circle segment -/

/-- `struct CircleSegment`, circle_segment.rs 5-11. -/
structure Circle where
  radius : ℝ
  startAngle : ℝ
  endAngle : ℝ
  center : Vec
  angleScale : ℝ

/-- `CircleSegment::new`, circle_segment.rs 14-33. -/
noncomputable def Circle.new (radius startAngle endAngle : ℝ) : Circle :=
  ⟨radius, startAngle, endAngle,
    ⟨-Real.cos startAngle * radius, -Real.sin startAngle * radius⟩,
    if startAngle ≤ endAngle then 1 / radius else -1 / radius⟩

/-- The adjustment of the end angle, circle_segment.rs 43-55.  (The comments "clockwise" and
"counter-clockwise" are for a y axis pointing down.) -/
noncomputable def Circle.endAngleFor (startDirection center : Vec) (startAngle endAngle : ℝ) : ℝ :=
  if startDirection.diffSign center < 0 then
    if endAngle < startAngle then endAngle + 2 * Real.pi else endAngle
  else
    if endAngle > startAngle then endAngle - 2 * Real.pi else endAngle

/-- `CircleSegment::new_start_direction`, circle_segment.rs 35-70. -/
noncomputable def Circle.newStartDirection (e startDirection : Vec) : Circle :=
  let p0 := e * (1 / 2 : ℝ)
  let p1 := e.rotate90ccw
  let p2 := startDirection.rotate90ccw
  let b := (p1.x * p0.y - p0.x * p1.y) / (p1.x * p2.y - p2.x * p1.y)
  let center := p2 * b
  let radius := center.length
  let startAngle := (-center).angle
  let endAngle := Circle.endAngleFor startDirection center startAngle (e - center).angle
  ⟨radius, startAngle, endAngle, center,
    if startAngle ≤ endAngle then 1 / radius else -1 / radius⟩

/-- `CircleSegment::length`, circle_segment.rs 74-76. -/
noncomputable def Circle.length (c : Circle) : ℝ := c.radius * |c.endAngle - c.startAngle|

/-- `CircleSegment::value`, circle_segment.rs 78-92. -/
noncomputable def Circle.value (c : Circle) (pos : ℝ) : Vec × Vec :=
  let a := pos * c.angleScale + c.startAngle
  let s := Real.sin a
  let k := Real.cos a
  ((⟨k * c.radius, s * c.radius⟩ : Vec) + c.center,
    if c.startAngle ≤ c.endAngle then ⟨-s, k⟩ else ⟨s, -k⟩)

/-- A `CircleSegment` as `dyn CurveInfo`, circle_segment.rs 73-93. -/
noncomputable def Circle.info (c : Circle) : Curve := ⟨c.length, c.value⟩

/-! ### Concatenated curves -/

/-- `struct CurveSegment` of concat_curve.rs 4-8. -/
structure Part where
  endCoord : Vec
  endLen : ℝ
  curve : Curve

/-- `struct ConcatCurve`, concat_curve.rs 20-23. -/
abbrev Concat := List Part

/-- `ConcatCurve::length`, concat_curve.rs 65-71. -/
noncomputable def Concat.totalLength (c : Concat) : ℝ :=
  match c.getLast? with
  | some s => s.endLen
  | none => 0

/-- `ConcatCurve::add`, concat_curve.rs 32-45. -/
noncomputable def Concat.add (c : Concat) (curve : Curve) : Concat :=
  let clen := curve.length
  let endCoord : Vec := match c.getLast? with
    | none => ⟨0, 0⟩
    | some seg => seg.endCoord
  c ++ [⟨(curve.value clen).1 + endCoord, clen + Concat.totalLength c, curve⟩]

/-- The contract of `binary_search_by` on the end lengths, concat_curve.rs 74-77, as
documented by the standard library: `Ok(i)` is any matching index, `Err(i)` is the place
where `pos` could be inserted. -/
def FoundAt (c : Concat) (pos : ℝ) (i : ℕ) : Prop :=
  (∃ s, c[i]? = some s ∧ s.endLen = pos) ∨
  (i ≤ c.length ∧ (∀ j s, j < i → c[j]? = some s → s.endLen < pos) ∧
    ∀ j s, i ≤ j → c[j]? = some s → pos < s.endLen)

/-- `ConcatCurve::value`, concat_curve.rs 73-90, when the binary search answers `i`.
`none` is the panic on an empty list (`self.segments.len() - 1`). -/
noncomputable def Concat.valueAt (c : Concat) (i : ℕ) (pos : ℝ) : Option (Vec × Vec) := do
  if c.length = 0 then none
  let i := min i (c.length - 1)
  let seg ← c[i]?
  if i > 0 then
    let prev ← c[i - 1]?
    let r := seg.curve.value (pos - prev.endLen)
    return (r.1 + prev.endCoord, r.2)
  else
    let r := seg.curve.value (pos - 0)
    return (r.1 + (⟨0, 0⟩ : Vec), r.2)

end StepperPaths.Curves
