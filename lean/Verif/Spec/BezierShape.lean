import Verif.Spec.RoundedArc
import Verif.Props.Bezier

/-!
Bezier curves as curves that are traversed with unit speed, and paths with them in exact arithmetic.
-/

namespace StepperPaths.Spec
open Coords Curves Context Draw SqrtPoly Props

/-- The velocity of a Bezier curve; before its start and after its end it goes straight on. -/
noncomputable def onward (b : Bezier) (t : ℝ) : Vec := velocity b.c1 b.c2 b.p2 (max 0 (min 1 t))

/-- The length from the start of the curve to the parameter `t`, and the point there. -/
noncomputable def onwardLen (b : Bezier) (t : ℝ) : ℝ := ∫ u in (0 : ℝ)..t, (onward b u).length
noncomputable def onwardPt (b : Bezier) (t : ℝ) : Vec :=
  ⟨∫ u in (0 : ℝ)..t, (onward b u).x, ∫ u in (0 : ℝ)..t, (onward b u).y⟩

/-- The parameter at which the length is `s`. -/
noncomputable def onwardParam (b : Bezier) (s : ℝ) : ℝ := Function.invFun (onwardLen b) s

/-- A Bezier curve by its length. -/
noncomputable def bezierShape (b : Bezier) : Shape :=
  ⟨bezierArc b 1, fun s => onwardPt b (onwardParam b s), fun s => (onward b (onwardParam b s)).unit⟩

/-- The acceleration of a Bezier curve. -/
noncomputable def acceleration (c1 c2 p2 : Vec) (t : ℝ) : Vec :=
  ⟨6 * (1 - t) * (c2.x - 2 * c1.x) + 6 * t * (p2.x - 2 * c2.x + c1.x),
   6 * (1 - t) * (c2.y - 2 * c1.y) + 6 * t * (p2.y - 2 * c2.y + c1.y)⟩

/-- The speed of a Bezier curve is at least `6e-9` and at most `U`, its seventh derivative is at most
`M7`, which must not be too large for the table to be sorted, and the curvature is at most `κ`. -/
structure BezierFits (b : Bezier) (U M7 κ : ℝ) : Prop where
  moves : ∀ t, 0 ≤ t → t ≤ 1 → 6 / 1000000000 ≤ (velocity b.c1 b.c2 b.p2 t).length
  fast : ∀ t, 0 ≤ t → t ≤ 1 → (velocity b.c1 b.c2 b.p2 t).length ≤ U
  rough : ∀ t, 0 ≤ t → t ≤ 1 → |iteratedDeriv 7 (fun u => (velocity b.c1 b.c2 b.p2 u).length) t| ≤ M7
  tame : ∀ t, 0 ≤ t → t ≤ 1 → M7 / 10 ^ 7 / 5040 < (velocity b.c1 b.c2 b.p2 t).length
  bends : ∀ t, 0 ≤ t → t ≤ 1 →
    |(velocity b.c1 b.c2 b.p2 t).x * (acceleration b.c1 b.c2 b.p2 t).y -
      (velocity b.c1 b.c2 b.p2 t).y * (acceleration b.c1 b.c2 b.p2 t).x| ≤ κ * (velocity b.c1 b.c2 b.p2 t).length ^ 3

/-- Length and parameter of a Bezier curve come from its table, whatever the binary searches answer. -/
def FromTable (e : Draw.Env) (b : Bezier) : Prop :=
  ∃ segs ans0, b.table = some segs ∧ Found (segs.map (·.start)) 1 ans0 ∧
    Bezier.lengthAt segs ans0 = some (e.bezierLength b) ∧
    ∀ pos, 0 < pos → pos < e.bezierLength b →
      ∃ ans, Found (segs.map (fun s => s.int.getD 0 0)) pos ans ∧ findParamAt segs pos ans = some (e.bezierParam b pos)

/-- So it is for all curves that are not extreme. -/
def Tables (e : Draw.Env) : Prop := ∀ b U M7 κ, BezierFits b U M7 κ → FromTable e b

/-- The Bezier curve that a segment means, as in the SVG standard: the second control point is given
relative to the end. -/
def bezierOf (pos p2 c1 c2 : Vec) : Bezier := ⟨c1, p2 - pos + c2, p2 - pos⟩

/-- What curves and arcs look like. -/
noncomputable def pictures (pos : Vec) : Seg → Shape
  | .curveTo p2 c1 c2 => bezierShape (bezierOf pos p2 c1 c2)
  | .arc r _ a b _ => arcShape r a b
  | _ => lineShape ⟨0, 0⟩

/-- Coordinates of at most `M`. -/
def Bounded (M : ℝ) (p : Vec) : Prop := ∀ i, |coord p i| ≤ M

/-- A path that starts at `pos` (as `FloatPath`, without rounding).  `D` bounds the error of the
lengths of Bezier curves. -/
def ExactPath (scale : Axis → ℝ) (M d D ε κ w : ℝ) (ρ : Axis → ℝ) (P0 : Axis → ℤ) :
    ℝ → List Vec → Vec → List Seg → Prop
  | _, _, _, [] => True
  | B, stops, pos, .goTo p :: segs => Bounded M p ∧ ExactPath scale M d D ε κ w ρ P0 B stops p segs ∧
      (Beside id scale ρ P0 stops p → ExactPath scale M d D ε κ w ρ P0 B stops pos segs)
  | B, stops, pos, .lineTo p :: segs => Bounded M p ∧ d ≤ (p - pos).length ∧ (p - pos).length ≤ B ∧
      ExactPath scale M d D ε κ w ρ P0 (B - (p - pos).length) (p :: stops) p segs
  | B, stops, pos, .closeTo p :: segs => Bounded M p ∧
      ((pos - p).length < 1 / 1000000 - 1 / 10 ^ 12 ∧ ExactPath scale M d D ε κ w ρ P0 B (p :: stops) p segs ∨
       1 / 1000000 + 1 / 10 ^ 12 < (pos - p).length ∧ d ≤ (p - pos).length ∧ (p - pos).length ≤ B ∧
        ExactPath scale M d D ε κ w ρ P0 (B - (p - pos).length) (p :: stops) p segs)
  | B, stops, pos, .curveTo p c1 c2 :: segs => Bounded M p ∧
      (∃ U M7, BezierFits (bezierOf pos p c1 c2) U M7 κ ∧ M7 / 10 ^ 7 / 5040 + U / 2 ^ 52 ≤ D ∧
        κ * (M7 / 10 ^ 7 / 5040 + U / 2 ^ 52) ≤ ε) ∧
      d ≤ bezierArc (bezierOf pos p c1 c2) 1 ∧ bezierArc (bezierOf pos p c1 c2) 1 ≤ B ∧
      ExactPath scale M d D ε κ w ρ P0 (B - bezierArc (bezierOf pos p c1 c2) 1) (p :: stops) p segs
  | B, stops, pos, .arc rx ry a b _ :: segs =>
      (∃ A, ArcFits rx a b A ∧ (31 * A * rx + M) / 2 ^ 52 ≤ D ∧ 13 * A / 2 ^ 52 ≤ ε) ∧
      |rx - ry| ≤ 1 / 2 ^ 52 ∧ w ≤ rx ∧ 1 / rx ≤ κ ∧ Bounded M (placedAt (pos, arcShape rx a b) (rx * |b - a|)) ∧
      d ≤ rx * |b - a| ∧ rx * |b - a| ≤ B ∧
      ExactPath scale M d D ε κ w ρ P0 (B - rx * |b - a|) (placedAt (pos, arcShape rx a b) (rx * |b - a|) :: stops)
        (placedAt (pos, arcShape rx a b) (rx * |b - a|)) segs

/-- No move leads to where the machine was in the beginning or to within `ρ` of a point where a line or
curve ended before (as `Apart`). -/
def ExactApart (scale ρ : Axis → ℝ) (P0 : Axis → ℤ) : List Vec → Vec → List Seg → Prop
  | _, _, [] => True
  | stops, _, .goTo p :: segs => ¬ Beside id scale ρ P0 stops p ∧ ExactApart scale ρ P0 stops p segs
  | stops, _, .lineTo p :: segs => ExactApart scale ρ P0 (p :: stops) p segs
  | stops, _, .closeTo p :: segs => ExactApart scale ρ P0 (p :: stops) p segs
  | stops, _, .curveTo p _ _ :: segs => ExactApart scale ρ P0 (p :: stops) p segs
  | stops, pos, .arc r _ a b _ :: segs => ExactApart scale ρ P0 (placedAt (pos, arcShape r a b) (r * |b - a|) :: stops)
      (placedAt (pos, arcShape r a b) (r * |b - a|)) segs

end StepperPaths.Spec
