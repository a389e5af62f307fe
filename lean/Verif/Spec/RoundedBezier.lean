import Verif.Spec.BezierShape
import Verif.Model.RoundedBezier
import Verif.Model.RoundedArc

/-! Bezier curves with rounding: what is assumed of the mathematical library, and of a curve. -/

namespace StepperPaths.Spec
open Coords Curves Context Draw SqrtPoly Props

/-- What is used of `f64::powf`: the relative error is at most one unit in the last place, when the base
is far from the ends of the range and the exponent is small. -/
def FloatPow (pw : ℝ → ℝ → ℝ) : Prop :=
  ∀ x y, 1 / 2 ^ 100 ≤ x → x ≤ 2 ^ 100 → |y| ≤ 8 → |pw x y - x ^ y| ≤ 1 / 2 ^ 52 * x ^ y

/-- The velocity of a Bezier curve as a polynomial of the parameter. -/
def velCoeff (b : Bezier) (i : Axis) : Fin 3 → ℝ :=
  ![3 * coord b.c1 i, 6 * (coord b.c2 i - 2 * coord b.c1 i), 3 * (3 * (coord b.c1 i - coord b.c2 i) + coord b.p2 i)]

/-- The square of the speed, if the velocity had the coefficients `a`. -/
noncomputable def spread (a : Axis → Fin 3 → ℝ) (t : ℝ) : ℝ :=
  (a .x 0 + a .x 1 * t + a .x 2 * t ^ 2) ^ 2 + (a .y 0 + a .y 1 * t + a .y 2 * t ^ 2) ^ 2

/-- The number of roundings that matter for a number in the table of a curve. -/
def tableOps (k q : ℕ) : ℕ := 132 * k * q + 440 * q + 72 * k + 2500

/-- What they change in the lengths of the table. -/
noncomputable def tableError (k q : ℕ) (U r : ℝ) : ℝ :=
  8 * tableOps k q / 2 ^ 52 * (U * ∑ n ∈ Finset.range 7, (42 / (125 * r)) ^ n)

/-- What is required of a Bezier curve besides `BezierFits`.  Its control points have coordinates of at
most `R`, and its speed is at least `V`.  The coefficients of its velocity are bounded by `a`.  The
square of the speed is not much smaller than its terms are: at most by the factor `q`.  The coefficients
are not much smaller than the terms they are computed from: at most by the factor `k`.  The terms grow
slowly: when the parameter grows by `r`, by at most the square of the speed. -/
structure BezierRounds (b : Bezier) (U V M7 R r : ℝ) (a : Axis → Fin 3 → ℝ) (k q : ℕ) : Prop where
  size : 1 / 2 ^ 20 ≤ R
  c1 : ∀ i, |coord b.c1 i| ≤ R
  c2 : ∀ i, |coord b.c2 i| ≤ R
  p2 : ∀ i, |coord b.p2 i| ≤ R
  coeff : ∀ i j, |velCoeff b i j| ≤ a i j
  tiny : ∀ i j, 1 / 2 ^ 20 ≤ a i j
  terms : ∀ i j, 39 * R ≤ k * a i j
  speed : ∀ t, 0 ≤ t → t ≤ 1 → V ≤ (velocity b.c1 b.c2 b.p2 t).length
  slow : 8 / 1000000000 + R / 2 ^ 33 ≤ V
  huge : U ≤ 2 ^ 30
  pos : 0 < r
  wide : ∀ t, 0 ≤ t → t ≤ 1 → spread a t ≤ q * (velocity b.c1 b.c2 b.p2 t).length ^ 2
  steep : ∀ t, 0 ≤ t → t ≤ 1 → spread a (t + r) - spread a t ≤ (velocity b.c1 b.c2 b.p2 t).length ^ 2
  few : tableOps k q ≤ 2 ^ 50
  tame : 40 * (tableError k q U r + M7 / 10 ^ 7 / 5040) < V

/-- Length and parameter of a Bezier curve come from its table, whatever the binary searches answer (as
`FromTable`). -/
def FloatTable (fl : ℝ → ℝ) (pw : ℝ → ℝ → ℝ) (b : Bezier) (len : ℝ) (param : ℝ → ℝ) : Prop :=
  ∃ segs ans0, Rounded.tableF fl pw b = some segs ∧ Found (segs.map (·.start)) 1 ans0 ∧
    Rounded.evalIntF fl segs 1 ans0 = some len ∧
    ∀ pos, 0 < pos → pos < len →
      ∃ ans, Found (segs.map (fun s => s.int.getD 0 0)) pos ans ∧ Rounded.findParamF fl segs pos ans = some (param pos)

/-- What table, search and rounding change in length and points of a curve, and in its directions. -/
noncomputable def curveError (k q : ℕ) (U M7 r : ℝ) : ℝ := tableError k q U r + M7 / 10 ^ 7 / 5040 + U / 2 ^ 46

/-- A curve that is not extreme. -/
def Tractable (b : Bezier) : Prop :=
  ∃ U V M7 κ R r a k q, BezierFits b U M7 κ ∧ BezierRounds b U V M7 R r a k q

/-- Arcs and Bezier curves are computed as by the program. -/
structure FloatCurves (fl : ℝ → ℝ) (pw : ℝ → ℝ → ℝ) (sn cs : ℝ → ℝ) (e : Rounded.Env) : Prop where
  arc : ∀ pos rx ry a b rot, e.other pos (.arc rx ry a b rot) = Rounded.arcInfo fl sn cs pos rx ry a b
  bezier : ∀ pos p c1 c2, Tractable (bezierOf pos p c1 c2) → ∃ len param,
    FloatTable fl pw (Rounded.bezierOfF fl pos p c1 c2) len param ∧
    e.other pos (.curveTo p c1 c2) = some (Rounded.bezierInfoF fl (Rounded.bezierOfF fl pos p c1 c2) len param, p)

/-- A path of lines, arcs and Bezier curves that starts at `pos` (as `FloatPath`, but what is required
does not refer to what is computed for the curves). -/
def TractablePath (fl : ℝ → ℝ) (scale : Axis → ℝ) (M d D ε κ w : ℝ) (ρ : Axis → ℝ) (P0 : Axis → ℤ) :
    ℝ → List Vec → Vec → List Seg → Prop
  | _, _, _, [] => True
  | B, stops, pos, .goTo p :: segs => FloatPoint fl M p ∧ TractablePath fl scale M d D ε κ w ρ P0 B stops p segs ∧
      (Beside fl scale ρ P0 stops p → TractablePath fl scale M d D ε κ w ρ P0 B stops pos segs)
  | B, stops, pos, .lineTo p :: segs => FloatPoint fl M p ∧ d ≤ (p - pos).length ∧ (p - pos).length ≤ B ∧
      TractablePath fl scale M d D ε κ w ρ P0 (B - (p - pos).length) (p :: stops) p segs
  | B, stops, pos, .closeTo p :: segs => FloatPoint fl M p ∧
      ((pos - p).length < 1 / 1000000 - 1 / 10 ^ 12 ∧ TractablePath fl scale M d D ε κ w ρ P0 B (p :: stops) p segs ∨
       1 / 1000000 + 1 / 10 ^ 12 < (pos - p).length ∧ d ≤ (p - pos).length ∧ (p - pos).length ≤ B ∧
        TractablePath fl scale M d D ε κ w ρ P0 (B - (p - pos).length) (p :: stops) p segs)
  | B, stops, pos, .curveTo p c1 c2 :: segs => FloatPoint fl M p ∧
      (∃ U V M7 R r a k q, BezierFits (bezierOf pos p c1 c2) U M7 κ ∧ BezierRounds (bezierOf pos p c1 c2) U V M7 R r a k q ∧
        curveError k q U M7 r + 13000 * R / 2 ^ 52 ≤ D ∧ κ * curveError k q U M7 r + R / (V * 2 ^ 32) ≤ ε) ∧
      d ≤ bezierArc (bezierOf pos p c1 c2) 1 ∧ bezierArc (bezierOf pos p c1 c2) 1 ≤ B ∧
      TractablePath fl scale M d D ε κ w ρ P0 (B - bezierArc (bezierOf pos p c1 c2) 1) (p :: stops) p segs
  | B, stops, pos, .arc rx ry a b _ :: segs =>
      (∃ A, ArcFits rx a b A ∧ (31 * A * rx + M) / 2 ^ 52 ≤ D ∧ 13 * A / 2 ^ 52 ≤ ε) ∧ fl a = a ∧
      |fl (rx - ry)| ≤ 1 / 2 ^ 52 ∧ w ≤ rx ∧ 1 / rx ≤ κ ∧ (∀ i, |coord pos i| ≤ M) ∧
      (∀ i, |coord (placedAt (pos, arcShape rx a b) (rx * |b - a|)) i| + D ≤ M) ∧
      d ≤ rx * |b - a| ∧ rx * |b - a| ≤ B ∧
      ∀ p, FloatPoint fl M p → (∀ i, |coord (placedAt (pos, arcShape rx a b) (rx * |b - a|)) i - coord p i| ≤ D) →
        TractablePath fl scale M d D ε κ w ρ P0 (B - rx * |b - a|) (p :: stops) p segs

/-- No move leads to where the machine was in the beginning or to within `ρ` of a point where a line or
curve ended before (as `Apart`, but where arcs end is known only up to `D`). -/
def TractableApart (fl : ℝ → ℝ) (scale : Axis → ℝ) (D : ℝ) (ρ : Axis → ℝ) (P0 : Axis → ℤ) : List Vec → Vec → List Seg → Prop
  | _, _, [] => True
  | stops, _, .goTo p :: segs => ¬ Beside fl scale ρ P0 stops p ∧ TractableApart fl scale D ρ P0 stops p segs
  | stops, _, .lineTo p :: segs => TractableApart fl scale D ρ P0 (p :: stops) p segs
  | stops, _, .closeTo p :: segs => TractableApart fl scale D ρ P0 (p :: stops) p segs
  | stops, _, .curveTo p _ _ :: segs => TractableApart fl scale D ρ P0 (p :: stops) p segs
  | stops, pos, .arc r _ a b _ :: segs =>
      ∀ p, (∀ i, |coord (placedAt (pos, arcShape r a b) (r * |b - a|)) i - coord p i| ≤ D) →
        TractableApart fl scale D ρ P0 (p :: stops) p segs

end StepperPaths.Spec
