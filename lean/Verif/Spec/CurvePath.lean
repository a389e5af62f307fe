import Verif.Spec.Polyline
import Mathlib.Analysis.Calculus.Deriv.Basic

/-!
Paths of lines and curves, and what it means that they are played.
-/

namespace StepperPaths.Spec
open Coords Curves Context Draw

/-- A curve that is traversed with unit speed: its length, the point at a length, relative to the
start, and the direction there.  Point and direction go on beyond the ends. -/
structure Shape where
  len : ℝ
  pt : ℝ → Vec
  dir : ℝ → Vec

/-- The direction is the derivative of the point, and turns by at most `κ` per length. -/
structure Shape.Smooth (c : Shape) (κ : ℝ) : Prop where
  origin : c.pt 0 = ⟨0, 0⟩
  moves : ∀ i s, HasDerivAt (fun s => coord (c.pt s) i) (coord (c.dir s) i) s
  unit : ∀ s, (c.dir s).x ^ 2 + (c.dir s).y ^ 2 = 1
  bends : ∀ i s s', |coord (c.dir s) i - coord (c.dir s') i| ≤ κ * |s - s'|

/-- How far `s` is beyond the ends of a curve. -/
noncomputable def beyond (len s : ℝ) : ℝ := max 0 (max (-s) (s - len))

/-- The points that are computed for a curve are off by at most `D`, the directions by at most `ε`.
Up to `w` beyond its ends the computed point may stay at the end. -/
structure Near (k : Curve) (c : Shape) (D ε w : ℝ) : Prop where
  len : |k.length - c.len| ≤ D
  start : (k.value 0).1 = ⟨0, 0⟩
  pt : ∀ s, -w ≤ s → s ≤ c.len + w → ∀ i, |coord (k.value s).1 i - coord (c.pt s) i| ≤ D + beyond c.len s
  dir : ∀ s, -w ≤ s → s ≤ c.len + w → ∀ i, |coord (k.value s).2 i - coord (c.dir s) i| ≤ ε

/-- A line. -/
noncomputable def lineShape (d : Vec) : Shape :=
  ⟨d.length, fun s => ⟨d.x / d.length * s, d.y / d.length * s⟩, fun _ => ⟨d.x / d.length, d.y / d.length⟩⟩

/-- The shape of a segment that starts at a point; `pic` says what curves and arcs look like. -/
noncomputable def shapeOf (pic : Vec → Seg → Shape) (a : Vec × Seg) : Vec × Shape :=
  (a.1, match a.2 with
    | .lineTo p | .closeTo p => lineShape (p - a.1)
    | seg => pic a.1 seg)

/-- Where a move may be left out: `p` is where the machine was in the beginning, `P0`, as computed, or
within `ρ i` steps of one of the points. -/
def Beside (fl : ℝ → ℝ) (scale ρ : Axis → ℝ) (P0 : Axis → ℤ) (stops : List Vec) (p : Vec) : Prop :=
  (∀ i, Draw.round (fl (coord p i * scale i)) = P0 i) ∨ ∃ q ∈ stops, ∀ i, |coord p i - coord q i| * scale i ≤ ρ i

/-- A path that starts at `pos`: each line or curve is at least `d` long, except for closing lines
that are too short to be drawn, and all together are at most `B` long.  Curves turn by at most `κ` per
length, and are computed up to `D` and `ε`.  `stops` are the points where lines and curves ended so
far.  A move to such a point, or to where the machine was in the beginning, may be left out; then this
must also hold without it. -/
def FloatPath (fl : ℝ → ℝ) (e : Rounded.Env) (pic : Vec → Seg → Shape) (M d D ε κ w : ℝ) (ρ : Axis → ℝ) (P0 : Axis → ℤ) :
    ℝ → List Vec → Vec → List Seg → Prop
  | _, _, _, [] => True
  | B, stops, pos, .goTo p :: segs => FloatPoint fl M p ∧ FloatPath fl e pic M d D ε κ w ρ P0 B stops p segs ∧
      (Beside fl e.stepScale ρ P0 stops p → FloatPath fl e pic M d D ε κ w ρ P0 B stops pos segs)
  | B, stops, pos, .lineTo p :: segs => FloatPoint fl M p ∧ d ≤ (p - pos).length ∧ (p - pos).length ≤ B ∧
      FloatPath fl e pic M d D ε κ w ρ P0 (B - (p - pos).length) (p :: stops) p segs
  | B, stops, pos, .closeTo p :: segs => FloatPoint fl M p ∧
      ((pos - p).length < 1 / 1000000 - 1 / 10 ^ 12 ∧ FloatPath fl e pic M d D ε κ w ρ P0 B (p :: stops) p segs ∨
       1 / 1000000 + 1 / 10 ^ 12 < (pos - p).length ∧ d ≤ (p - pos).length ∧ (p - pos).length ≤ B ∧
        FloatPath fl e pic M d D ε κ w ρ P0 (B - (p - pos).length) (p :: stops) p segs)
  | B, stops, pos, seg :: segs => ∃ k p, e.other pos seg = some (k, p) ∧ FloatPoint fl M p ∧ (pic pos seg).Smooth κ ∧
      Near k (pic pos seg) D ε w ∧
      (∀ i, |coord pos i + coord ((pic pos seg).pt (pic pos seg).len) i - coord p i| ≤ D) ∧
      d ≤ (pic pos seg).len ∧ (pic pos seg).len ≤ B ∧
      FloatPath fl e pic M d D ε κ w ρ P0 (B - (pic pos seg).len) (p :: stops) p segs

/-- `segs'` is `segs` without some of the moves to where the machine was in the beginning or to within `ρ`
of where a line or curve ended before. -/
inductive Dropped (fl : ℝ → ℝ) (e : Rounded.Env) (ρ : Axis → ℝ) (P0 : Axis → ℤ) : List Vec → Vec → List Seg → List Seg → Prop
  | nil (stops : List Vec) (pos : Vec) : Dropped fl e ρ P0 stops pos [] []
  | move {stops : List Vec} {pos p : Vec} {segs segs' : List Seg} :
      Dropped fl e ρ P0 stops p segs segs' → Dropped fl e ρ P0 stops pos (.goTo p :: segs) (.goTo p :: segs')
  | skip {stops : List Vec} {pos p : Vec} {segs segs' : List Seg} : Beside fl e.stepScale ρ P0 stops p →
      Dropped fl e ρ P0 stops pos segs segs' → Dropped fl e ρ P0 stops pos (.goTo p :: segs) segs'
  | draw {stops : List Vec} {pos q : Vec} {seg : Seg} {segs segs' : List Seg} : (∀ p, seg ≠ .goTo p) → FloatEnd e pos seg q →
      Dropped fl e ρ P0 (q :: stops) q segs segs' → Dropped fl e ρ P0 stops pos (seg :: segs) (seg :: segs')

/-- There are no such moves. -/
def Apart (fl : ℝ → ℝ) (e : Rounded.Env) (ρ : Axis → ℝ) (P0 : Axis → ℤ) : List Vec → Vec → List Seg → Prop
  | _, _, [] => True
  | stops, _, .goTo p :: segs => ¬ Beside fl e.stepScale ρ P0 stops p ∧ Apart fl e ρ P0 stops p segs
  | stops, pos, seg :: segs => ∀ q, FloatEnd e pos seg q → Apart fl e ρ P0 (q :: stops) q segs

/-- Where the lines and curves of a path end. -/
def endsOf (e : Rounded.Env) : Vec → List Seg → List Vec
  | _, [] => []
  | _, .goTo p :: segs => endsOf e p segs
  | _, .lineTo p :: segs => p :: endsOf e p segs
  | _, .closeTo p :: segs => p :: endsOf e p segs
  | pos, seg :: segs => match e.other pos seg with
    | some (_, p) => p :: endsOf e p segs
    | none => []

/-- What machine and speed can do for a path of at most `N` lines and curves, each at least `m` ticks
long, of the total length and within `M`, when curves turn by at most `κ` per length and are computed
up to `D`, and directions up to `ε`. -/
structure CurveLimits (e : Rounded.Env) (aMax vMax : Axis → ℤ) (v S M D ε κ : ℝ) (N m : ℕ) : Prop where
  two : 2 ≤ m
  tiny : 1 / 2 ^ 40 ≤ v
  ticks : M ≤ 2 ^ 29 * v
  tol : 64 * M / 2 ^ 52 ≤ D
  fine : N * D ≤ v / 1024
  dirs : 13 / 2 ^ 52 ≤ ε
  dirs' : ε ≤ 1 / 1000000
  bend : 0 ≤ κ
  bend' : κ * v ≤ 1 / 8
  scale : ∀ i, 1 / 2 ^ 40 ≤ e.stepScale i
  range : ∀ i, M * e.stepScale i ≤ 2 ^ 39
  steps : ∀ i, N * D * e.stepScale i ≤ 1 / 1024
  turn : ∀ i, ε * v * e.stepScale i ≤ 1 / 2 ^ 16
  one : 1 ≤ S
  big : S ≤ 10000
  acc : ∀ i, 302 / 100 * S ≤ aMax i
  speed : ∀ i, v * e.stepScale i / 2 + 216 / 100 * S ≤ vMax i
  slow : ∀ i, v * e.stepScale i * (89 / 1000 + 11 / (20 * m) + 5 * (κ * v)) ≤ 46 / 100 * S
  reach : ∀ i, 3 * M * e.stepScale i + 5 * S + 5 ≤ vMax i * 65535

/-- A point of a curve that starts somewhere. -/
def placedAt (x : Vec × Shape) (s : ℝ) : Vec := x.1 + x.2.pt s

/-- The length of lines and curves. -/
noncomputable def pathLen (l : List (Vec × Shape)) : ℝ := (l.map (fun x => x.2.len)).sum

open Classical in
/-- The point at the length `s` along lines and curves that are traversed one after the other. -/
noncomputable def pathAt : List (Vec × Shape) → ℝ → Vec
  | [], _ => ⟨0, 0⟩
  | [x], s => placedAt x s
  | x :: y :: l, s => if s ≤ x.2.len then placedAt x s else pathAt (y :: l) (s - x.2.len)

/-- Lines and curves played as one stroke: a move from tick `t` to tick `a`, then the stroke until
tick `b` (as `FloatRun`). -/
structure CurveRun (e : Rounded.Env) (v S r : ℝ) (w : ℤ) (aMax vMax : Axis → ℤ) (es : List Event) (t a b : ℕ)
    (l : List (Vec × Shape)) : Prop where
  ne : l ≠ []
  /-- nothing is shorter than two ticks -/
  long : ∀ x ∈ l, 2 * v ≤ x.2.len
  /-- the speed along each is one -/
  smooth : ∀ x ∈ l, ∃ κ, x.2.Smooth κ
  move : t < a
  some : a < b
  /-- it takes as long as the speed says -/
  len : |((b : ℝ) - a) - pathLen l / v| ≤ 51 / 100
  /-- the laser is off during the move and on during the stroke -/
  off : ∀ w0 τ, t ≤ τ → τ < a → weightAt w0 es τ = 0
  on : ∀ w0 τ, a ≤ τ → τ < b → weightAt w0 es τ = w
  /-- the limits -/
  acc : ∀ i τ, t ≤ τ → τ < b → |accAt i es τ| ≤ aMax i
  vel : ∀ i τ, t ≤ τ → τ < b → |velAt i es (τ + 1)| ≤ vMax i
  /-- at each time the machine is close to the point that divides the path as the time is divided -/
  follows : ∀ i, ∀ k ≤ b - a,
    |(posAt i es (a + k) : ℝ) - coord (pathAt l (pathLen l * (k / (b - a)))) i * e.stepScale i| ≤
      386 / 100 * S + r * e.stepScale i

/-- Strokes played one after the other, from tick `t` to tick `T`. -/
inductive CurveRuns (e : Rounded.Env) (v S r : ℝ) (w : ℤ) (aMax vMax : Axis → ℤ) (es : List Event) :
    ℕ → List (List (Vec × Shape)) → ℕ → Prop
  | nil (t : ℕ) : CurveRuns e v S r w aMax vMax es t [] t
  | cons {t a b T : ℕ} {l : List (Vec × Shape)} {ls : List (List (Vec × Shape))} :
      CurveRun e v S r w aMax vMax es t a b l → CurveRuns e v S r w aMax vMax es b ls T →
      CurveRuns e v S r w aMax vMax es t (l :: ls) T

/-- While the laser is on, between the ticks `t` and `t'`, the machine is within `d i` steps of a point
of one of the lines and curves. -/
def CurveOnly (e : Rounded.Env) (w : ℤ) (es : List Event) (t t' : ℕ) (l : List (Vec × Shape)) (d : Axis → ℝ) : Prop :=
  ∀ w0 τ, t ≤ τ → τ < t' → weightAt w0 es τ = w → ∃ x ∈ l, ∃ s, 0 ≤ s ∧ s ≤ x.2.len ∧
    ∀ i, |(posAt i es τ : ℝ) - coord (placedAt x s) i * e.stepScale i| ≤ d i

/-- At the beginning or end of a tick where the laser is on, between the ticks `t` and `t'`, the
machine is within `d i` steps of any point of the lines and curves. -/
def CurveAll (e : Rounded.Env) (w : ℤ) (es : List Event) (t t' : ℕ) (l : List (Vec × Shape)) (d : Axis → ℝ) : Prop :=
  ∀ x ∈ l, ∀ s, 0 ≤ s → s ≤ x.2.len → ∃ τ, t ≤ τ ∧ τ < t' ∧ (∀ w0, weightAt w0 es τ = w) ∧
    ∃ τ', (τ' = τ ∨ τ' = τ + 1) ∧ ∀ i, |(posAt i es τ' : ℝ) - coord (placedAt x s) i * e.stepScale i| ≤ d i

end StepperPaths.Spec
