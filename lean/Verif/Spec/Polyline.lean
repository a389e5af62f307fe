import Verif.Spec.RoundedPath

/-!
Paths of lines, and what it means that they are played.
-/

namespace StepperPaths.Spec
open Coords Curves Context Draw

/-- The length of lines, each given by its two ends. -/
noncomputable def linesLen (l : List (Vec × Vec)) : ℝ := (l.map (fun x => (x.2 - x.1).length)).sum

/-- The point that divides a line as `s` divides its length. -/
noncomputable def lineAt (x : Vec × Vec) (s : ℝ) : Vec :=
  ⟨x.1.x + (x.2.x - x.1.x) * (s / (x.2 - x.1).length), x.1.y + (x.2.y - x.1.y) * (s / (x.2 - x.1).length)⟩

open Classical in
/-- The point at the length `s` along lines that are traversed one after the other. -/
noncomputable def alongAt : List (Vec × Vec) → ℝ → Vec
  | [], _ => ⟨0, 0⟩
  | [x], s => lineAt x s
  | x :: y :: l, s =>
    if s ≤ (x.2 - x.1).length then lineAt x s else alongAt (y :: l) (s - (x.2 - x.1).length)

/-- The line that a segment means. -/
def lineOf (a : Vec × Seg) : Vec × Vec :=
  (a.1, match a.2 with
    | .lineTo p | .closeTo p | .goTo p => p
    | _ => a.1)

/-- A point whose coordinates are `f64` values of at most `M`. -/
def FloatPoint (fl : ℝ → ℝ) (M : ℝ) (p : Vec) : Prop := ∀ i, |coord p i| ≤ M ∧ fl (coord p i) = coord p i

/-- A path of lines that starts at `pos`: each line is at least `d` long, except for closing lines
that are too short to be drawn, and all lines together are at most `B` long.  This must also hold
when moves are left out. -/
def FloatLines (fl : ℝ → ℝ) (M d : ℝ) : ℝ → Vec → List Seg → Prop
  | _, _, [] => True
  | B, pos, .goTo p :: segs => FloatPoint fl M p ∧ FloatLines fl M d B p segs ∧ FloatLines fl M d B pos segs
  | B, pos, .lineTo p :: segs => FloatPoint fl M p ∧ d ≤ (p - pos).length ∧ (p - pos).length ≤ B ∧
      FloatLines fl M d (B - (p - pos).length) p segs
  | B, pos, .closeTo p :: segs => FloatPoint fl M p ∧
      ((pos - p).length < 1 / 1000000 - 1 / 10 ^ 12 ∧ FloatLines fl M d B p segs ∨
       1 / 1000000 + 1 / 10 ^ 12 < (pos - p).length ∧ d ≤ (p - pos).length ∧ (p - pos).length ≤ B ∧
        FloatLines fl M d (B - (p - pos).length) p segs)
  | _, _, _ => False

/-- What machine and speed can do for a path of at most `N` lines, each at least `m` ticks long, of
the total length and within `M`. -/
structure FloatLimits (e : Rounded.Env) (aMax vMax : Axis → ℤ) (v S M : ℝ) (N m : ℕ) : Prop where
  two : 2 ≤ m
  tiny : 1 / 2 ^ 40 ≤ v
  ticks : M ≤ 2 ^ 29 * v
  fine : N * M ≤ 2 ^ 39 * v
  scale : ∀ i, 1 / 2 ^ 40 ≤ e.stepScale i
  range : ∀ i, N * M * e.stepScale i ≤ 2 ^ 39
  one : 1 ≤ S
  big : S ≤ 10000
  acc : ∀ i, 302 / 100 * S ≤ aMax i
  speed : ∀ i, v * e.stepScale i / 2 + 216 / 100 * S ≤ vMax i
  slow : ∀ i, v * e.stepScale i * (88 / 1000 + 11 / (20 * m)) ≤ 46 / 100 * S
  reach : ∀ i, 3 * M * e.stepScale i + 5 * S + 5 ≤ vMax i * 65535

/-- The binary search in `ConcatCurve::value` does what the standard library says: with increasing
end lengths it finds the place. -/
def Searches (e : Rounded.Env) : Prop :=
  ∀ K : Concat, List.IsChain (fun a b => a.endLen < b.endLen) K → ∀ pos, FoundAt K pos (e.find K pos)

/-- Lines played as one stroke: a move from tick `t` to tick `a`, then the lines until tick `b`. -/
structure FloatRun (e : Rounded.Env) (v S r : ℝ) (w : ℤ) (aMax vMax : Axis → ℤ) (es : List Event) (t a b : ℕ)
    (l : List (Vec × Vec)) : Prop where
  ne : l ≠ []
  /-- no line is shorter than two ticks -/
  long : ∀ x ∈ l, 2 * v ≤ (x.2 - x.1).length
  move : t < a
  some : a < b
  /-- it takes as long as the speed says -/
  len : |((b : ℝ) - a) - linesLen l / v| ≤ 51 / 100
  /-- the laser is off during the move and on during the stroke -/
  off : ∀ w0 τ, t ≤ τ → τ < a → weightAt w0 es τ = 0
  on : ∀ w0 τ, a ≤ τ → τ < b → weightAt w0 es τ = w
  /-- the limits -/
  acc : ∀ i τ, t ≤ τ → τ < b → |accAt i es τ| ≤ aMax i
  vel : ∀ i τ, t ≤ τ → τ < b → |velAt i es (τ + 1)| ≤ vMax i
  /-- at each time the machine is close to the point that divides the lines as the time is divided -/
  follows : ∀ i, ∀ k ≤ b - a,
    |(posAt i es (a + k) : ℝ) - coord (alongAt l (linesLen l * (k / (b - a)))) i * e.stepScale i| ≤
      386 / 100 * S + r * e.stepScale i

/-- Lines played one after the other, from tick `t` to tick `T`. -/
inductive FloatRuns (e : Rounded.Env) (v S r : ℝ) (w : ℤ) (aMax vMax : Axis → ℤ) (es : List Event) :
    ℕ → List (List (Vec × Vec)) → ℕ → Prop
  | nil (t : ℕ) : FloatRuns e v S r w aMax vMax es t [] t
  | cons {t a b T : ℕ} {l : List (Vec × Vec)} {ls : List (List (Vec × Vec))} :
      FloatRun e v S r w aMax vMax es t a b l → FloatRuns e v S r w aMax vMax es b ls T →
      FloatRuns e v S r w aMax vMax es t (l :: ls) T

/-- While the laser is on, between the ticks `t` and `t'`, the machine is within `d i` steps of a point
of one of the lines. -/
def FloatOnly (e : Rounded.Env) (w : ℤ) (es : List Event) (t t' : ℕ) (lines : List (Vec × Vec)) (d : Axis → ℝ) : Prop :=
  ∀ w0 τ, t ≤ τ → τ < t' → weightAt w0 es τ = w → ∃ x ∈ lines, ∃ s, 0 ≤ s ∧ s ≤ (x.2 - x.1).length ∧
    ∀ i, |(posAt i es τ : ℝ) - coord (lineAt x s) i * e.stepScale i| ≤ d i

/-- At the beginning or end of a tick where the laser is on, between the ticks `t` and `t'`, the
machine is within `d i` steps of any point of the lines. -/
def FloatAll (e : Rounded.Env) (w : ℤ) (es : List Event) (t t' : ℕ) (lines : List (Vec × Vec)) (d : Axis → ℝ) : Prop :=
  ∀ x ∈ lines, ∀ s, 0 ≤ s → s ≤ (x.2 - x.1).length → ∃ τ, t ≤ τ ∧ τ < t' ∧ (∀ w0, weightAt w0 es τ = w) ∧
    ∃ τ', (τ' = τ ∨ τ' = τ + 1) ∧ ∀ i, |(posAt i es τ' : ℝ) - coord (lineAt x s) i * e.stepScale i| ≤ d i

end StepperPaths.Spec
