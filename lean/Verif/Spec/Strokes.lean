import Verif.Spec.Draw
import Verif.Spec.Controller
import Verif.Spec.Tracking

/-!
What the controller does while a list of strokes is drawn: to each stroke belong a move to its
start and then the stroke itself.
-/

namespace StepperPaths.Spec
open Coords Curves Context Draw

/-- A stroke as played: the move is from tick `t` to tick `a`, the stroke from tick `a` to tick
`b`.  `w` is the weight for curves, `err` the reported error. -/
structure Stroke (e : Env) (v : ℝ) (w : ℤ) (aMax vMax : Axis → ℤ) (es : List Event) (t a b : ℕ)
    (stroke : Vec × Concat) (err : Axis → ℤ) : Prop where
  move : t < a
  len : b = a + approxSteps (e.concatInfo stroke.2) v
  /-- the laser is off during the move and on during the stroke -/
  off : ∀ w0 τ, t ≤ τ → τ < a → weightAt w0 es τ = 0
  on : ∀ w0 τ, a ≤ τ → τ < b → weightAt w0 es τ = w
  /-- the acceleration limit during the move -/
  acc : ∀ i τ, t ≤ τ → τ < a → |accAt i es τ| ≤ aMax i
  /-- the speed limit at all times -/
  vel : ∀ i τ, t ≤ τ → τ < b → |velAt i es (τ + 1)| ≤ vMax i
  /-- the stroke begins at its start point with the speed of the curve -/
  start : ∀ i, |(posAt i es a : ℝ) - coord stroke.1 i * e.stepScale i| ≤ 3 / 2
  dir : ∀ i, |(velAt i es a : ℝ) - coord ((e.concatInfo stroke.2).value 0).2 i * v * e.vScale i| ≤ 1 / 2
  /-- the curve is followed up to the reported error -/
  follows : ∀ i k, k < approxSteps (e.concatInfo stroke.2) v →
    |posAt i es (a + (k + 1)) - trunc (wantPos e stroke.1 (e.concatInfo stroke.2) v i (k + 1))| ≤ err i
  /-- a gentle curve is followed closely -/
  gentle : ∀ i S, Gentle e stroke.1 (e.concatInfo stroke.2) v i (aMax i) (vMax i) S →
    FollowsWithin e stroke.1 (e.concatInfo stroke.2) v i es a S

/-- Strokes played one after the other, from tick `t` to tick `b`. -/
inductive Timeline (e : Env) (v : ℝ) (w : ℤ) (aMax vMax : Axis → ℤ) (es : List Event)
    (err : Axis → ℤ) : ℕ → List (Vec × Concat) → ℕ → Prop
  | nil (t : ℕ) : Timeline e v w aMax vMax es err t [] t
  | cons {t a b T : ℕ} {s : Vec × Concat} {ss : List (Vec × Concat)} :
      Stroke e v w aMax vMax es t a b s err → Timeline e v w aMax vMax es err b ss T →
      Timeline e v w aMax vMax es err t (s :: ss) T

/-- Between tick `t` and tick `T` one of the strokes `ss` is played where the error of axis `i` is the
reported one. -/
def Worst (e : Env) (v : ℝ) (w : ℤ) (aMax vMax : Axis → ℤ) (es : List Event) (err : Axis → ℤ)
    (t : ℕ) (ss : List (Vec × Concat)) (T : ℕ) (i : Axis) : Prop :=
  ∃ t1 a b stroke k, t ≤ t1 ∧ b ≤ T ∧ stroke ∈ ss ∧ Stroke e v w aMax vMax es t1 a b stroke err ∧
    k < approxSteps (e.concatInfo stroke.2) v ∧
    |posAt i es (a + (k + 1)) - trunc (wantPos e stroke.1 (e.concatInfo stroke.2) v i (k + 1))| = err i

end StepperPaths.Spec
