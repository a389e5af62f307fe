import Verif.Model.Special
import Verif.Spec.RoundedPath

/-!
What a stroke looks like that is drawn with any speed, whatever the limits are.
-/

namespace StepperPaths.Spec
open Coords Curves Context
open Special (Num)
open Draw (coord)

/-- The number of ticks of a stroke: its length divided by the speed, rounded. -/
noncomputable def burnTicks (fl : ℝ → ℝ) (length : ℝ) (v : Num) : ℕ := (Num.div fl (.fin length) v).round.asI32.toNat

/-- The distance between two computed points of a stroke: its length divided by the number of ticks. -/
noncomputable def tickLength (fl : ℝ → ℝ) (length : ℝ) (v : Num) : ℝ :=
  match Num.div fl (.fin length) (Num.div fl (.fin length) v).round with
  | .fin l => l
  | _ => 0

/-- The step that the `k`-th point of a stroke lies in, as computed. -/
noncomputable def burnPlace (fl : ℝ → ℝ) (e : Rounded.Env) (start : Vec) (curve : Curve) (v : Num) (i : Axis) (k : ℕ) : ℤ :=
  Checked.satI64 (Draw.trunc (fl (fl (coord (curve.value (fl (k * tickLength fl curve.length v))).1 i + coord start i) * e.stepScale i)))

/-- A stroke as played: the move is from tick `t` to tick `a`, the stroke from tick `a` to tick `b`. -/
structure AnyStroke (fl : ℝ → ℝ) (e : Rounded.Env) (v : Num) (w : ℤ) (es : List Event) (t a b : ℕ) (start : Vec) (curve : Curve)
    (err : Axis → ℤ) : Prop where
  move : t < a
  len : b = a + burnTicks fl curve.length v
  /-- the laser is off during the move and on during the stroke -/
  off : ∀ w0 τ, t ≤ τ → τ < a → weightAt w0 es τ = 0
  on : ∀ w0 τ, a ≤ τ → τ < b → weightAt w0 es τ = w
  /-- the stroke begins at its start point, up to one half step -/
  begins : ∀ i, |posAt i es a - Draw.round (fl (coord start i * e.stepScale i))| ≤ 1
  /-- and with the speed of the curve, in half steps per tick -/
  dir : ∃ s, v = .fin s ∧
    ∀ i, velAt i es a = Draw.round (fl (fl (coord (curve.value 0).2 i * s) * fl (e.stepScale i / 2)))
  /-- the curve is followed up to the error -/
  follows : ∀ i k, k < burnTicks fl curve.length v → |posAt i es (a + (k + 1)) - burnPlace fl e start curve v i (k + 1)| ≤ err i

/-- Strokes played one after the other, from tick `t` to tick `T`. -/
inductive AnyStrokes (fl : ℝ → ℝ) (e : Rounded.Env) (v : Num) (w : ℤ) (es : List Event) (err : Axis → ℤ) :
    ℕ → List (Vec × Curve) → ℕ → Prop
  | nil (t : ℕ) : AnyStrokes fl e v w es err t [] t
  | cons {t a b T : ℕ} {p : Vec} {k : Curve} {l : List (Vec × Curve)} :
      AnyStroke fl e v w es t a b p k err → AnyStrokes fl e v w es err b l T → AnyStrokes fl e v w es err t ((p, k) :: l) T

/-- The strokes that are not empty, each with the curve that its segments make up. -/
noncomputable def shapes (fl : ℝ → ℝ) (e : Rounded.Env) (l : List (Vec × Concat)) : List (Vec × Curve) :=
  (l.filter fun s => !s.2.isEmpty).map fun s => (s.1, Rounded.concatInfo fl e s.2)

/-- From tick `t` to tick `T` the path is drawn, starting at `p0`: leaving out moves to where the machine is, and closing lines that
are too short, its segments in this order are the strokes that are played, and they are the only ones. -/
def DrawsPath (fl : ℝ → ℝ) (e : Rounded.Env) (v : Num) (w : ℤ) (es : List Event) (err : Axis → ℤ) (t T : ℕ) (p0 : Vec) (path : List Draw.Seg) :
    Prop :=
  ∃ segs n l groups D, Omit (FloatVisited fl e es t T) path segs ∧ FloatIntended e p0 segs n l ∧ groups.flatten = l ∧
    List.Forall₂ (FloatGroup fl e (n * (1 / 1000000 + 1 / 10 ^ 12))) groups (curvesOf D) ∧ AnyStrokes fl e v w es err t (shapes fl e D) T

/-- The path is drawn `n` times, each time starting where the machine is. -/
inductive DrawsTimes (fl : ℝ → ℝ) (e : Rounded.Env) (v : Num) (w : ℤ) (es : List Event) (path : List Draw.Seg) : ℕ → ℕ → ℕ → Prop
  | none (t : ℕ) : DrawsTimes fl e v w es path 0 t t
  | again {n t t1 T : ℕ} {p0 : Vec} {err : Axis → ℤ} :
      (∀ i, coord p0 i = fl (fl (posAt i es t) / e.stepScale i)) → DrawsPath fl e v w es err t t1 p0 path →
      DrawsTimes fl e v w es path n t1 T → DrawsTimes fl e v w es path (n + 1) t T

end StepperPaths.Spec
