import Verif.Model.Rounded
import Verif.Spec.Controller
import Mathlib.Data.Int.Log

/-!
FloatRounding, and what the controller does while curves are drawn whose points are computed with
rounding.
-/

namespace StepperPaths.Spec
open Coords Curves Context Draw

/-- What is used of the rounding of `f64` operations: it changes a value by at most half a unit in
the last of 53 binary digits, or by half of the smallest positive number, it does not change
integers of up to 53 binary digits, and it does not change what is rounded already. -/
structure FloatRounding (fl : ℝ → ℝ) : Prop where
  near : ∀ x, |fl x - x| ≤ 2⁻¹ ^ 53 * |x| + 2⁻¹ ^ 1075
  int : ∀ n : ℤ, |n| ≤ 2 ^ 53 → fl n = n
  idem : ∀ x, fl (fl x) = fl x

/-- To the nearest integer, half to even. -/
noncomputable def nearestEven (y : ℝ) : ℤ :=
  if Int.fract y = 1 / 2 then 2 * ((⌊y⌋ + 1) / 2) else ⌊y + 1 / 2⌋

/-- IEEE 754 rounding to the nearest `f64` (without the overflow to infinity): a multiple of the
unit in the last place, which is `2^(e-52)` for a value of magnitude `2^e`, but at least `2^-1074`. -/
noncomputable def double (x : ℝ) : ℝ :=
  let ulp : ℝ := 2 ^ (max (Int.log 2 |x|) (-1022) - 52)
  nearestEven (x / ulp) * ulp

/-- The position, in steps, that an axis should have after `k` ticks on a curve, as it is computed. -/
noncomputable def floatPos (fl : ℝ → ℝ) (e : Rounded.Env) (start : Vec) (curve : Curve) (v : ℝ) (i : Axis) (k : ℕ) : ℝ :=
  fl (fl (coord (curve.value (fl (k * fl (curve.length / Draw.round (fl (curve.length / v)))))).1 i +
    coord start i) * e.stepScale i)

/-- The speed, in half steps per tick, that it should have then. -/
noncomputable def floatVel (fl : ℝ → ℝ) (e : Rounded.Env) (curve : Curve) (v : ℝ) (i : Axis) (k : ℕ) : ℝ :=
  fl (fl (coord (curve.value (fl (k * fl (curve.length / Draw.round (fl (curve.length / v)))))).2 i * v) *
    fl (e.stepScale i / 2))

/-- The wanted positions `P` and speeds `V` of an axis with the limits `aMax` and `vMax` change slowly
during `n` ticks (as `Gentle`). -/
structure FloatSmooth (P V : ℕ → ℝ) (n : ℕ) (aMax vMax : ℤ) (S : ℝ) : Prop where
  one : 1 ≤ S
  big : S ≤ 10000
  acc : 302 / 100 * S ≤ aMax
  small : ∀ k < n, |P (k + 1)| ≤ 2 ^ 51
  moves : ∀ k < n, |P (k + 1) - P k - 2 * V k| ≤ S / 2
  turns : ∀ k < n, |V (k + 1) - V k| ≤ S / 4
  speed : ∀ k < n, |V (k + 1)| + 215 / 100 * S ≤ vMax

/-- From tick `a` on, the wanted positions and speeds are followed up to a few times `S`. -/
def FloatFollows (P V : ℕ → ℝ) (n : ℕ) (i : Axis) (es : List Event) (a : ℕ) (S : ℝ) : Prop :=
  ∀ k < n,
    |(posAt i es (a + (k + 1)) : ℝ) - P (k + 1)| ≤ 383 / 100 * S ∧
    |(velAt i es (a + (k + 1)) : ℝ) - V (k + 1)| ≤ 215 / 100 * S ∧
    |(accAt i es (a + k) : ℝ)| ≤ 302 / 100 * S

/-- A stroke as played (as `Stroke`): the move is from tick `t` to tick `a`, the stroke from tick `a`
to tick `b`.  `w` is the weight for curves, `err` the reported error. -/
structure FloatStroke (fl : ℝ → ℝ) (e : Rounded.Env) (v : ℝ) (w : ℤ) (aMax vMax : Axis → ℤ) (es : List Event)
    (t a b : ℕ) (stroke : Vec × Concat) (err : Axis → ℤ) : Prop where
  move : t < a
  len : b = a + Rounded.approxSteps fl (Rounded.concatInfo fl e stroke.2) v
  /-- the laser is off during the move and on during the stroke -/
  off : ∀ w0 τ, t ≤ τ → τ < a → weightAt w0 es τ = 0
  on : ∀ w0 τ, a ≤ τ → τ < b → weightAt w0 es τ = w
  /-- the acceleration limit during the move -/
  acc : ∀ i τ, t ≤ τ → τ < a → |accAt i es τ| ≤ aMax i
  /-- the speed limit at all times -/
  vel : ∀ i τ, t ≤ τ → τ < b → |velAt i es (τ + 1)| ≤ vMax i
  /-- the stroke begins at its start point with the speed of the curve -/
  start : ∀ i, |(posAt i es a : ℝ) - fl (coord stroke.1 i * e.stepScale i)| ≤ 3 / 2
  dir : ∀ i, |(velAt i es a : ℝ) - floatVel fl e (Rounded.concatInfo fl e stroke.2) v i 0| ≤ 1 / 2
  /-- the curve is followed up to the reported error -/
  follows : ∀ i k, k < Rounded.approxSteps fl (Rounded.concatInfo fl e stroke.2) v →
    |posAt i es (a + (k + 1)) - trunc (floatPos fl e stroke.1 (Rounded.concatInfo fl e stroke.2) v i (k + 1))| ≤ err i
  /-- a smooth curve is followed closely -/
  smooth : ∀ i S, FloatSmooth (floatPos fl e stroke.1 (Rounded.concatInfo fl e stroke.2) v i)
      (floatVel fl e (Rounded.concatInfo fl e stroke.2) v i)
      (Rounded.approxSteps fl (Rounded.concatInfo fl e stroke.2) v) (aMax i) (vMax i) S →
    floatPos fl e stroke.1 (Rounded.concatInfo fl e stroke.2) v i 0 = fl (coord stroke.1 i * e.stepScale i) →
    FloatFollows (floatPos fl e stroke.1 (Rounded.concatInfo fl e stroke.2) v i)
      (floatVel fl e (Rounded.concatInfo fl e stroke.2) v i)
      (Rounded.approxSteps fl (Rounded.concatInfo fl e stroke.2) v) i es a S

/-- Strokes played one after the other, from tick `t` to tick `b`. -/
inductive FloatTimeline (fl : ℝ → ℝ) (e : Rounded.Env) (v : ℝ) (w : ℤ) (aMax vMax : Axis → ℤ) (es : List Event)
    (err : Axis → ℤ) : ℕ → List (Vec × Concat) → ℕ → Prop
  | nil (t : ℕ) : FloatTimeline fl e v w aMax vMax es err t [] t
  | cons {t a b T : ℕ} {s : Vec × Concat} {ss : List (Vec × Concat)} :
      FloatStroke fl e v w aMax vMax es t a b s err → FloatTimeline fl e v w aMax vMax es err b ss T →
      FloatTimeline fl e v w aMax vMax es err t (s :: ss) T

/-- Between tick `t` and tick `T` one of the strokes `ss` is played where the error of axis `i` is the
reported one. -/
def FloatWorst (fl : ℝ → ℝ) (e : Rounded.Env) (v : ℝ) (w : ℤ) (aMax vMax : Axis → ℤ) (es : List Event)
    (err : Axis → ℤ) (t : ℕ) (ss : List (Vec × Concat)) (T : ℕ) (i : Axis) : Prop :=
  ∃ t1 a b stroke k, t ≤ t1 ∧ b ≤ T ∧ stroke ∈ ss ∧ FloatStroke fl e v w aMax vMax es t1 a b stroke err ∧
    k < Rounded.approxSteps fl (Rounded.concatInfo fl e stroke.2) v ∧
    |posAt i es (a + (k + 1)) - trunc (floatPos fl e stroke.1 (Rounded.concatInfo fl e stroke.2) v i (k + 1))| = err i

/-- Where the path begins, as it is computed from the position of the machine. -/
noncomputable def floatStart (fl : ℝ → ℝ) (e : Rounded.Env) (c : Ctx) : Vec :=
  ⟨fl (fl (c.channels .x).pos / e.stepScale .x), fl (fl (c.channels .y).pos / e.stepScale .y)⟩

/-- A line from `s` to `p`, drawn with the speed `v`, that an axis can follow: not shorter than a
tick, not longer than `2^30` ticks, within `2^31` steps, and slow enough. -/
structure FloatLine (e : Rounded.Env) (s p : Vec) (v S : ℝ) (i : Axis) (aMax vMax : ℤ) : Prop where
  long : 1 / 2 ^ 40 ≤ (p - s).length
  pos : 0 < v
  tick : v ≤ (p - s).length
  ticks : (p - s).length ≤ 2 ^ 30 * v
  scale : 1 / 2 ^ 40 ≤ e.stepScale i
  range : ((p - s).length + |coord s i|) * e.stepScale i ≤ 2 ^ 31
  one : 1 ≤ S
  big : S ≤ 10000
  acc : 302 / 100 * S ≤ aMax
  speed : v * e.stepScale i / 2 + 216 / 100 * S ≤ vMax
  slow : v ^ 2 * e.stepScale i ≤ 2 / 5 * S * (p - s).length

end StepperPaths.Spec
