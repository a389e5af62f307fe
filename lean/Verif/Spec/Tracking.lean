import Verif.Model.Draw
import Verif.Spec.Controller

/-!
Where an axis should be while a curve is followed, and when a curve is easy to follow.
-/

namespace StepperPaths.Spec
open Coords Curves Context Draw

/-- The position, in steps, that an axis should have after `k` ticks on a curve that is drawn from
`start` at speed `v`. -/
noncomputable def wantPos (e : Env) (start : Vec) (curve : Curve) (v : ℝ) (i : Axis) (k : ℕ) : ℝ :=
  (coord start i + coord (curve.value (k * (curve.length / Draw.round (curve.length / v)))).1 i) * e.stepScale i

/-- The speed, in half steps per tick, that it should have then. -/
noncomputable def wantVel (e : Env) (curve : Curve) (v : ℝ) (i : Axis) (k : ℕ) : ℝ :=
  coord (curve.value (k * (curve.length / Draw.round (curve.length / v)))).2 i * v * e.vScale i

/-- For an axis with the limits `aMax` and `vMax` the curve is gentle, with size `S`: the wanted
speed changes by at most `S/4` from tick to tick, the wanted position moves with the wanted speed up
to `S/2`, and there is a margin to the limits. -/
structure Gentle (e : Env) (start : Vec) (curve : Curve) (v : ℝ) (i : Axis) (aMax vMax : ℤ) (S : ℝ) : Prop where
  one : 1 ≤ S
  big : S ≤ 10000
  acc : 301 / 100 * S ≤ aMax
  zero : coord (curve.value 0).1 i = 0
  moves : ∀ k < approxSteps curve v,
    |wantPos e start curve v i (k + 1) - wantPos e start curve v i k - 2 * wantVel e curve v i k| ≤ S / 2
  turns : ∀ k < approxSteps curve v, |wantVel e curve v i (k + 1) - wantVel e curve v i k| ≤ S / 4
  speed : ∀ k < approxSteps curve v, |wantVel e curve v i (k + 1)| + 214 / 100 * S ≤ vMax

/-- From tick `a` on, the curve is followed up to a few times `S`. -/
def FollowsWithin (e : Env) (start : Vec) (curve : Curve) (v : ℝ) (i : Axis) (es : List Event) (a : ℕ) (S : ℝ) :
    Prop :=
  ∀ k < approxSteps curve v,
    |(posAt i es (a + (k + 1)) : ℝ) - wantPos e start curve v i (k + 1)| ≤ 382 / 100 * S ∧
    |(velAt i es (a + (k + 1)) : ℝ) - wantVel e curve v i (k + 1)| ≤ 214 / 100 * S ∧
    |(accAt i es (a + k) : ℝ)| ≤ 301 / 100 * S

/-- A curve, parametrized by its length, that bends by at most `κ` per unit of length, up to kinks of
at most `δ` that are at least `m` apart. -/
structure Bends (curve : Curve) (κ δ m : ℝ) : Prop where
  start : (curve.value 0).1 = ⟨0, 0⟩
  unit : ∀ s, 0 ≤ s → s ≤ curve.length → (curve.value s).2.length ≤ 1
  dir : ∀ p q, 0 ≤ p → p ≤ q → q ≤ curve.length → q ≤ p + m → ∀ i,
    |coord (curve.value q).2 i - coord (curve.value p).2 i| ≤ κ * (q - p) + δ
  pos : ∀ p q, 0 ≤ p → p ≤ q → q ≤ curve.length → q ≤ p + m → ∀ i,
    |coord (curve.value q).1 i - coord (curve.value p).1 i - (q - p) * coord (curve.value p).2 i| ≤
      κ * (q - p) ^ 2 / 2 + δ * (q - p)

end StepperPaths.Spec
