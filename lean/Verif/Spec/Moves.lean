import Verif.Spec.Controller

/-!
What it means for a move not to overshoot.
-/

namespace StepperPaths.Spec
open Context

/-- What an axis with the acceleration `a` needs to stop and get back the speed `v` in the other direction, in half steps. -/
def turnRoom (a v : ℤ) : ℤ := |v| + v ^ 2 / a

/-- From tick `t` to tick `a` the laser is off, and each axis stays between the places at which it is at these ticks, but for the room that
it needs to turn around from the speeds that it has at these ticks. -/
def DirectMove (aMax : Axis → ℤ) (es : List Event) (t a : ℕ) : Prop :=
  (∀ w0 τ, t ≤ τ → τ < a → weightAt w0 es τ = 0) ∧
  ∀ i τ, t ≤ τ → τ ≤ a →
    min (posAt i es t) (posAt i es a) - max (turnRoom (aMax i) (velAt i es t)) (turnRoom (aMax i) (velAt i es a)) ≤ posAt i es τ ∧
    posAt i es τ ≤ max (posAt i es t) (posAt i es a) + max (turnRoom (aMax i) (velAt i es t)) (turnRoom (aMax i) (velAt i es a))

end StepperPaths.Spec
