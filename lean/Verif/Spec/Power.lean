import Verif.Spec.Controller

/-!
The same commands with another power of the laser.
-/

namespace StepperPaths.Spec
open Context

/-- The event with its weight multiplied by `w`. -/
def withPower (w : ℤ) (ev : Event) : Event :=
  match ev.cmd with
  | .acc i a => ⟨ev.ticks, .acc i a⟩
  | .weight x => ⟨ev.ticks, .weight (x * w)⟩

end StepperPaths.Spec
