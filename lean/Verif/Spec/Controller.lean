import Verif.Model.StepperContext
import Verif.Spec.Ticks

/-!
What the stepper controller does with an event list: an event takes effect `ticks`
ticks after the previous one and stays in effect until the next event of its kind.
Everything starts at tick 0 with acceleration 0.
-/

namespace StepperPaths.Spec
open Context

/-- Effect of a command on the acceleration of an axis. -/
def accAfter (ax : Axis) (a : Int) : Command → Int
  | .acc ch b => if ch = ax then b else a
  | .weight _ => a

/-- Effect of a command on the weight. -/
def weightAfter (w : Int) : Command → Int
  | .acc _ _ => w
  | .weight b => b

/-- The value in effect during tick `τ`, when `cur` is in effect from tick `now` and
`es` are still to come. -/
def valueFrom (after : Int → Command → Int) (now : Nat) (cur : Int) : List Event → Nat → Int
  | [], _ => cur
  | e :: es, τ =>
    if τ < now + e.ticks then cur
    else valueFrom after (now + e.ticks) (after cur e.cmd) es τ

/-- Acceleration of an axis during tick `τ`. -/
def accAt (ax : Axis) (es : List Event) (τ : Nat) : Int := valueFrom (accAfter ax) 0 0 es τ

/-- Weight during tick `τ`, when it is `w` before the first weight command. -/
def weightAt (w : Int) (es : List Event) (τ : Nat) : Int := valueFrom weightAfter 0 w es τ

/-- Time of the last event. -/
def duration : List Event → Nat
  | [] => 0
  | e :: es => e.ticks + duration es

/-- The accelerations of an axis during the ticks before `T`. -/
def played (ax : Axis) (es : List Event) (T : Nat) : List Int := (List.range T).map (accAt ax es)

/-- Position and velocity of an axis at tick `T`, played from rest at position 0. -/
def posAt (ax : Axis) (es : List Event) (T : Nat) : Int := dist 0 (played ax es T)
def velAt (ax : Axis) (es : List Event) (T : Nat) : Int := endVel 0 (played ax es T)

end StepperPaths.Spec
