import Verif.Model.AccVector
import Mathlib.Algebra.Order.Ring.Int
import Mathlib.Algebra.Order.Group.Abs

/-!
Tick-level meaning of acceleration sequences.  A tick with acceleration `a`
changes the velocity `v` to `v + a` and moves `v + (v + a)` (half) steps.
-/

namespace StepperPaths.Spec

/-- The accelerations of a run-length sequence, one per tick. -/
def expand (segs : List AccSegment) : List Int :=
  segs.flatMap (fun s => List.replicate s.interval s.acc)

/-- Velocity after playing the ticks. -/
def endVel (v : Int) : List Int → Int
  | [] => v
  | a :: as => endVel (v + a) as

/-- Distance moved while playing the ticks. -/
def dist (v : Int) : List Int → Int
  | [] => 0
  | a :: as => (v + (v + a)) + dist (v + a) as

/-- All velocities visited after each tick (excluding the start velocity). -/
def vels (v : Int) : List Int → List Int
  | [] => []
  | a :: as => (v + a) :: vels (v + a) as

/-- The ticks go from velocity `v` to velocity `w` without exceeding the
acceleration `a` or the speed `vmax`. -/
structure Motion (a vmax v w : Int) (l : List Int) : Prop where
  endv : endVel v l = w
  acc : ∀ x ∈ l, |x| ≤ a
  vel : ∀ x ∈ vels v l, |x| ≤ vmax

/-- Velocity at time `i` of the trapezoid of duration `T`: `vf`, unless that cannot be
reached from `v0`, or left towards `vn`, with acceleration `a`. -/
def trapezoid (v0 vn a vf T i : Int) : Int :=
  max (max (v0 - a * i) (vn - a * (T - i))) (min (min (v0 + a * i) (vn + a * (T - i))) vf)

/-- Distance of a velocity profile over `n` ticks. -/
def profileDist (w : Int → Int) : Nat → Int
  | 0 => 0
  | n + 1 => profileDist w n + (w n + w (n + 1))

end StepperPaths.Spec
