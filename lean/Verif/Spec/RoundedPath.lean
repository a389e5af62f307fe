import Verif.Spec.Rounded
import Verif.Spec.Draw

/-!
What a list of curve segments means when points are computed with rounding.
-/

namespace StepperPaths.Spec
open Coords Curves Context Draw

/-- Where a segment ends. -/
def FloatEnd (e : Rounded.Env) (pos : Vec) : Seg → Vec → Prop
  | .goTo p, q => q = p
  | .lineTo p, q => q = p
  | .closeTo p, q => q = p
  | seg, q => ∃ curve, e.other pos seg = some (curve, q)

/-- Something is drawn for all segments, except for moves and for short closing lines.  (Just at
the limit of 0.000001 both may happen.) -/
def FloatDraws (pos : Vec) : Seg → Prop
  | .goTo _ => False
  | .closeTo p => 1 / 1000000 - 1 / 10 ^ 12 ≤ (pos - p).length
  | _ => True

/-- `l` are the segments to draw, with their start points, when the pen starts at `pos`, and `n` is
the number of closing lines that are left out since they are too short. -/
inductive FloatIntended (e : Rounded.Env) : Vec → List Seg → ℕ → List (Vec × Seg) → Prop
  | nil (pos : Vec) : FloatIntended e pos [] 0 []
  | move {pos p : Vec} {segs : List Seg} {n : ℕ} {l : List (Vec × Seg)} :
      FloatIntended e p segs n l → FloatIntended e pos (.goTo p :: segs) n l
  | short {pos p : Vec} {segs : List Seg} {n : ℕ} {l : List (Vec × Seg)} :
      (pos - p).length ≤ 1 / 1000000 + 1 / 10 ^ 12 → FloatIntended e p segs n l →
      FloatIntended e pos (.closeTo p :: segs) (n + 1) l
  | draw {pos q : Vec} {seg : Seg} {segs : List Seg} {n : ℕ} {l : List (Vec × Seg)} :
      FloatDraws pos seg → FloatEnd e pos seg q → FloatIntended e q segs n l →
      FloatIntended e pos (seg :: segs) n ((pos, seg) :: l)

/-- At some time between `t` and `t'` the machine is where `p` is, as computed. -/
def FloatVisited (fl : ℝ → ℝ) (e : Rounded.Env) (es : List Event) (t t' : ℕ) (p : Vec) : Prop :=
  ∃ T, t ≤ T ∧ T ≤ t' ∧ ∀ i, posAt i es T = Draw.round (fl (coord p i * e.stepScale i))

/-- A stroke consists of the curves of the segments `g`, and starts where the first of these does,
up to `r`. -/
def FloatGroup (fl : ℝ → ℝ) (e : Rounded.Env) (r : ℝ) (g : List (Vec × Seg)) (stroke : Vec × List Curve) : Prop :=
  List.Forall₂ (fun a k => ∃ next, Rounded.segInfo fl e a.1 a.2 = some (k, next)) g stroke.2 ∧
  ∀ a ∈ g.head?, Within r a.1 stroke.1

/-- The cosine of the angle between the directions where two curves meet. -/
def cosBetween (a b : Curve) : ℝ :=
  (a.value a.length).2.x * (b.value 0).2.x + (a.value a.length).2.y * (b.value 0).2.y

/-- The components of the directions where two curves meet are not too large (they should be at
most 1). -/
def HasDirs (a b : Curve) : Prop :=
  ∀ i, |coord (a.value a.length).2 i| ≤ 2 ∧ |coord (b.value 0).2 i| ≤ 2

end StepperPaths.Spec
