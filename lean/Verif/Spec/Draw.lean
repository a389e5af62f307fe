import Verif.Model.Draw

/-!
What a list of curve segments means: the pieces to draw, each with the point where it starts.
-/

namespace StepperPaths.Spec
open Coords Curves Draw

/-- A closing line that is too short to be drawn. -/
def ShortClose (pos : Vec) : Seg → Prop
  | .closeTo p => (pos - p).length < 1 / 1000000
  | _ => False

/-- Where a segment ends. -/
noncomputable def segEnd (pos : Vec) : Seg → Vec
  | .goTo p => p
  | .lineTo p => p
  | .closeTo p => p
  | .curveTo p _ _ => p
  | .arc r _ a b _ =>
    ⟨pos.x + (r * Real.cos b - r * Real.cos a), pos.y + (r * Real.sin b - r * Real.sin a)⟩

/-- The point at fraction `u` of a segment that starts at `p`. -/
noncomputable def pointAt (p : Vec) : Seg → ℝ → Vec
  | .goTo q, _ => q
  | .lineTo q, u => p * (1 - u) + q * u
  | .closeTo q, u => p * (1 - u) + q * u
  | .curveTo q c1 c2, u => p * ((1 - u) ^ 3) + (p + c1) * (3 * (1 - u) ^ 2 * u) +
      (q + c2) * (3 * (1 - u) * u ^ 2) + q * (u ^ 3)
  | .arc r _ a b _, u =>
    ⟨p.x + (r * Real.cos (a + (b - a) * u) - r * Real.cos a),
     p.y + (r * Real.sin (a + (b - a) * u) - r * Real.sin a)⟩

/-- Nothing is drawn for moves and short closing lines. -/
def Draws (pos : Vec) : Seg → Prop
  | .goTo _ => False
  | s => ¬ ShortClose pos s

open Classical in
/-- The segments to draw, with their start points, when the pen starts at `pos`. -/
noncomputable def intended (pos : Vec) : List Seg → List (Vec × Seg)
  | [] => []
  | s :: ss =>
    if Draws pos s then (pos, s) :: intended (segEnd pos s) ss
    else intended (segEnd pos s) ss

open Classical in
/-- The number of short closing lines. -/
noncomputable def shortCloses (pos : Vec) : List Seg → ℕ
  | [] => 0
  | s :: ss => (if ShortClose pos s then 1 else 0) + shortCloses (segEnd pos s) ss

/-- The curves drawn from `p` on without lifting the pen, with their start points. -/
noncomputable def chain (p : Vec) : List Curve → List (Vec × Curve)
  | [] => []
  | k :: ks => (p, k) :: chain (p + (k.value k.length).1) ks

/-- Everything drawn by a list of strokes. -/
noncomputable def pieces (l : List (Vec × List Curve)) : List (Vec × Curve) :=
  l.flatMap fun s => chain s.1 s.2

/-- Distance at most `r` in each coordinate. -/
def Within (r : ℝ) (p q : Vec) : Prop := |p.x - q.x| ≤ r ∧ |p.y - q.y| ≤ r

/-- `l'` is `l` with some moves left out, but only moves to points with `P`. -/
inductive Omit (P : Vec → Prop) : List Seg → List Seg → Prop
  | nil : Omit P [] []
  | keep (s : Seg) {l l' : List Seg} : Omit P l l' → Omit P (s :: l) (s :: l')
  | skip {p : Vec} {l l' : List Seg} : P p → Omit P l l' → Omit P (.goTo p :: l) l'

/-- There is a corner of more than about five degrees between two curves. -/
def Corner (a b : Curve) : Prop :=
  (b.value 0).2.x * (a.value a.length).2.x + (b.value 0).2.y * (a.value a.length).2.y < 99619 / 100000

/-- The curves of each stroke. -/
def curvesOf (l : List (Vec × Concat)) : List (Vec × List Curve) :=
  l.map fun s => (s.1, s.2.map Part.curve)

end StepperPaths.Spec
