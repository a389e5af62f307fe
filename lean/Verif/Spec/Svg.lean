import Verif.Model.Coords

/-!
What the commands of an SVG path mean, after the SVG standard, for the commands that the
program supports.  Independent of the model.
-/

namespace StepperPaths.Spec.Svg
open Coords

/-- The number of arguments of one step of a command with arguments. -/
def groupSize : Char → Option ℕ
  | 'm' | 'M' | 'l' | 'L' => some 2
  | 'h' | 'H' | 'v' | 'V' => some 1
  | 'c' | 'C' => some 6
  | 'q' | 'Q' => some 4
  | 'a' | 'A' => some 7
  | _ => none

/-- A supported command with a fitting number of arguments.  Closing has no arguments; the
program does not look at them. -/
def Accepted (cmd : Char) (args : List ℝ) : Prop :=
  cmd = 'z' ∨ cmd = 'Z' ∨ ∃ n, groupSize cmd = some n ∧ args ≠ [] ∧ n ∣ args.length

/-- The command that the remaining groups of a command belong to: points after the first one of
a move are joined by lines. -/
def nextCmd : Char → Char
  | 'm' => 'l'
  | 'M' => 'L'
  | c => c

/-! ### Absolute coordinates -/

/-- Pairs relative to the end of the pair before. -/
noncomputable def absPairs : Vec → List ℝ → List ℝ
  | p, x :: y :: rest => (p.x + x) :: (p.y + y) :: absPairs ⟨p.x + x, p.y + y⟩ rest
  | _, rest => rest

/-- Numbers relative to the number before. -/
noncomputable def absNums : ℝ → List ℝ → List ℝ
  | a, x :: rest => (a + x) :: absNums (a + x) rest
  | _, [] => []

/-- Groups of three points relative to the end of the group before. -/
noncomputable def absCubic : Vec → List ℝ → List ℝ
  | p, x1 :: y1 :: x2 :: y2 :: x :: y :: rest =>
    (p.x + x1) :: (p.y + y1) :: (p.x + x2) :: (p.y + y2) :: (p.x + x) :: (p.y + y) ::
      absCubic ⟨p.x + x, p.y + y⟩ rest
  | _, rest => rest

/-- Groups of two points relative to the end of the group before. -/
noncomputable def absQuad : Vec → List ℝ → List ℝ
  | p, x1 :: y1 :: x :: y :: rest =>
    (p.x + x1) :: (p.y + y1) :: (p.x + x) :: (p.y + y) :: absQuad ⟨p.x + x, p.y + y⟩ rest
  | _, rest => rest

/-- Arcs whose end point is relative to the end of the arc before. -/
noncomputable def absArc : Vec → List ℝ → List ℝ
  | p, rx :: ry :: rot :: large :: sweep :: x :: y :: rest =>
    rx :: ry :: rot :: large :: sweep :: (p.x + x) :: (p.y + y) ::
      absArc ⟨p.x + x, p.y + y⟩ rest
  | _, rest => rest

/-- A move at the head of a path is absolute. -/
noncomputable def absFirstMove : List ℝ → List ℝ
  | x :: y :: rest => x :: y :: absPairs ⟨x, y⟩ rest
  | rest => rest

/-- The absolute form of a command at the position `pos`. -/
noncomputable def absolute (cmd : Char) (first : Bool) (pos : Vec) (args : List ℝ) :
    Char × List ℝ :=
  match cmd with
  | 'm' => ('M', if first then absFirstMove args else absPairs pos args)
  | 'l' => ('L', absPairs pos args)
  | 'h' => ('H', absNums pos.x args)
  | 'v' => ('V', absNums pos.y args)
  | 'c' => ('C', absCubic pos args)
  | 'q' => ('Q', absQuad pos args)
  | 'a' => ('A', absArc pos args)
  | 'z' => ('Z', args)
  | c => (c, args)

/-! ### Curves -/

/-- The straight line between two points. -/
noncomputable def line (p q : Vec) (u : ℝ) : Vec :=
  ⟨(1 - u) * p.x + u * q.x, (1 - u) * p.y + u * q.y⟩

/-- De Casteljau for a quadratic curve with control point `m`. -/
noncomputable def quadratic (p m q : Vec) (u : ℝ) : Vec := line (line p m u) (line m q u) u

/-- De Casteljau for a cubic curve with control points `c1`, `c2`. -/
noncomputable def cubic (p c1 c2 q : Vec) (u : ℝ) : Vec :=
  line (quadratic p c1 c2 u) (quadratic c1 c2 q u) u

end StepperPaths.Spec.Svg
