import Verif.Spec.Svg
import Verif.Spec.SvgDoc
import Verif.Spec.Draw
import Verif.Spec.BezierShape

/-!
From the commands of an SVG path to what is burnt.
-/

namespace StepperPaths.Spec.Svg
open Coords

/-- The arc of a circle of radius `r` from `p` to `q`: the angle grows if `sweep`, and the arc is at
least a half circle if `large`, and at most a half circle if not. -/
def CircleArc (r : ℝ) (p q : Vec) (large sweep : Prop) (γ : ℝ → Vec) : Prop :=
  0 < r ∧ p ≠ q ∧ ∃ a b, (∀ u, γ u = ⟨p.x + r * (Real.cos (a + (b - a) * u) - Real.cos a),
      p.y + r * (Real.sin (a + (b - a) * u) - Real.sin a)⟩) ∧ γ 1 = q ∧
    (a < b ↔ sweep) ∧ |b - a| < 2 * Real.pi ∧ (large → Real.pi ≤ |b - a|) ∧ (¬ large → |b - a| ≤ Real.pi)

/-- The lines and curves that commands draw, after the SVG standard, when the current point is `pos`
and the figure started at `start`.  Elliptic arcs are not included. -/
inductive Figure : Bool → Vec → Vec → List (Char × List ℝ) → List (ℝ → Vec) → Prop
  | nil (first : Bool) (pos start : Vec) : Figure first pos start [] []
  | move {first : Bool} {pos start : Vec} {x y : ℝ} {rest : List (Char × List ℝ)} {l : List (ℝ → Vec)} :
      Figure false ⟨x, y⟩ ⟨x, y⟩ rest l → Figure first pos start (('M', [x, y]) :: rest) l
  | line {first : Bool} {pos start : Vec} {x y : ℝ} {rest : List (Char × List ℝ)} {l : List (ℝ → Vec)} :
      Figure false ⟨x, y⟩ start rest l → Figure first pos start (('L', [x, y]) :: rest) (Svg.line pos ⟨x, y⟩ :: l)
  | horizontal {first : Bool} {pos start : Vec} {x : ℝ} {rest : List (Char × List ℝ)} {l : List (ℝ → Vec)} :
      Figure false ⟨x, pos.y⟩ start rest l → Figure first pos start (('H', [x]) :: rest) (Svg.line pos ⟨x, pos.y⟩ :: l)
  | vertical {first : Bool} {pos start : Vec} {y : ℝ} {rest : List (Char × List ℝ)} {l : List (ℝ → Vec)} :
      Figure false ⟨pos.x, y⟩ start rest l → Figure first pos start (('V', [y]) :: rest) (Svg.line pos ⟨pos.x, y⟩ :: l)
  | close {first : Bool} {pos start : Vec} {rest : List (Char × List ℝ)} {l : List (ℝ → Vec)} :
      Figure false start start rest l → Figure first pos start (('Z', []) :: rest) (Svg.line pos start :: l)
  | quadratic {first : Bool} {pos start : Vec} {x1 y1 x y : ℝ} {rest : List (Char × List ℝ)} {l : List (ℝ → Vec)} :
      Figure false ⟨x, y⟩ start rest l →
      Figure first pos start (('Q', [x1, y1, x, y]) :: rest) (Svg.quadratic pos ⟨x1, y1⟩ ⟨x, y⟩ :: l)
  | cubic {first : Bool} {pos start : Vec} {x1 y1 x2 y2 x y : ℝ} {rest : List (Char × List ℝ)} {l : List (ℝ → Vec)} :
      Figure false ⟨x, y⟩ start rest l →
      Figure first pos start (('C', [x1, y1, x2, y2, x, y]) :: rest) (Svg.cubic pos ⟨x1, y1⟩ ⟨x2, y2⟩ ⟨x, y⟩ :: l)
  | arc {first : Bool} {pos start : Vec} {r large sweep x y : ℝ} {γ : ℝ → Vec} {rest : List (Char × List ℝ)} {l : List (ℝ → Vec)} :
      CircleArc r pos ⟨x, y⟩ (large ≠ 0) (sweep ≠ 0) γ → Figure false ⟨x, y⟩ start rest l →
      Figure first pos start (('A', [r, r, 0, large, sweep, x, y]) :: rest) (γ :: l)
  /-- a command with relative coordinates -/
  | relative {first : Bool} {pos start : Vec} {cmd : Char} {args : List ℝ} {rest : List (Char × List ℝ)} {l : List (ℝ → Vec)} :
      Figure first pos start (absolute cmd first pos args :: rest) l → Figure first pos start ((cmd, args) :: rest) l
  /-- a command with the arguments of several -/
  | groups {first : Bool} {pos start : Vec} {cmd : Char} {args more : List ℝ} {rest : List (Char × List ℝ)} {l : List (ℝ → Vec)} :
      groupSize cmd = some args.length → more ≠ [] → args.length ∣ more.length →
      Figure first pos start ((cmd, args) :: (nextCmd cmd, more) :: rest) l →
      Figure first pos start ((cmd, args ++ more) :: rest) l

/-- A rotation with a scale and a translation. -/
def Turns (tr : Transform) : Prop :=
  ∃ k θ, 0 < k ∧ tr.m0 = k * Real.cos θ ∧ tr.m1 = k * Real.sin θ ∧ tr.m2 = -(k * Real.sin θ) ∧ tr.m3 = k * Real.cos θ

/-- The transformed lines and curves. -/
noncomputable def moved (tr : Transform) (l : List (ℝ → Vec)) : List (ℝ → Vec) :=
  l.map fun (γ : ℝ → Vec) (u : ℝ) => (tr * γ u : Vec)

/-- A path element: its transform, the commands as they are written, white space at the end, and the
lines and curves that they mean. -/
structure Drawing where
  tr : Transform
  cmds : List Cmd
  trail : List Char
  lines : List (ℝ → Vec)

/-- The text of the path. -/
def Drawing.text (d : Drawing) : List Char := pathText d.cmds ++ d.trail

/-- The values of the commands. -/
noncomputable def Drawing.values (d : Drawing) : List (Char × List ℝ) :=
  d.cmds.map fun c => (c.letter, c.args.values.map fun q : ℚ => (q : ℝ))

/-- The commands begin with a move and mean the lines and curves.  If there are arcs, the transform must
not change their form. -/
structure Drawing.Valid (d : Drawing) : Prop where
  cmds : ∀ c ∈ d.cmds, c.Valid
  trail : White d.trail
  first : ∃ c ∈ d.cmds.head?, c.letter = 'm' ∨ c.letter = 'M'
  means : Figure true ⟨0, 0⟩ ⟨0, 0⟩ d.values d.lines
  arcs : (∃ c ∈ d.cmds, c.letter = 'a' ∨ c.letter = 'A') → Turns d.tr

/-- The lines and curves of several elements. -/
noncomputable def picture (l : List Drawing) : List (ℝ → Vec) := l.flatMap fun d => moved d.tr d.lines

end StepperPaths.Spec.Svg

namespace StepperPaths.Spec
open Coords Curves Context Draw

/-- The lines and curves of a list of segments, when the pen starts at `pos`. -/
noncomputable def linesOf (pos : Vec) : List Seg → List (ℝ → Vec)
  | [] => []
  | .goTo p :: segs => linesOf p segs
  | seg :: segs => pointAt pos seg :: linesOf (segEnd pos seg) segs

/-- Where they end. -/
noncomputable def lineEnds (pos : Vec) : List Seg → List Vec
  | [] => []
  | .goTo p :: segs => lineEnds p segs
  | seg :: segs => segEnd pos seg :: lineEnds (segEnd pos seg) segs

/-- All points of a curve are within `d i` steps of each other. -/
def Tiny (scale d : Axis → ℝ) (γ : ℝ → Vec) : Prop :=
  ∀ u u', 0 ≤ u → u ≤ 1 → 0 ≤ u' → u' ≤ 1 → ∀ i, |coord (γ u) i - coord (γ u') i| * scale i ≤ d i

/-- The picture `l` is burnt with the power `w` between the ticks `t` and `t'`. -/
structure Burnt (scale : Axis → ℝ) (w : ℤ) (aMax vMax : Axis → ℤ) (es : List Event) (t t' : ℕ) (l : List (ℝ → Vec))
    (tiny near far : Axis → ℝ) : Prop where
  order : t ≤ t'
  /-- the laser is off or has this power -/
  power : ∀ w0 τ, t ≤ τ → τ < t' → weightAt w0 es τ = 0 ∨ weightAt w0 es τ = w
  /-- only where a line or curve of the picture is the laser is on -/
  only : ∀ w0 τ, t ≤ τ → τ < t' → weightAt w0 es τ = w → ∃ γ ∈ l, ∃ u, 0 ≤ u ∧ u ≤ 1 ∧
    ∀ i, |(posAt i es τ : ℝ) - coord (γ u) i * scale i| ≤ near i
  /-- wherever a line or curve of the picture is, unless it is tiny, the laser is on, at the beginning or
  at the end of a tick -/
  all : ∀ γ ∈ l, ¬ Tiny scale tiny γ → ∀ u, 0 ≤ u → u ≤ 1 → ∃ τ, t ≤ τ ∧ τ < t' ∧ (∀ w0, weightAt w0 es τ = w) ∧
    ∃ τ', (τ' = τ ∨ τ' = τ + 1) ∧ ∀ i, |(posAt i es τ' : ℝ) - coord (γ u) i * scale i| ≤ far i
  /-- the limits -/
  acc : ∀ i τ, t ≤ τ → τ < t' → |accAt i es τ| ≤ aMax i
  vel : ∀ i τ, t ≤ τ → τ < t' → |velAt i es (τ + 1)| ≤ vMax i

/-- The point where the machine is after so many steps. -/
noncomputable def place (scale : Axis → ℝ) (P : Axis → ℤ) : Vec := ⟨P .x / scale .x, P .y / scale .y⟩

/-- A machine at `P` can burn the picture that begins with a move to `p0` (see `ExactPath`), and no move is
left out, but possibly the first one. -/
structure Fits (scale : Axis → ℝ) (M d D ε κ w : ℝ) (ρ : Axis → ℝ) (p0 : Vec) (rest : List Seg) (P : Axis → ℤ) : Prop where
  bounded : Bounded M (place scale P)
  path : ExactPath scale M d D ε κ w ρ P M [] (place scale P) (.goTo p0 :: rest)
  apart : ExactApart scale ρ P [] p0 rest
  apart' : (∀ i, Draw.round (coord p0 i * scale i) = P i) → ExactApart scale ρ P [] (place scale P) rest

/-- The machine is where a line or curve of the picture ends. -/
def AtEnd (scale ρ : Axis → ℝ) (p0 : Vec) (rest : List Seg) (P : Axis → ℤ) : Prop :=
  ∃ q ∈ lineEnds p0 rest, ∀ i, |(P i : ℝ) - coord q i * scale i| ≤ ρ i

end StepperPaths.Spec
