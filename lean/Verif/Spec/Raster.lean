import Verif.Model.Raster
import Verif.Spec.Controller

/-!
What the controller does while an image is scanned line by line.  In the `x` direction a pixel is
`2 * vX * resX` half steps wide, in the `y` direction `resY` lines of `stepY` half steps.
-/

namespace StepperPaths.Spec
open Context Raster

/-- A line of the scan: row, line within the row, first column, number of columns, direction. -/
structure ScanLine where
  y : Nat
  rep : Nat
  start : Nat
  len : Nat
  ltr : Bool
deriving DecidableEq, Repr

/-- The column that is scanned as number `k`. -/
def ScanLine.column (l : ScanLine) (k : Nat) : Nat := if l.ltr then l.start + k else l.start + l.len - 1 - k

/-- How dark a pixel is, on the scale of the weights (rounded toward zero). -/
def shade (p : Params) (img : Image) (x y : Nat) : Int := Int.tdiv ((255 - (img.pixel x y : Int)) * p.weight) 256

/-- The interval `[start, start + len)` is the smallest one with all pixels that are not white. -/
def RowSpan (img : Image) (y start len : Nat) : Prop :=
  (∀ x < img.width, img.pixel x y < 255 → start ≤ x ∧ x < start + len) ∧
    (0 < len → start + len ≤ img.width ∧ img.pixel start y < 255 ∧ img.pixel (start + len - 1) y < 255)

/-- A line as played: the move is from tick `t` to tick `a`, the line from tick `a` to tick `b`. -/
structure LinePlayed (p : Params) (img : Image) (aMax vMax : Axis → Int) (es : List Event) (t a b : Nat)
    (l : ScanLine) : Prop where
  move : t < a
  len : b = a + l.len * p.resX
  /-- the laser is off during the move -/
  off : ∀ w0 τ, t ≤ τ → τ < a → weightAt w0 es τ = 0
  /-- each pixel is exposed for `resX` ticks with its own weight -/
  on : ∀ w0 k j, k < l.len → j < p.resX →
    weightAt w0 es (a + (k * p.resX + j)) = shade p img (l.column k) l.y
  /-- meanwhile the head goes from one edge of the pixel to the other -/
  xpos : ∀ k j, k < l.len → j ≤ p.resX → |posAt .x es (a + (k * p.resX + j)) -
    2 * p.vX * (if l.ltr then (p.resX * l.column k + j : Int) else (p.resX * (l.column k + 1) - j : Int))| ≤ 1
  /-- and stays in its line -/
  ypos : ∀ τ, a ≤ τ → τ ≤ b → |posAt .y es τ - (l.y * p.resY + l.rep) * p.stepY| ≤ 1
  xvel : ∀ τ, a ≤ τ → τ ≤ b → velAt .x es τ = if l.ltr then p.vX else -p.vX
  yvel : ∀ τ, a ≤ τ → τ ≤ b → velAt .y es τ = 0
  /-- the limits during the move -/
  acc : ∀ i τ, t ≤ τ → τ < a → |accAt i es τ| ≤ aMax i
  vel : ∀ i τ, t ≤ τ → τ < a → |velAt i es (τ + 1)| ≤ vMax i

/-- Lines played one after the other, from tick `t` to tick `T`. -/
inductive Scan (p : Params) (img : Image) (aMax vMax : Axis → Int) (es : List Event) :
    Nat → List ScanLine → Nat → Prop
  | nil (t : Nat) : Scan p img aMax vMax es t [] t
  | cons {t a b T : Nat} {l : ScanLine} {ls : List ScanLine} :
      LinePlayed p img aMax vMax es t a b l → Scan p img aMax vMax es b ls T →
      Scan p img aMax vMax es t (l :: ls) T

/-- The directions alternate, beginning with `b`. -/
def Alternating : Bool → List ScanLine → Prop
  | _, [] => True
  | b, l :: ls => l.ltr = b ∧ Alternating (!b) ls

/-- The rows with something to draw, each `resY` times. -/
def rowPlan (p : Params) (img : Image) (y n : Nat) : List (Nat × Nat) :=
  ((List.range' y n).filter fun y => (List.range img.width).any fun x => decide (img.pixel x y < 255)).flatMap
    fun y => (List.range p.resY).map fun r => (y, r)

end StepperPaths.Spec
