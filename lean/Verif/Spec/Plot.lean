import Verif.Spec.Ticks
import Verif.Model.Control

/-!
Curves of velocity over time as they are drawn: lists of corners, and their text in an Asymptote
program.
-/

namespace StepperPaths.Spec
open Control

/-- Twice the area between the lines through the corners `(t, v)` and the axis of time, negative
below the axis. -/
def area2 : List (ℕ × ℤ) → ℤ
  | p :: q :: l => ((q.1 : ℤ) - p.1) * (p.2 + q.2) + area2 (q :: l)
  | _ => 0

/-- The corners of a curve from velocity `v0` to `vn` after `T` ticks, that keeps to the acceleration
`a` and to the speed `vmax`. -/
structure VelocityCurve (v0 vn a vmax : ℤ) (T : ℕ) (l : List (ℕ × ℤ)) : Prop where
  first : l.head? = some (0, v0)
  last : l.getLast? = some (T, vn)
  slope : l.IsChain (fun p q => p.1 < q.1 ∧ |q.2 - p.2| ≤ a * (q.1 - p.1))
  speed : ∀ p ∈ l, |p.2| ≤ vmax

/-- The curve moves by `ds` half steps, as far as the parity of the velocities allows, and takes at most one
tick longer than any other way to do so (that lasts long enough to stop and to start again). -/
structure Covers (ds v0 vn a vmax : ℤ) (T : ℕ) (l : List (ℕ × ℤ)) : Prop where
  area : |area2 l - ds| ≤ 1
  exact : area2 l = ds ↔ (ds - (v0 + vn)) % 2 = 0
  quick : ∀ ticks, Motion a vmax v0 vn ticks → dist v0 ticks = ds → |v0 + vn| ≤ a * ticks.length →
    T ≤ ticks.length + 1

/-- A pair in Asymptote. -/
def pairText (p : ℕ × ℤ) : List Char := '(' :: showInt p.1 ++ [',', ' '] ++ showInt p.2 ++ [')']

/-- A path in Asymptote: pairs joined by straight lines. -/
def joined : List (ℕ × ℤ) → List Char
  | [] => []
  | [p] => pairText p
  | p :: q :: l => pairText p ++ [' ', '-', '-', ' '] ++ joined (q :: l)

/-- An array in Asymptote, each element followed by a comma and `sep`. -/
def elements (sep : List Char) (l : List (List Char)) : List Char := l.flatMap fun s => s ++ ',' :: sep

end StepperPaths.Spec
