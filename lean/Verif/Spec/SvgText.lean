import Mathlib.Data.Nat.Digits.Defs
import Mathlib.Analysis.SpecialFunctions.Trigonometric.Basic
import Verif.Model.Coords

/-!
The texts of SVG attributes and what they mean, for the part of SVG that the program reads.
Independent of the model of the parsers.
-/

namespace StepperPaths.Spec.Svg
open Coords

/-! ### Numbers -/

/-- Decimal digits, most significant first. -/
abbrev Digits := List (Fin 10)

/-- The character of a digit. -/
def digitChar (d : Fin 10) : Char := Char.ofNat (48 + d)

/-- The text of digits. -/
def Digits.text (l : Digits) : List Char := l.map digitChar

/-- The number of digits. -/
def Digits.val (l : Digits) : ℕ := Nat.ofDigits 10 (l.reverse.map Fin.val)

/-- A sign: nothing, plus or minus. -/
inductive Sign
  | none
  | plus
  | minus

def Sign.text : Sign → List Char
  | .none => []
  | .plus => ['+']
  | .minus => ['-']

def Sign.val : Sign → ℤ
  | .minus => -1
  | _ => 1

/-- The exponent of a number. -/
structure Exp where
  capital : Bool
  sign : Sign
  digits : Digits

def Exp.text (e : Exp) : List Char := (if e.capital then 'E' else 'e') :: (e.sign.text ++ e.digits.text)

def Exp.val (e : Exp) : ℤ := e.sign.val * e.digits.val

/-- A decimal number as it is written. -/
structure Num where
  sign : Sign
  whole : Digits
  /-- The digits after the point, if there is one. -/
  frac : Option Digits
  exp : Option Exp

/-- There is a digit before or after the point, and after the exponent letter. -/
structure Num.Valid (n : Num) : Prop where
  digits : n.whole ++ n.frac.getD [] ≠ []
  exp : ∀ e ∈ n.exp, e.digits ≠ []

def fracText : Option Digits → List Char
  | none => []
  | some f => '.' :: f.text

def expText : Option Exp → List Char
  | none => []
  | some e => e.text

def Num.text (n : Num) : List Char := n.sign.text ++ n.whole.text ++ fracText n.frac ++ expText n.exp

/-- The number that is written. -/
def Num.value (n : Num) : ℚ :=
  n.sign.val * (n.whole.val + (n.frac.getD []).val / 10 ^ (n.frac.getD []).length) *
    10 ^ ((n.exp.map Exp.val).getD 0)

/-! ### Paths -/

/-- White space inside attributes. -/
def Blank (w : List Char) : Prop := ∀ c ∈ w, c = ' ' ∨ c = '\t' ∨ c = '\r' ∨ c = '\n'

/-- Unicode white space. -/
def White (w : List Char) : Prop := ∀ c ∈ w,
  (9 ≤ c.toNat ∧ c.toNat ≤ 13) ∨ (0x2000 ≤ c.toNat ∧ c.toNat ≤ 0x200A) ∨
  c.toNat ∈ [0x20, 0x85, 0xA0, 0x1680, 0x2028, 0x2029, 0x202F, 0x205F, 0x3000]

/-- Between numbers: white space, or a comma with optional white space. -/
def Separator (w : List Char) : Prop :=
  (Blank w ∧ w ≠ []) ∨ ∃ a b, Blank a ∧ Blank b ∧ w = a ++ ',' :: b

/-- The letters of path commands. -/
def pathLetters : List Char :=
  ['m', 'M', 'z', 'Z', 'l', 'L', 'h', 'H', 'v', 'V', 'c', 'C', 's', 'S', 'q', 'Q', 't', 'T', 'a', 'A']

/-- Numbers with separators. -/
inductive NumList
  | nil
  | cons (sep : List Char) (n : Num) (rest : NumList)

def NumList.text : NumList → List Char
  | .nil => []
  | .cons sep n rest => sep ++ n.text ++ rest.text

def NumList.values : NumList → List ℚ
  | .nil => []
  | .cons _ n rest => n.value :: rest.values

def NumList.Valid : NumList → Prop
  | .nil => True
  | .cons sep n rest => Separator sep ∧ n.Valid ∧ rest.Valid

/-- The arguments of a command: none, or a first number after optional white space. -/
inductive Args
  | none
  | some (gap : List Char) (n : Num) (rest : NumList)

def Args.text : Args → List Char
  | .none => []
  | .some gap n rest => gap ++ n.text ++ rest.text

def Args.values : Args → List ℚ
  | .none => []
  | .some _ n rest => n.value :: rest.values

def Args.Valid : Args → Prop
  | .none => True
  | .some gap n rest => Blank gap ∧ n.Valid ∧ rest.Valid

/-- A command with the white space before it. -/
structure Cmd where
  lead : List Char
  letter : Char
  args : Args

def Cmd.text (c : Cmd) : List Char := c.lead ++ c.letter :: c.args.text

def Cmd.value (c : Cmd) : Char × List ℚ := (c.letter, c.args.values)

structure Cmd.Valid (c : Cmd) : Prop where
  lead : White c.lead
  letter : c.letter ∈ pathLetters
  args : c.args.Valid

/-- The text of a path. -/
def pathText (cmds : List Cmd) : List Char := cmds.flatMap Cmd.text

/-! ### Transforms -/

/-- A call of a transform function as it is written: `name gap ( lead first rest trail )`. -/
structure Call where
  name : String
  gap : List Char
  lead : List Char
  first : Num
  rest : NumList
  trail : List Char

def Call.text (c : Call) : List Char :=
  c.name.toList ++ c.gap ++ '(' :: (c.lead ++ c.first.text ++ c.rest.text ++ c.trail ++ [')'])

/-- The arguments. -/
def Call.args (c : Call) : List ℚ := c.first.value :: c.rest.values

/-- Degrees as radians. -/
noncomputable def degrees (a : ℚ) : ℝ := a * Real.pi / 180

/-- A rotation around the origin. -/
noncomputable def turn (a : ℝ) (p : Vec) : Vec :=
  ⟨Real.cos a * p.x - Real.sin a * p.y, Real.sin a * p.x + Real.cos a * p.y⟩

/-- What a transform function does with a point. -/
noncomputable def meaning (name : String) (args : List ℚ) : Option (Vec → Vec) :=
  match name, args with
  | "matrix", [a, b, c, d, e, f] =>
    some fun p => ⟨a * p.x + c * p.y + e, b * p.x + d * p.y + f⟩
  | "translate", [x] => some fun p => ⟨p.x + x, p.y⟩
  | "translate", [x, y] => some fun p => ⟨p.x + x, p.y + y⟩
  | "scale", [x] => some fun p => ⟨x * p.x, x * p.y⟩
  | "scale", [x, y] => some fun p => ⟨x * p.x, y * p.y⟩
  | "rotate", [a] => some (turn (degrees a))
  | "rotate", [a, x, y] => some fun p =>
    let q := turn (degrees a) ⟨p.x - x, p.y - y⟩
    ⟨q.x + x, q.y + y⟩
  | "skewX", [a] => some fun p => ⟨p.x + Real.tan (degrees a) * p.y, p.y⟩
  | "skewY", [a] => some fun p => ⟨p.x, p.y + Real.tan (degrees a) * p.x⟩
  | _, _ => none

/-- A call of a known function with the right number of arguments. -/
structure Call.Valid (c : Call) : Prop where
  gap : Blank c.gap
  lead : Blank c.lead
  first : c.first.Valid
  rest : c.rest.Valid
  trail : Blank c.trail
  known : meaning c.name c.args ≠ none

/-- What a call does with a point. -/
noncomputable def Call.apply (c : Call) : Vec → Vec := (meaning c.name c.args).getD id

/-- Calls with the separators between them, after the first one. -/
def callsText (l : List (List Char × Call)) : List Char := l.flatMap fun x => x.1 ++ x.2.text

/-- The transforms of a list are applied from right to left. -/
noncomputable def applyAll (l : List Call) (p : Vec) : Vec := l.foldr Call.apply p

/-! ### Lengths -/

/-- The units of length in millimeters, as the program takes them. -/
def units : List (String × ℚ) :=
  [("mm", 1), ("cm", 10), ("in", 25.4), ("px", 1), ("pt", 25.4 / 72), ("pc", 25.4 / 6)]

end StepperPaths.Spec.Svg
