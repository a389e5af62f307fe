import Verif.Model.ConfigText
import Verif.Spec.SvgText

/-!
JSON (RFC 8259): values as they are written, and what a configuration file says.  Independent of the
model of the reader, apart from the record of the result.
-/

namespace StepperPaths.Spec.Json
open StepperPaths.Spec.Svg (Digits Sign Num)

/-- White space. -/
def Ws (w : List Char) : Prop := ∀ c ∈ w, c = ' ' ∨ c = '\n' ∨ c = '\t' ∨ c = '\r'

/-! ### Strings -/

/-- A hexadecimal digit as it is written: its value, and whether it is a capital letter. -/
structure Hex where
  val : Fin 16
  capital : Bool

def Hex.char (h : Hex) : Char :=
  if h.val.1 < 10 then Char.ofNat (48 + h.val) else Char.ofNat ((if h.capital then 55 else 87) + h.val)

/-- Only letters can be capitals. -/
def Hex.Valid (h : Hex) : Prop := h.val.1 < 10 → h.capital = false

/-- An element of a string as it is written. -/
inductive Mark
  /-- A character that stands for itself. -/
  | plain (c : Char)
  /-- A backslash and a letter: the letter and the character that is meant. -/
  | short (e c : Char)
  /-- A number in hexadecimal, in UTF-16. -/
  | hex (a b c d : Hex)

/-- The escapes with one letter. -/
def shorts : List (Char × Char) :=
  [('"', '"'), ('\\', '\\'), ('/', '/'), ('b', Char.ofNat 8), ('f', Char.ofNat 12), ('n', Char.ofNat 10),
    ('r', Char.ofNat 13), ('t', Char.ofNat 9)]

def Mark.Valid : Mark → Prop
  | .plain c => 32 ≤ c.toNat ∧ c ≠ '"' ∧ c ≠ '\\'
  | .short e c => (e, c) ∈ shorts
  | .hex a b c d => a.Valid ∧ b.Valid ∧ c.Valid ∧ d.Valid

def Mark.text : Mark → List Char
  | .plain c => [c]
  | .short e _ => ['\\', e]
  | .hex a b c d => ['\\', 'u', a.char, b.char, c.char, d.char]

/-- The number in UTF-16 that is written in hexadecimal. -/
def Mark.code : Mark → Option ℕ
  | .hex a b c d => some (a.val * 4096 + b.val * 256 + c.val * 16 + d.val)
  | _ => none

/-- A string as it is written. -/
abbrev Str := List Mark

def Str.Valid (s : Str) : Prop := ∀ m ∈ s, m.Valid

def Str.text (s : Str) : List Char := '"' :: (s.flatMap Mark.text ++ ['"'])

/-- What a string says.  A character outside of the basic plane is written in hexadecimal as a pair of
surrogates; surrogates do not stand alone. -/
inductive Says : Str → List Char → Prop
  | nil : Says [] []
  | plain (c : Char) {s : Str} {l : List Char} (h : Says s l) : Says (.plain c :: s) (c :: l)
  | short (e c : Char) {s : Str} {l : List Char} (h : Says s l) : Says (.short e c :: s) (c :: l)
  | basic {m : Mark} {n : ℕ} (hm : m.code = some n) (hn : n < 0xD800 ∨ 0xE000 ≤ n) {s : Str} {l : List Char}
      (h : Says s l) : Says (m :: s) (Char.ofNat n :: l)
  | pair {m m' : Mark} {hi lo : ℕ} (h1 : m.code = some (0xD800 + hi)) (h2 : m'.code = some (0xDC00 + lo))
      (h3 : hi < 1024) (h4 : lo < 1024) {s : Str} {l : List Char} (h : Says s l) :
      Says (m :: m' :: s) (Char.ofNat (0x10000 + hi * 1024 + lo) :: l)

/-! ### Numbers -/

/-- A number of JSON: no plus, no superfluous zeros in front, digits on both sides of the point. -/
structure NumValid (n : Num) : Prop where
  sign : n.sign ≠ .plus
  whole : n.whole ≠ []
  zero : n.whole.head? = some 0 → n.whole = [0]
  frac : ∀ f ∈ n.frac, f ≠ []
  exp : ∀ e ∈ n.exp, e.digits ≠ []

/-! ### Values -/

mutual
/-- A value as it is written, with the white space inside. -/
inductive Tree
  | null
  | yes
  | no
  | num (n : Num)
  | str (s : Str)
  | array (w : List Char)
  | arrayOf (l : Elems)
  | object (w : List Char)
  | objectOf (l : Members)
/-- The elements of an array, each with the white space around it. -/
inductive Elems
  | one (pre : List Char) (t : Tree) (post : List Char)
  | more (pre : List Char) (t : Tree) (post : List Char) (rest : Elems)
/-- The members of an object, with white space before and after the key, and around the value. -/
inductive Members
  | one (w : List Char) (k : Str) (w' pre : List Char) (t : Tree) (post : List Char)
  | more (w : List Char) (k : Str) (w' pre : List Char) (t : Tree) (post : List Char) (rest : Members)
end

mutual
def Tree.text : Tree → List Char
  | .null => "null".toList
  | .yes => "true".toList
  | .no => "false".toList
  | .num n => n.text
  | .str s => s.text
  | .array w => '[' :: (w ++ [']'])
  | .arrayOf l => '[' :: (l.text ++ [']'])
  | .object w => '{' :: (w ++ ['}'])
  | .objectOf l => '{' :: (l.text ++ ['}'])
def Elems.text : Elems → List Char
  | .one pre t post => pre ++ t.text ++ post
  | .more pre t post rest => pre ++ t.text ++ post ++ ',' :: rest.text
def Members.text : Members → List Char
  | .one w k w' pre t post => w ++ Str.text k ++ w' ++ ':' :: (pre ++ t.text ++ post)
  | .more w k w' pre t post rest => w ++ Str.text k ++ w' ++ ':' :: (pre ++ t.text ++ post ++ ',' :: rest.text)
end

mutual
def Tree.Valid : Tree → Prop
  | .null | .yes | .no => True
  | .num n => NumValid n
  | .str s => s.Valid
  | .array w | .object w => Ws w
  | .arrayOf l => l.Valid
  | .objectOf l => l.Valid
def Elems.Valid : Elems → Prop
  | .one pre t post => Ws pre ∧ t.Valid ∧ Ws post
  | .more pre t post rest => Ws pre ∧ t.Valid ∧ Ws post ∧ rest.Valid
def Members.Valid : Members → Prop
  | .one w k w' pre t post => Ws w ∧ k.Valid ∧ Ws w' ∧ Ws pre ∧ t.Valid ∧ Ws post
  | .more w k w' pre t post rest => Ws w ∧ k.Valid ∧ Ws w' ∧ Ws pre ∧ t.Valid ∧ Ws post ∧ rest.Valid
end

def Elems.list : Elems → List Tree
  | .one _ t _ => [t]
  | .more _ t _ rest => t :: rest.list

def Members.list : Members → List (Str × Tree)
  | .one _ k _ _ t _ => [(k, t)]
  | .more _ k _ _ t _ rest => (k, t) :: rest.list

/-- The elements of an array. -/
def Tree.elems : Tree → Option (List Tree)
  | .array _ => some []
  | .arrayOf l => some l.list
  | _ => none

/-- The members of an object. -/
def Tree.members : Tree → Option (List (Str × Tree))
  | .object _ => some []
  | .objectOf l => some l.list
  | _ => none

/-! ### Configurations -/

/-- A number that `conv` turns into `x`. -/
def IsFloat (conv : List Char → Option ℝ) (x : ℝ) (t : Tree) : Prop := ∃ n : Num, t = .num n ∧ conv n.text = some x

/-- A natural number of 32 bits, in digits. -/
def IsU32 (k : ℕ) (t : Tree) : Prop :=
  ∃ d : Digits, t = .num ⟨.none, d, none, none⟩ ∧ d.val = k ∧ k < 2 ^ 32

/-- A record with the given fields: an array with their values in order, or an object in which each of them
occurs once, anywhere among other members. -/
def IsRecord (fs : List (String × (Tree → Prop))) (t : Tree) : Prop :=
  (∃ l, t.elems = some l ∧ List.Forall₂ (fun f x => f.2 x) fs l) ∨
  ∃ l, t.members = some l ∧ (∀ m ∈ l, ∃ key, Says m.1 key) ∧
    ∀ f ∈ fs, ∃ before m after, l = before ++ m :: after ∧ Says m.1 f.1.toList ∧ f.2 m.2 ∧
      ∀ o ∈ before ++ after, ¬ Says o.1 f.1.toList

def IsStepper (conv : List Char → Option ℝ) (s : Config.Stepper) : Tree → Prop :=
  IsRecord [("stepsPerMillimeter", IsFloat conv s.stepsPerMillimeter), ("maxVelocity", IsFloat conv s.maxVelocity),
    ("maxAcceleration", IsFloat conv s.maxAcceleration)]

def IsLaser (l : ConfigText.Laser) : Tree → Prop :=
  IsRecord [("maxIntensity", IsU32 l.maxIntensity), ("pwmPeriod", IsU32 l.pwmPeriod),
    ("alignmentIntensity", IsU32 l.alignmentIntensity)]

def IsConfig (conv : List Char → Option ℝ) (c : ConfigText.Full) : Tree → Prop :=
  IsRecord [("ticksPerSecond", IsU32 c.xy.ticksPerSecond), ("stepperX", IsStepper conv (c.xy.stepper .x)),
    ("stepperY", IsStepper conv (c.xy.stepper .y)), ("laser", IsLaser c.laser)]

end StepperPaths.Spec.Json
