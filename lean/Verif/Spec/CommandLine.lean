import Verif.Spec.SvgText

/-!
Command lines: how options are written, and what they say.  Independent of the model of the
argument parser.
-/

namespace StepperPaths.Spec.Cli

/-- An argument of a program. -/
abbrev Arg := List Char

/-- An option with a value: a word, and perhaps a letter for short. -/
structure Key where
  letter : Option Char
  word : List Char
  deriving DecidableEq

/-- What is written at one place of a command line. -/
inductive Item
  /-- `--word value`, or `--word=value` with `eq`. -/
  | word (k : Key) (value : Arg) (eq : Bool)
  /-- `--c value`, or `--c=value` with `eq`. -/
  | letter (k : Key) (c : Char) (value : Arg) (eq : Bool)
  /-- `-h`, with the letter repeated `n + 1` times. -/
  | help (n : ℕ)
  /-- `-c value`, or `-cvalue` with `glued`; before the `c` there may be `n` times an `h`. -/
  | short (n : ℕ) (k : Key) (c : Char) (value : Arg) (glued : Bool)
  /-- `--help`, or `--h` with `brief`. -/
  | helpWord (brief : Bool)
  /-- Anything that does not begin with a dash, and a dash alone. -/
  | other (s : Arg)

/-- An argument and a value for it: two arguments, or one with a sign between. -/
def withValue (name : Arg) (value : Arg) (joined : Bool) (sign : List Char) : List Arg :=
  if joined then [name ++ sign ++ value] else [name, value]

def Item.text : Item → List Arg
  | .word k v eq => withValue ('-' :: '-' :: k.word) v eq ['=']
  | .letter _ c v eq => withValue ['-', '-', c] v eq ['=']
  | .help n => [('-' :: List.replicate (n + 1) 'h')]
  | .short n _ c v glued => withValue ('-' :: (List.replicate n 'h' ++ [c])) v glued []
  | .helpWord brief => [if brief then ['-', '-', 'h'] else ['-', '-', 'h', 'e', 'l', 'p']]
  | .other s => [s]

def Item.Valid (keys : List Key) : Item → Prop
  | .word k _ _ => k ∈ keys
  | .letter k c _ _ => k ∈ keys ∧ k.letter = some c
  | .help _ => True
  | .short _ k c v glued => k ∈ keys ∧ k.letter = some c ∧ (glued → v ≠ [])
  | .helpWord _ => True
  | .other s => s.head? = some '-' → s = ['-']

/-- The options that are set. -/
def Item.settings : Item → List (Key × Arg)
  | .word k v _ => [(k, v)]
  | .letter k _ v _ => [(k, v)]
  | .short _ k _ v _ => [(k, v)]
  | _ => []

/-- How often help is asked for. -/
def Item.helps : Item → ℕ
  | .help n => n + 1
  | .short n _ _ _ _ => n
  | .helpWord _ => 1
  | _ => 0

/-- The names of files. -/
def Item.files : Item → List Arg
  | .other s => [s]
  | _ => []

/-- A command line: items, and perhaps `--` with names of files after it. -/
structure Line where
  items : List Item
  rest : Option (List Arg)

def Line.args (l : Line) : List Arg :=
  l.items.flatMap Item.text ++ match l.rest with
    | none => []
    | some r => ['-', '-'] :: r

def Line.settings (l : Line) : List (Key × Arg) := l.items.flatMap Item.settings
def Line.helps (l : Line) : ℕ := (l.items.map Item.helps).sum
def Line.files (l : Line) : List Arg := l.items.flatMap Item.files ++ l.rest.getD []

/-- All options exist. -/
def Line.Valid (keys : List Key) (l : Line) : Prop := ∀ i ∈ l.items, i.Valid keys

/-- No option is given twice. -/
def Line.Once (l : Line) : Prop := (l.settings.map Prod.fst).Nodup ∧ l.helps ≤ 1

/-- The value of an option. -/
def Line.value (l : Line) (word : String) : Option Arg :=
  (l.settings.find? fun s => s.1.word = word.toList).map Prod.snd

/-! ### Numbers -/

/-- Words for infinity and for something that is not a number, in any case. -/
def NotFinite (s : Arg) : Prop :=
  ∃ (σ : Svg.Sign) (w : Arg), s = σ.text ++ w ∧
    w.map Char.toLower ∈ [['i', 'n', 'f'], ['i', 'n', 'f', 'i', 'n', 'i', 't', 'y'], ['n', 'a', 'n']]

/-- The texts that are floating point numbers. -/
def FloatText (s : Arg) : Prop := (∃ n : Svg.Num, n.Valid ∧ s = n.text) ∨ NotFinite s

/-- An option that is not given, or given as a decimal number. -/
inductive Float : Option Arg → Option ℚ → Prop
  | none : Float .none .none
  | some (n : Svg.Num) (h : n.Valid) : Float (.some n.text) (.some n.value)

/-- The texts of integers that fit into 32 bits. -/
def IntText (s : Arg) (n : ℤ) : Prop :=
  ∃ (σ : Svg.Sign) (d : Svg.Digits), d ≠ [] ∧ s = σ.text ++ d.text ∧ n = σ.val * d.val ∧ -2 ^ 31 ≤ n ∧ n < 2 ^ 31

/-- An option that is not given, or given as an integer. -/
inductive Integer : Option Arg → Option ℤ → Prop
  | none : Integer .none .none
  | some (s : Arg) (n : ℤ) (h : IntText s n) : Integer (.some s) (.some n)

/-- An option that is not given, or given as a text with a property. -/
def IfGiven (P : Arg → Prop) (o : Option Arg) : Prop := ∀ s ∈ o, P s

/-! ### The options of the programs -/

def key (letter word : String) : Key := ⟨letter.toList.head?, word.toList⟩

/-- The options of `svg_path` with a value. -/
def svgKeys : List Key :=
  [key "v" "draw-speed", key "" "a-max", key "" "v-max", key "" "intensity", key "" "repeat", key "" "layer",
    key "d" "device", key "c" "config"]

/-- The options of `image_raster` with a value. -/
def rasterKeys : List Key :=
  [key "v" "draw-speed", key "" "a-max", key "" "v-max", key "" "width", key "" "height", key "" "spot-diam",
    key "" "intensity", key "d" "device", key "c" "config"]

/-- All numbers of a command line of `svg_path` are well written and in their ranges. -/
structure SvgGood (l : Line) : Prop where
  vMax : IfGiven FloatText (l.value "v-max")
  aMax : IfGiven FloatText (l.value "a-max")
  speed : IfGiven FloatText (l.value "draw-speed")
  repeats : IfGiven (fun s => ∃ n, IntText s n ∧ 1 ≤ n) (l.value "repeat")
  intensity : IfGiven (fun s => ∃ n, IntText s n ∧ 0 ≤ n ∧ n ≤ 100) (l.value "intensity")

/-- The same for `image_raster`. -/
structure RasterGood (l : Line) : Prop where
  vMax : IfGiven FloatText (l.value "v-max")
  aMax : IfGiven FloatText (l.value "a-max")
  speed : IfGiven FloatText (l.value "draw-speed")
  intensity : IfGiven (fun s => ∃ n, IntText s n ∧ 0 ≤ n ∧ n ≤ 100) (l.value "intensity")
  width : IfGiven FloatText (l.value "width")
  height : IfGiven FloatText (l.value "height")
  spot : IfGiven FloatText (l.value "spot-diam")

end StepperPaths.Spec.Cli
