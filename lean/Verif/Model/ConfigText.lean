import Verif.Model.Config
import Verif.Model.SvgText

/-!
Model of `read_config` (`/repo/src/stepper_config_parser.rs` 41-54) on the text of the configuration file:
the structures of `/repo/src/stepper_config.rs` with `derive(Deserialize)` and `rename_all = "camelCase"`, read by
`serde_json::from_reader`.

The crates `serde` and `serde_json` 1.0 are modelled after their documentation; their source is not in the
repository.  The text is valid Unicode.  The texts of the errors are left out: `none` is an error.
`conv` is the conversion of the text of a number to `f64`, with `none` for a number that is out of
range; the crate does not promise that it is correctly rounded.

The crate reads the file piece by piece; here the recursion over nested values is bounded by a
number `n`, for which `readConfig` takes the length of the text.
-/

namespace StepperPaths.ConfigText
open Config Svg

abbrev Text := List Char

/-- White space between tokens. -/
def isWs (c : Char) : Bool := c = ' ' || c = '\n' || c = '\t' || c = '\r'

def skipWs (i : Text) : Text := i.dropWhile isWs

/-! ### Strings -/

/-- The value of a hexadecimal digit. -/
def hexVal (c : Char) : Option ℕ :=
  if '0' ≤ c ∧ c ≤ '9' then some (c.toNat - 48)
  else if 'a' ≤ c ∧ c ≤ 'f' then some (c.toNat - 87)
  else if 'A' ≤ c ∧ c ≤ 'F' then some (c.toNat - 55)
  else none

/-- `decode_hex_escape`. -/
def hex4 (a b c d : Char) : Option ℕ := do
  let a ← hexVal a
  let b ← hexVal b
  let c ← hexVal c
  let d ← hexVal d
  return ((a * 16 + b) * 16 + c) * 16 + d

/-- The character of an escape with one letter. -/
def escape : Char → Option Char
  | '"' => some '"'
  | '\\' => some '\\'
  | '/' => some '/'
  | 'b' => some '\x08'
  | 'f' => some '\x0c'
  | 'n' => some '\n'
  | 'r' => some '\r'
  | 't' => some '\t'
  | _ => none

/-- A character of a string, or a number of UTF-16 written in hexadecimal. -/
inductive Piece
  | char (c : Char)
  | unit (n : ℕ)
  deriving DecidableEq

/-- The rest of a string after the opening quote (`ignore_str`). -/
def pieces : Text → Option (Text × List Piece)
  | [] => none
  | '"' :: r => some (r, [])
  | '\\' :: 'u' :: a :: b :: c :: d :: r =>
    (hex4 a b c d).bind fun n => (pieces r).map fun (r, l) => (r, .unit n :: l)
  | '\\' :: e :: r => (escape e).bind fun c => (pieces r).map fun (r, l) => (r, .char c :: l)
  | ['\\'] => none
  | c :: r => if c.toNat < 32 then none else (pieces r).map fun (r, l) => (r, .char c :: l)

/-- What a string says (`parse_str`): a number in the range of the leading surrogates must be followed by
one in the range of the trailing ones, and these must not occur otherwise. -/
def decode : List Piece → Option (List Char)
  | [] => some []
  | .char c :: l => (decode l).map (c :: ·)
  | .unit a :: l =>
    if 0xDC00 ≤ a ∧ a ≤ 0xDFFF then none
    else if a < 0xD800 ∨ 0xDBFF < a then (decode l).map (Char.ofNat a :: ·)
    else
      match l with
      | .unit b :: l =>
        if b < 0xDC00 ∨ 0xDFFF < b then none
        else (decode l).map (Char.ofNat ((a - 0xD800) * 1024 + (b - 0xDC00) + 0x10000) :: ·)
      | _ => none

/-! ### Numbers -/

/-- Digits, at least one. -/
def digits1 (i : Text) : Option (Text × Text) :=
  if i.takeWhile isDigit = [] then none else some (i.dropWhile isDigit, i.takeWhile isDigit)

/-- The digits before the point: a zero is not followed by others. -/
def whole (i : Text) : Option (Text × Text) :=
  (digits1 i).bind fun (r, w) =>
    match w with
    | '0' :: _ :: _ => none
    | _ => some (r, w)

/-- The point and the digits after it. -/
def frac : Text → Option (Text × Text)
  | '.' :: r => (digits1 r).map fun (r, w) => (r, '.' :: w)
  | r => some (r, [])

/-- The digits of an exponent after an optional sign. -/
def expDigits : Text → Option (Text × Text)
  | '+' :: r => (digits1 r).map fun (r, w) => (r, '+' :: w)
  | '-' :: r => (digits1 r).map fun (r, w) => (r, '-' :: w)
  | r => digits1 r

/-- The exponent. -/
def expo : Text → Option (Text × Text)
  | 'e' :: r => (expDigits r).map fun (r, w) => (r, 'e' :: w)
  | 'E' :: r => (expDigits r).map fun (r, w) => (r, 'E' :: w)
  | r => some (r, [])

/-- A number without its sign. -/
def unsigned (i : Text) : Option (Text × Text) := do
  let (i, w) ← whole i
  let (i, f) ← frac i
  let (i, e) ← expo i
  return (i, w ++ f ++ e)

/-- The text of a number (`parse_integer`, `ignore_number`). -/
def number : Text → Option (Text × Text)
  | '-' :: r => (unsigned r).map fun (r, w) => (r, '-' :: w)
  | r => unsigned r

/-! ### Values that are not used -/

/-- The rest of a word. -/
def word (w i : Text) : Option Text := if w.isPrefixOf i then some (i.drop w.length) else none

mutual
/-- A value of any kind (`ignore_value`), without white space before it. -/
def value : ℕ → Text → Option Text
  | 0, _ => none
  | n + 1, i =>
    match i with
    | 'n' :: r => word "ull".toList r
    | 't' :: r => word "rue".toList r
    | 'f' :: r => word "alse".toList r
    | '"' :: r => (pieces r).map Prod.fst
    | '[' :: r =>
      match skipWs r with
      | ']' :: r => some r
      | r => elems n r
    | '{' :: r =>
      match skipWs r with
      | '}' :: r => some r
      | r => members n r
    | i => (number i).map Prod.fst

/-- The elements of an array from the next one on. -/
def elems : ℕ → Text → Option Text
  | 0, _ => none
  | n + 1, i =>
    (value n i).bind fun r =>
      match skipWs r with
      | ',' :: r => elems n (skipWs r)
      | ']' :: r => some r
      | _ => none

/-- The members of an object from the next one on. -/
def members : ℕ → Text → Option Text
  | 0, _ => none
  | n + 1, i =>
    match i with
    | '"' :: r =>
      (pieces r).bind fun (r, _) =>
        match skipWs r with
        | ':' :: r =>
          (value n (skipWs r)).bind fun r =>
            match skipWs r with
            | ',' :: r => members n (skipWs r)
            | '}' :: r => some r
            | _ => none
        | _ => none
    | _ => none
end

/-! ### Numbers and records -/

/-- `f64` (`deserialize_f64`): any number that is in range. -/
def f64 (conv : Text → Option ℝ) (i : Text) : Option (Text × ℝ) :=
  (number i).bind fun (r, w) => (conv w).map fun x => (r, x)

/-- `u32` (`deserialize_u32`): digits only, and the number fits. -/
def u32 (i : Text) : Option (Text × ℕ) :=
  (number i).bind fun (r, w) =>
    if w.all isDigit ∧ digitsVal w ≤ 4294967295 then some (r, digitsVal w) else none

/-- A field of a structure: its name, and how it is read. -/
abbrev Field (α : Type) := List Char × (Text → Option (Text × α))

/-- The value of a member: a field that comes twice is an error, the values of other keys are ignored. -/
def field {α : Type} (fs : List (Field α)) (n : ℕ) (key i : Text) (slots : List (Option α)) :
    Option (Text × List (Option α)) :=
  let k := fs.findIdx fun f => f.1 = key
  match fs[k]? with
  | none => (value n i).map fun r => (r, slots)
  | some f =>
    match slots[k]? with
    | some none => (f.2 i).map fun (r, v) => (r, slots.set k (some v))
    | _ => none

/-- `visit_map` of a derived `Deserialize`, from the next key on, with the fields that have been seen. -/
def fields {α : Type} (fs : List (Field α)) : ℕ → Text → List (Option α) → Option (Text × List (Option α))
  | 0, _, _ => none
  | n + 1, i, slots =>
    match i with
    | '"' :: r =>
      (pieces r).bind fun (r, l) => (decode l).bind fun key =>
        match skipWs r with
        | ':' :: r =>
          (field fs n key (skipWs r) slots).bind fun (r, slots) =>
            match skipWs r with
            | ',' :: r => fields fs n (skipWs r) slots
            | '}' :: r => some (r, slots)
            | _ => none
        | _ => none
    | _ => none

/-- `visit_seq` of a derived `Deserialize`, after the opening bracket: exactly the fields, in order. -/
def entries {α : Type} : List (Field α) → Text → Option (Text × List α)
  | [], i =>
    match skipWs i with
    | ']' :: r => some (r, [])
    | _ => none
  | [f], i =>
    (f.2 (skipWs i)).bind fun (r, v) =>
      match skipWs r with
      | ']' :: r => some (r, [v])
      | _ => none
  | f :: fs, i =>
    (f.2 (skipWs i)).bind fun (r, v) =>
      match skipWs r with
      | ',' :: r => (entries fs r).map fun (r, vs) => (r, v :: vs)
      | _ => none

/-- A structure (`deserialize_struct`): an object in which every field occurs, or an array. -/
def record {α : Type} (fs : List (Field α)) (n : ℕ) : Text → Option (Text × List α)
  | '{' :: r =>
    match skipWs r with
    | '}' :: r => if fs = [] then some (r, []) else none
    | r => (fields fs n r (fs.map fun _ => none)).bind fun (r, slots) =>
        (slots.mapM id).map fun vs => (r, vs)
  | '[' :: r => entries fs r
  | _ => none

/-! ### The configuration -/

/-- `LaserConfig`, stepper_config.rs 11-17. -/
structure Laser where
  maxIntensity : ℕ
  pwmPeriod : ℕ
  alignmentIntensity : ℕ

/-- `XyStepperConfig`, stepper_config.rs 19-26, with the laser. -/
structure Full where
  xy : Xy
  laser : Laser

/-- `StepperConfig`, stepper_config.rs 3-9. -/
def stepper (conv : Text → Option ℝ) (n : ℕ) (i : Text) : Option (Text × Stepper) :=
  (record [("stepsPerMillimeter".toList, f64 conv), ("maxVelocity".toList, f64 conv),
    ("maxAcceleration".toList, f64 conv)] n i).bind fun (r, vs) =>
      match vs with
      | [a, b, c] => some (r, ⟨a, b, c⟩)
      | _ => none

/-- `LaserConfig`, stepper_config.rs 11-17. -/
def laser (n : ℕ) (i : Text) : Option (Text × Laser) :=
  (record [("maxIntensity".toList, u32), ("pwmPeriod".toList, u32), ("alignmentIntensity".toList, u32)] n i).bind
    fun (r, vs) =>
      match vs with
      | [a, b, c] => some (r, ⟨a, b, c⟩)
      | _ => none

/-- The value of a field of `XyStepperConfig`. -/
inductive Part
  | ticks (n : ℕ)
  | stepper (s : Stepper)
  | laser (l : Laser)

/-- `XyStepperConfig`, stepper_config.rs 19-26. -/
def config (conv : Text → Option ℝ) (n : ℕ) (i : Text) : Option (Text × Full) :=
  (record (α := Part) [("ticksPerSecond".toList, fun i => (u32 i).map fun (r, v) => (r, Part.ticks v)),
    ("stepperX".toList, fun i => (stepper conv n i).map fun (r, v) => (r, Part.stepper v)),
    ("stepperY".toList, fun i => (stepper conv n i).map fun (r, v) => (r, Part.stepper v)),
    ("laser".toList, fun i => (laser n i).map fun (r, v) => (r, Part.laser v))] n i).bind fun (r, vs) =>
      match vs with
      | [.ticks t, .stepper x, .stepper y, .laser l] =>
        some (r, ⟨⟨t, fun a => match a with | .x => x | .y => y⟩, l⟩)
      | _ => none

/-- `serde_json::from_reader` of stepper_config_parser.rs 48: the configuration, and nothing after it. -/
def readConfig (conv : Text → Option ℝ) (text : Text) : Option Full :=
  (config conv text.length (skipWs text)).bind fun (r, c) => if skipWs r = [] then some c else none

/-- `read_config`, stepper_config_parser.rs 41-54: `none` if the file cannot be opened or is not a configuration.
`files` is what the files contain. -/
def fileConfig (conv : Text → Option ℝ) (files : Text → Option Text) (name : Text) : Option Xy :=
  ((files name).bind (readConfig conv)).map Full.xy

end StepperPaths.ConfigText
