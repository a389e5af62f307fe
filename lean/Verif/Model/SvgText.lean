import Verif.Model.SvgPath

/-!
Model of the text parsers of `/repo/src/svg_path_parser.rs` (module `parser`, 8-296, and
`parse_transform`, `parse_view_box`, `parse_length`, `parse_path`).  Text is a list of
characters.  A parser returns the rest of the text and a value; `none` is nom's recoverable
`Err::Error`, the only kind of error these parsers give (there is no `cut`, no streaming
parser).  The contents of the error are not modelled.  The combinators are those of nom 7.
-/

namespace StepperPaths.Svg
open Coords Draw

/-- `fn(&str) -> IResult<&str, α>`. -/
abbrev Parser (α : Type) := List Char → Option (List Char × α)

namespace Parser

variable {α β γ : Type}

/-- `combinator::map`. -/
def map (p : Parser α) (f : α → β) : Parser β := fun i => (p i).map fun r => (r.1, f r.2)

/-- `sequence::pair`; longer `tuple`s are nested pairs. -/
def pair (p : Parser α) (q : Parser β) : Parser (α × β) := fun i =>
  (p i).bind fun r => (q r.1).map fun t => (t.1, (r.2, t.2))

/-- `sequence::preceded`. -/
def preceded (p : Parser α) (q : Parser β) : Parser β := (pair p q).map Prod.snd

/-- `sequence::terminated`. -/
def terminated (p : Parser α) (q : Parser β) : Parser α := (pair p q).map Prod.fst

/-- `sequence::delimited`. -/
def delimited (p : Parser α) (q : Parser β) (r : Parser γ) : Parser β :=
  preceded p (terminated q r)

/-- `sequence::separated_pair`. -/
def separatedPair (p : Parser α) (s : Parser β) (q : Parser γ) : Parser (α × γ) :=
  pair p (preceded s q)

/-- `branch::alt` of two parsers. -/
def alt (p q : Parser α) : Parser α := fun i => (p i).orElse fun _ => q i

/-- `combinator::opt`. -/
def opt (p : Parser α) : Parser (Option α) := fun i =>
  match p i with
  | some (r, a) => some (r, some a)
  | none => some (i, none)

/-- `combinator::recognize`: the text that was read. -/
def recognize (p : Parser α) : Parser (List Char) := fun i =>
  (p i).map fun r => (r.1, i.take (i.length - r.1.length))

/-- `combinator::value`. -/
def value (b : β) (p : Parser α) : Parser β := p.map fun _ => b

/-- The longest prefix of characters with a property (`multispace0`, `digit0`). -/
def while0 (f : Char → Bool) : Parser (List Char) := fun i => some (i.dropWhile f, i.takeWhile f)

/-- The same, not empty (`multispace1`, `digit1`). -/
def while1 (f : Char → Bool) : Parser (List Char) := fun i =>
  if i.takeWhile f = [] then none else while0 f i

/-- `character::complete::char`. -/
def char (c : Char) : Parser Char
  | d :: i => if d = c then some (i, c) else none
  | [] => none

/-- `character::complete::one_of`. -/
def oneOf (cs : List Char) : Parser Char
  | d :: i => if d ∈ cs then some (i, d) else none
  | [] => none

/-- `bytes::complete::tag`. -/
def tag : List Char → Parser Unit
  | [], i => some (i, ())
  | c :: t, d :: i => if d = c then tag t i else none
  | _ :: _, [] => none

/-- The loop of `multi::separated_list0` after the first element.  nom's check that the separator
has consumed something makes it return an error otherwise; here it is the test that makes the
recursion well-founded. -/
def sepTail (sep : Parser β) (p : Parser α) (i : List Char) : Option (List Char × List α) :=
  match sep i with
  | none => some (i, [])
  | some (i1, _) =>
    if i1.length = i.length then none
    else
      match p i1 with
      | none => some (i, [])
      | some (i2, a) =>
        if i2.length < i.length then (sepTail sep p i2).map fun r => (r.1, a :: r.2)
        else none
  termination_by i.length

/-- `multi::separated_list0`.  (The second test of `sepTail` never fails for parsers that return
a suffix of their input.) -/
def separatedList0 (sep : Parser β) (p : Parser α) : Parser (List α) := fun i =>
  match p i with
  | none => some (i, [])
  | some (i1, a) => (sepTail sep p i1).map fun r => (r.1, a :: r.2)

end Parser

open StepperPaths.Svg.Parser

/-! ### Numbers -/

/-- The white space of nom's `multispace0` and `multispace1`. -/
def isSpace (c : Char) : Bool := c = ' ' || c = '\t' || c = '\r' || c = '\n'

/-- ASCII digits, as in `digit0` and `digit1`. -/
def isDigit (c : Char) : Bool := '0' ≤ c && c ≤ '9'

/-- `wsp_opt`, 82-84. -/
def wspOpt : Parser (List Char) := while0 isSpace

/-- `comma_wsp`, 86-91. -/
def commaWsp : Parser (List Char) :=
  alt (recognize (delimited wspOpt (char ',') wspOpt)) (while1 isSpace)

/-- `sign_opt`, 93-98, used only inside `recognize`; the value is left out. -/
def signOpt : Parser (Option Char) := opt (oneOf ['+', '-'])

/-- `fractional_constant`, 99-104. -/
def fractionalConstant : Parser (List Char) :=
  alt (recognize (separatedPair (while0 isDigit) (char '.') (while1 isDigit)))
    (recognize (terminated (while1 isDigit) (char '.')))

/-- `exponent`, 105-107. -/
def exponent : Parser (List Char) :=
  recognize (pair (oneOf ['e', 'E']) (pair signOpt (while1 isDigit)))

/-- `floating_point_constant`, 109-114. -/
def floatingPointConstant : Parser (List Char) :=
  alt (recognize (pair fractionalConstant (opt exponent)))
    (recognize (pair (while1 isDigit) exponent))

/-- The value of a digit. -/
def digitVal (c : Char) : ℕ := c.toNat - 48

/-- The value of a text of digits. -/
def digitsVal (l : List Char) : ℕ := l.foldl (fun a c => 10 * a + digitVal c) 0

/-- Takes a sign off a text. -/
def splitSign : List Char → Bool × List Char
  | '-' :: r => (true, r)
  | '+' :: r => (false, r)
  | r => (false, r)

/-- `if neg then -1 else 1`. -/
def signVal (neg : Bool) : ℚ := if neg then -1 else 1

/-- The digits after a decimal point, and the rest. -/
def splitFrac : List Char → List Char × List Char
  | '.' :: r => (r.takeWhile isDigit, r.dropWhile isDigit)
  | r => ([], r)

/-- The exponent at the end of a text. -/
def expVal : List Char → ℤ
  | [] => 0
  | _ :: r => (if (splitSign r).1 then -1 else 1) * (digitsVal (splitSign r).2 : ℤ)

/-- `f64::from_str` for the texts that the parsers hand to it, without rounding: the decimal
number that is written there.  (It does not fail on these texts.) -/
def fromStr (s : List Char) : ℚ :=
  let (neg, s1) := splitSign s
  let whole := s1.takeWhile isDigit
  let (frac, s3) := splitFrac (s1.dropWhile isDigit)
  signVal neg * digitsVal (whole ++ frac) * 10 ^ (expVal s3 - frac.length)

/-- `floating_point_signed`, 116-121. -/
def floatingPointSigned : Parser ℚ :=
  (recognize (pair signOpt floatingPointConstant)).map fromStr

/-- `integer`, 123-127. -/
def integer : Parser ℚ :=
  (recognize (pair (opt (oneOf ['+', '-'])) (while1 isDigit))).map fromStr

/-- `number`, 128-130. -/
def number : Parser ℚ := alt floatingPointSigned integer

/-! ### Transforms -/

/-- The head of a function call: name, `(` and white space. -/
def openFn (name : String) : Parser Unit :=
  (pair (tag name.toList) (pair wspOpt (pair (char '(') wspOpt))).map fun _ => ()

/-- Its end: white space and `)`. -/
def closeFn : Parser Unit := (pair wspOpt (char ')')).map fun _ => ()

/-- A number after a separator. -/
def nextNumber : Parser ℚ := preceded commaWsp number

/-- `matrix`, 131-145. -/
noncomputable def matrix : Parser Transform :=
  delimited (openFn "matrix")
    ((pair number (pair nextNumber (pair nextNumber (pair nextNumber
      (pair nextNumber nextNumber))))).map fun (a, b, c, d, e, f) => ⟨a, b, c, d, e, f⟩)
    closeFn

/-- `translate`, 146-157. -/
noncomputable def translate : Parser Transform :=
  delimited (openFn "translate")
    ((pair number (opt nextNumber)).map fun (x, y) => ⟨1, 0, 0, 1, x, (y.getD 0 : ℚ)⟩)
    closeFn

/-- `scale`, 159-173. -/
noncomputable def scale : Parser Transform :=
  delimited (openFn "scale")
    ((pair number (opt nextNumber)).map fun (x, y) => ⟨x, 0, 0, (y.getD x : ℚ), 0, 0⟩)
    closeFn

/-- Degrees as radians. -/
noncomputable def radians (a : ℚ) : ℝ := a * Real.pi / 180

/-- `rotate`, 175-196. -/
noncomputable def rotate : Parser Transform :=
  delimited (openFn "rotate")
    ((pair number (opt (pair nextNumber nextNumber))).map fun (a, c) =>
      match c with
      | some (cx, cy) => Transform.rotateAround (radians a) ⟨cx, cy⟩
      | none => Transform.rotate (radians a))
    closeFn

/-- `skewx`, 197-206. -/
noncomputable def skewX : Parser Transform :=
  delimited (openFn "skewX") (number.map fun a => Transform.skewX (radians a)) closeFn

/-- `skewy`, 208-217. -/
noncomputable def skewY : Parser Transform :=
  delimited (openFn "skewY") (number.map fun a => Transform.skewY (radians a)) closeFn

/-- `transform`, 219-221. -/
noncomputable def transform : Parser Transform :=
  alt matrix (alt translate (alt scale (alt rotate (alt skewX skewY))))

/-- `transforms`, 223-231.  The recursive call is made on a shorter text, which is tested here to
make the recursion well-founded; the test never fails. -/
noncomputable def transforms (i : List Char) : Option (List Char × Transform) :=
  let list : Option (List Char × Transform) :=
    (transform i).bind fun (i1, a) => (commaWsp i1).bind fun (i2, _) =>
      if i2.length < i.length then (transforms i2).map fun (i3, b) => (i3, a * b)
      else none
  list.orElse fun _ => transform i
  termination_by i.length

/-- `transform_list`, 233-235. -/
noncomputable def transformList : Parser Transform := preceded wspOpt transforms

/-- `parse_transform`, 300-305: what follows the list is ignored. -/
noncomputable def parseTransform (s : List Char) : Option Transform :=
  (transformList s).map Prod.snd

/-! ### View boxes and lengths -/

/-- `view_box_args`, 244-251. -/
def viewBoxArgs : Parser (ℚ × ℚ × ℚ × ℚ) :=
  (pair wspOpt (pair (pair number (pair nextNumber (pair nextNumber nextNumber))) wspOpt)).map
    fun (_, v, _) => v

/-- `parse_view_box`, 307-312. -/
def parseViewBox (s : List Char) : Option (ℚ × ℚ × ℚ × ℚ) := (viewBoxArgs s).map Prod.snd

/-- `INCH`, 253. -/
def inch : ℚ := 254 / 10
/-- `PX`, 254. -/
def px : ℚ := 1
/-- `PT`, 255. -/
def pt : ℚ := inch / 72

/-- `length_unit`, 257-266. -/
def lengthUnit : Parser ℚ :=
  alt (value 1 (tag "mm".toList)) (alt (value 10 (tag "cm".toList)) (alt (value inch (tag "in".toList))
    (alt (value px (tag "px".toList)) (alt (value pt (tag "pt".toList))
      (value (pt * 12) (tag "pc".toList))))))

/-- `physical_length`, 268-281. -/
def physicalLength : Parser ℚ :=
  (pair wspOpt (pair number (pair wspOpt (opt (terminated lengthUnit wspOpt))))).map
    fun (_, v, _, u) =>
      match u with
      | some u => v * u
      | none => v

/-- `parse_length`, 314-319. -/
def parseLength (s : List Char) : Option ℚ := (physicalLength s).map Prod.snd

/-! ### Paths -/

/-- The letters of `path_command`. -/
def letters : List Char := "mMzZlLhHvVcCsSqQtTaA".toList

/-- `path_command`, 237-242. -/
def pathCommand : Parser (Char × List ℚ) :=
  pair (preceded wspOpt (oneOf letters)) (preceded wspOpt (separatedList0 commaWsp number))

/-- `char::is_whitespace` (the Unicode property White_Space), which `str::trim_start` removes. -/
def isWhite (c : Char) : Bool :=
  (9 ≤ c.toNat && c.toNat ≤ 13) || c.toNat = 0x20 || c.toNat = 0x85 || c.toNat = 0xA0 ||
  c.toNat = 0x1680 || (0x2000 ≤ c.toNat && c.toNat ≤ 0x200A) || c.toNat = 0x2028 ||
  c.toNat = 0x2029 || c.toNat = 0x202F || c.toNat = 0x205F || c.toNat = 0x3000

/-- How a call of `parse_path` ends: with a panic, or with a result and the changed context. -/
inductive Outcome
  | panic
  | done (r : Except BuildError Unit) (s : PathState)

/-- The loop of `parse_path`, 831-848.  `none` would be an endless loop. -/
noncomputable def pathLoop (tr : Transform) (first : Bool) (text : List Char) (s : PathState) :
    Option Outcome :=
  let text := text.dropWhile isWhite
  if text = [] then some (.done (.ok ()) s)
  else
    match pathCommand text with
    | none => some .panic
    | some (rest, cmd, args) =>
      match buildPath cmd (args.map fun q : ℚ => (q : ℝ)) tr first s with
      | none => some .panic
      | some (.error e, s') => some (.done (.error e) s')
      | some (.ok (), s') => pathLoop tr false rest s'
  partial_fixpoint

/-- `parse_path`, 824-850. -/
noncomputable def parsePath (text : List Char) (tr : Transform) (s : PathState) : Option Outcome :=
  pathLoop tr true text s

end StepperPaths.Svg
