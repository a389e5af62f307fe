import Verif.Model.SvgDoc
import Verif.Model.Rounded

/-!
A second model of the reading of SVG documents (`/repo/src/svg_path_parser.rs`, `/repo/src/svg_parser.rs`,
and the transforms of `/repo/src/coords.rs`), with rounding: every `f64` operation is followed by a
rounding function `fl`.  The functions of the mathematical library are parameters.  There is no
overflow to infinity and no NaN, and no negative zero.  The control flow is that of the models `SvgPath`,
`SvgText` and `SvgDoc`.

Not rounded, since exact in `f64`: negation, comparisons, `f64::abs`, small integers.
-/

namespace StepperPaths.Rounded
open Coords Draw StepperPaths.Svg StepperPaths.Svg.Parser

/-- The functions of the mathematical library. -/
structure Lib where
  sin : ℝ → ℝ
  cos : ℝ → ℝ
  tan : ℝ → ℝ
  atan2 : ℝ → ℝ → ℝ

variable (fl : ℝ → ℝ) (lib : Lib)

/-! ### coords.rs -/

/-- `matrix_mul`, coords.rs 197-206. -/
noncomputable def tmul (a b : Transform) : Transform :=
  ⟨fl (fl (a.m0 * b.m0) + fl (a.m2 * b.m1)),
   fl (fl (a.m1 * b.m0) + fl (a.m3 * b.m1)),
   fl (fl (a.m0 * b.m2) + fl (a.m2 * b.m3)),
   fl (fl (a.m1 * b.m2) + fl (a.m3 * b.m3)),
   fl (fl (fl (a.m0 * b.m4) + fl (a.m2 * b.m5)) + a.m4),
   fl (fl (fl (a.m1 * b.m4) + fl (a.m3 * b.m5)) + a.m5)⟩

/-- `Mul<Vector>`, coords.rs 335-343. -/
noncomputable def tapply (a : Transform) (v : Vec) : Vec :=
  ⟨fl (fl (fl (a.m0 * v.x) + fl (a.m2 * v.y)) + a.m4), fl (fl (fl (a.m1 * v.x) + fl (a.m3 * v.y)) + a.m5)⟩

/-- `Transform::rotate`, coords.rs 238-243. -/
noncomputable def rotateF (a : ℝ) : Transform := ⟨lib.cos a, lib.sin a, -lib.sin a, lib.cos a, 0, 0⟩

/-- `Transform::rotate_around`, coords.rs 245-257. -/
noncomputable def rotateAroundF (a : ℝ) (pivot : Vec) : Transform :=
  ⟨lib.cos a, lib.sin a, -lib.sin a, lib.cos a,
   fl (fl (pivot.x * fl (1 - lib.cos a)) + fl (pivot.y * lib.sin a)),
   fl (fl (-pivot.x * lib.sin a) + fl (pivot.y * fl (1 - lib.cos a)))⟩

/-! ### Transforms -/

/-- A call of a transform function, as it is written: name and numbers.  The parsers of `SvgText` read
and evaluate at once; here reading comes first. -/
inductive Fn
  | matrix (a b c d e f : ℚ)
  | translate (x : ℚ) (y : Option ℚ)
  | scale (x : ℚ) (y : Option ℚ)
  | rotate (a : ℚ) (c : Option (ℚ × ℚ))
  | skewX (a : ℚ)
  | skewY (a : ℚ)

/-- `transform`, svg_path_parser.rs 131-221, without the evaluation. -/
def fn : Parser Fn :=
  alt (delimited (openFn "matrix")
    ((pair number (pair nextNumber (pair nextNumber (pair nextNumber
      (pair nextNumber nextNumber))))).map fun (a, b, c, d, e, f) => Fn.matrix a b c d e f) closeFn)
  (alt (delimited (openFn "translate") ((pair number (opt nextNumber)).map fun (x, y) => Fn.translate x y) closeFn)
  (alt (delimited (openFn "scale") ((pair number (opt nextNumber)).map fun (x, y) => Fn.scale x y) closeFn)
  (alt (delimited (openFn "rotate")
    ((pair number (opt (pair nextNumber nextNumber))).map fun (a, c) => Fn.rotate a c) closeFn)
  (alt (delimited (openFn "skewX") (number.map Fn.skewX) closeFn)
    (delimited (openFn "skewY") (number.map Fn.skewY) closeFn)))))

/-- `transforms`, 223-231: the calls. -/
def fns (i : List Char) : Option (List Char × List Fn) :=
  let list : Option (List Char × List Fn) :=
    (fn i).bind fun (i1, a) => (commaWsp i1).bind fun (i2, _) =>
      if i2.length < i.length then (fns i2).map fun (i3, b) => (i3, a :: b)
      else none
  list.orElse fun _ => (fn i).map fun (i1, a) => (i1, [a])
  termination_by i.length

/-- The calls in a `transform` attribute. -/
def calls (s : List Char) : Option (List Fn) := (preceded wspOpt fns s).map Prod.snd

/-- Degrees as radians, `a * PI / 180.0`. -/
noncomputable def radiansF (a : ℚ) : ℝ := fl (fl (fl a * fl Real.pi) / 180)

/-- The value of a call, 131-217. -/
noncomputable def Fn.evalF : Fn → Transform
  | .matrix a b c d e f => ⟨fl a, fl b, fl c, fl d, fl e, fl f⟩
  | .translate x y => ⟨1, 0, 0, 1, fl x, fl (y.getD 0 : ℚ)⟩
  | .scale x y => ⟨fl x, 0, 0, fl (y.getD x : ℚ), 0, 0⟩
  | .rotate a (some (cx, cy)) => rotateAroundF fl lib (radiansF fl a) ⟨fl cx, fl cy⟩
  | .rotate a none => rotateF lib (radiansF fl a)
  | .skewX a => ⟨1, 0, lib.tan (radiansF fl a), 1, 0, 0⟩
  | .skewY a => ⟨1, lib.tan (radiansF fl a), 0, 1, 0, 0⟩

/-- The product of the calls, 223-231: `a * (b * …)`. -/
noncomputable def evalAllF : List Fn → Transform
  | [] => .identity
  | [a] => a.evalF fl lib
  | a :: b :: l => tmul fl (a.evalF fl lib) (evalAllF (b :: l))

/-- `parse_transform`, 300-305. -/
noncomputable def parseTransformF (s : List Char) : Option Transform := (calls s).map (evalAllF fl lib)

/-! ### Lengths -/

/-- The units of lengths. -/
inductive LengthUnit
  | mm | cm | inch | px | pt | pc

/-- `length_unit`, 257-266, without the values. -/
def lengthUnitName : Parser LengthUnit :=
  alt (value .mm (tag "mm".toList)) (alt (value .cm (tag "cm".toList)) (alt (value .inch (tag "in".toList))
    (alt (value .px (tag "px".toList)) (alt (value .pt (tag "pt".toList)) (value .pc (tag "pc".toList))))))

/-- The values of the units, 253-266. -/
noncomputable def LengthUnit.valueF : LengthUnit → ℝ
  | .mm => 1
  | .cm => 10
  | .inch => fl 25.4
  | .px => 1
  | .pt => fl (fl 25.4 / 72)
  | .pc => fl (fl (fl 25.4 / 72) * 12)

/-- `physical_length`, 268-281, without the evaluation. -/
def lengthParts (s : List Char) : Option (ℚ × Option LengthUnit) :=
  ((pair wspOpt (pair number (pair wspOpt (opt (terminated lengthUnitName wspOpt))))).map
    fun (_, v, _, u) => (v, u)) s |>.map Prod.snd

/-- The value of a length, 275-280. -/
noncomputable def lengthF : ℚ × Option LengthUnit → ℝ
  | (v, some u) => fl (fl v * u.valueF fl)
  | (v, none) => fl v

/-- `parse_length`, 314-319. -/
noncomputable def parseLengthF (s : List Char) : Option ℝ := (lengthParts s).map (lengthF fl)

/-! ### Ellipses and arcs -/

/-- `mul2x2`, 377-384. -/
noncomputable def mul2x2F (a b : Mat) : Mat :=
  ⟨fl (fl (a.a * b.a) + fl (a.b * b.c)), fl (fl (a.a * b.b) + fl (a.b * b.d)),
   fl (fl (a.c * b.a) + fl (a.d * b.c)), fl (fl (a.c * b.b) + fl (a.d * b.d))⟩

/-- `invert2x2`, 386-393. -/
noncomputable def invert2x2F (m : Mat) : Option Mat :=
  let d := fl (fl (m.a * m.d) - fl (m.b * m.c))
  if d = 0 then none else some ⟨fl (m.d / d), fl (-m.b / d), fl (-m.c / d), fl (m.a / d)⟩

/-- The matrix of the quadratic form of an ellipse, 418-429. -/
noncomputable def ellipseFormF (rx ry rot : ℝ) : Mat :=
  let rs := lib.sin rot
  let rc := lib.cos rot
  let rs2 := fl (rs * rs)
  let rc2 := fl (rc * rc)
  let rx2 := fl (rx * rx)
  let ry2 := fl (ry * ry)
  let A := fl (fl (rc2 / rx2) + fl (rs2 / ry2))
  let B := fl (fl (rs2 / rx2) + fl (rc2 / ry2))
  let C := fl (fl (fl (fl (1 / rx2) - fl (1 / ry2)) * rs) * rc)
  ⟨A, C, C, B⟩

/-- The half axes and the rotation of a form, 439-456. -/
noncomputable def formAxesF (q : Mat) : Option (ℝ × ℝ × ℝ) :=
  let trot := fl (lib.atan2 (fl (-q.c * 2)) (fl (q.d - q.a)) / 2)
  let ts := lib.sin trot
  let tc := lib.cos trot
  let tc2 := fl (tc * tc)
  let ts2 := fl (ts * ts)
  let tcs := fl (tc * ts)
  let den := fl (fl (fl (q.a * tc2) + fl (fl (2 * q.c) * tcs)) + fl (q.d * ts2))
  if den ≤ 0 then none
  else
    let den' := fl (fl (fl (q.a * ts2) - fl (fl (2 * q.c) * tcs)) + fl (q.d * tc2))
    if den' ≤ 0 then none
    else some (fl √(fl (1 / den)), fl √(fl (1 / den')), trot)

/-- `transform_ellipse`, 417-458. -/
noncomputable def transformEllipseF (rx ry rot : ℝ) (m : Mat) : Option (ℝ × ℝ × ℝ) :=
  (invert2x2F fl m).bind fun invm =>
    formAxesF fl lib (mul2x2F fl (mul2x2F fl (transpose2x2 invm) (ellipseFormF fl lib rx ry rot)) invm)

/-- The two points on the ellipse for `|dy| < |dx|`, 738-752. -/
noncomputable def chordFlatF (rx ry dx dy : ℝ) : Option (Vec × Vec) :=
  let k := fl (dy / dx)
  let ry2 := fl (ry * ry)
  let c := fl (fl (ry2 / fl (rx * rx)) + fl (k * k))
  let m2 := fl (fl (fl (fl (fl (c * dx) * dx) / 4) - ry2) / fl (fl (fl (k * k) / c) - 1))
  if m2 < 0 then none
  else
    let m := fl √m2
    let mp := fl (fl (-k * m) / c)
    let x1 := fl (mp - fl (dx / 2))
    let x2 := fl (mp + fl (dx / 2))
    some (⟨x1, fl (fl (k * x1) + m)⟩, ⟨x2, fl (fl (k * x2) + m)⟩)

/-- The same for `|dx| ≤ |dy|`, 754-768. -/
noncomputable def chordSteepF (rx ry dx dy : ℝ) : Option (Vec × Vec) :=
  let k := fl (dx / dy)
  let rx2 := fl (rx * rx)
  let c := fl (fl (rx2 / fl (ry * ry)) + fl (k * k))
  let m2 := fl (fl (fl (fl (fl (c * dy) * dy) / 4) - rx2) / fl (fl (fl (k * k) / c) - 1))
  if m2 < 0 then none
  else
    let m := fl √m2
    let mp := fl (fl (-k * m) / c)
    let y1 := fl (mp - fl (dy / 2))
    let y2 := fl (mp + fl (dy / 2))
    some (⟨fl (fl (k * y1) + m), y1⟩, ⟨fl (fl (k * y2) + m), y2⟩)

/-- The choice between the two, 737-769. -/
noncomputable def chordF (rx ry dx dy : ℝ) : Option (Vec × Vec) :=
  if |dy| < |dx| then chordFlatF fl rx ry dx dy else chordSteepF fl rx ry dx dy

open Classical in
/-- The angles of the arc, 771-788. -/
noncomputable def arcAnglesF (rx ry : ℝ) (p1 p2 : Vec) (largeArc sweep : Prop) : ℝ × ℝ :=
  let a1 := lib.atan2 (fl (p1.y / ry)) (fl (p1.x / rx))
  let a2 := lib.atan2 (fl (p2.y / ry)) (fl (p2.x / rx))
  let a2 :=
    if Xor largeArc (|fl (a2 - a1)| > fl Real.pi) then
      (if a1 < a2 then fl (a2 - fl (2 * fl Real.pi)) else fl (a2 + fl (2 * fl Real.pi)))
    else a2
  if Xor sweep (a2 > a1) then (fl (a2 + fl Real.pi), fl (a1 + fl Real.pi)) else (a1, a2)

/-- One arc, 710-803. -/
noncomputable def arcSegF (tr : Transform) (d : Vec) (a : ArcArgs) : Option (Except BuildError Seg) :=
  if d.x = 0 ∧ d.y = 0 then some (.error .zeroArc)
  else
    (transformEllipseF fl lib a.rx a.ry a.rot ⟨tr.m0, tr.m2, tr.m1, tr.m3⟩).bind fun (rx, ry, rot) =>
      let rs := lib.sin a.rot
      let rc := lib.cos a.rot
      match chordF fl rx ry (fl (fl (d.x * rc) - fl (d.y * rs))) (fl (fl (d.x * rs) + fl (d.y * rc))) with
      | none => some (.error .ellipseTooSmall)
      | some (p1, p2) =>
        let (a1, a2) := arcAnglesF fl lib rx ry p1 p2 a.largeArc a.sweep
        some (.ok (.arc rx ry a1 a2 rot))

/-! ### The loops over the arguments, as in `SvgPath` -/

/-- The next position: relative to the current one or not. -/
noncomputable def targetF (rel : Bool) (pos p : Vec) : Vec := if rel then vadd fl pos p else p

/-- The lines of `m` and `l`, 513-521 and 533-541. -/
noncomputable def lineLoopF (rel : Bool) (tr : Transform) : List ℝ → PathState → PathState
  | x :: y :: rest, s =>
    let pos := targetF fl rel s.pos ⟨x, y⟩
    lineLoopF rel tr rest ({ s with pos }.push (.lineTo (tapply fl tr pos)))
  | _, s => s

/-- The lines of `v`, 548-556. -/
noncomputable def vertLoopF (rel : Bool) (tr : Transform) : List ℝ → PathState → PathState
  | y :: rest, s =>
    let pos : Vec := ⟨s.pos.x, if rel then fl (s.pos.y + y) else y⟩
    vertLoopF rel tr rest ({ s with pos }.push (.lineTo (tapply fl tr pos)))
  | _, s => s

/-- The lines of `h`, 565-573. -/
noncomputable def horLoopF (rel : Bool) (tr : Transform) : List ℝ → PathState → PathState
  | x :: rest, s =>
    let pos : Vec := ⟨if rel then fl (s.pos.x + x) else x, s.pos.y⟩
    horLoopF rel tr rest ({ s with pos }.push (.lineTo (tapply fl tr pos)))
  | _, s => s

/-- The curves of `c`, 589-630. -/
noncomputable def cubicLoopF (rel : Bool) (tr : Transform) : List ℝ → PathState → PathState
  | x1 :: y1 :: x2 :: y2 :: x :: y :: rest, s =>
    let o := offset rel s.pos
    let p2 := vadd fl ⟨x, y⟩ o
    let c1 := vadd fl ⟨x1, y1⟩ o
    let c2 := vadd fl ⟨x2, y2⟩ o
    let seg := Seg.curveTo (tapply fl tr p2) (vsub fl (tapply fl tr c1) (tapply fl tr s.pos))
      (vsub fl (tapply fl tr c2) (tapply fl tr p2))
    cubicLoopF rel tr rest ({ s with pos := p2, lastControl := some c2 }.push seg)
  | _, s => s

/-- The curves of `q`, 647-684. -/
noncomputable def quadLoopF (rel : Bool) (tr : Transform) : List ℝ → PathState → PathState
  | x1 :: y1 :: x :: y :: rest, s =>
    let o := offset rel s.pos
    let p2 := vadd fl ⟨x, y⟩ o
    let m1 := vadd fl ⟨x1, y1⟩ o
    let control := vadd fl (vmul fl (vsub fl m1 p2) (fl (2 / 3))) p2
    let seg := Seg.curveTo (tapply fl tr p2) (vmul fl (vsub fl (tapply fl tr m1) (tapply fl tr s.pos)) (fl (2 / 3)))
      (vmul fl (vsub fl (tapply fl tr m1) (tapply fl tr p2)) (fl (2 / 3)))
    quadLoopF rel tr rest ({ s with pos := p2, lastControl := some control }.push seg)
  | _, s => s

/-- The arcs of `a`, 697-812, with `get_arc_args`, 470-480. -/
noncomputable def arcLoopF (rel : Bool) (tr : Transform) : List ℝ → PathState → Option Built
  | rx :: ry :: rot :: large :: sweep :: x :: y :: rest, s =>
    let a : ArcArgs := ⟨rx, ry, fl (fl (rot * fl Real.pi) / 180), large ≠ 0, sweep ≠ 0⟩
    let d := vsub fl (if rel then tapply fl tr (vadd fl ⟨x, y⟩ s.pos) else tapply fl tr ⟨x, y⟩) (tapply fl tr s.pos)
    match arcSegF fl lib tr d a with
    | none => none
    | some (.error e) => some (.error e, s)
    | some (.ok seg) => arcLoopF rel tr rest { s.push seg with pos := targetF fl rel s.pos ⟨x, y⟩ }
  | _, s => some (.ok (), s)

/-- The first point of `m`, 503-512. -/
noncomputable def moveFirstF (rel : Bool) (tr : Transform) (p : Vec) (s : PathState) : PathState :=
  let pos := targetF fl rel s.pos p
  { s with pos, start := pos }.push (.goTo (tapply fl tr pos))

/-- `m`, 502-521, after the checks. -/
noncomputable def moveCmdF (rel first : Bool) (tr : Transform) (args : List ℝ) (s : PathState) : PathState :=
  match args with
  | x :: y :: rest => lineLoopF fl rel tr rest (moveFirstF fl (rel && !first) tr ⟨x, y⟩ s)
  | _ => s

/-- `z`, 814-818. -/
noncomputable def closeCmdF (tr : Transform) (s : PathState) : PathState :=
  { s with pos := s.start }.push (.closeTo (tapply fl tr s.start))

/-- `build_path`, 482-822, as in `SvgPath`. -/
noncomputable def buildPathF (cmd : Char) (args : List ℝ) (tr : Transform) (first : Bool)
    (s : PathState) : Option Built :=
  let ok (s : PathState) : Option Built := some (.ok (), s)
  match cmd with
  | 'm' => checkArgs 2 args s (ok (moveCmdF fl true first tr args s).noControl)
  | 'M' => checkArgs 2 args s (ok (moveCmdF fl false first tr args s).noControl)
  | 'l' => checkArgs 2 args s (ok (lineLoopF fl true tr args s).noControl)
  | 'L' => checkArgs 2 args s (ok (lineLoopF fl false tr args s).noControl)
  | 'v' => checkArgs 1 args s (ok (vertLoopF fl true tr args s).noControl)
  | 'V' => checkArgs 1 args s (ok (vertLoopF fl false tr args s).noControl)
  | 'h' => checkArgs 1 args s (ok (horLoopF fl true tr args s).noControl)
  | 'H' => checkArgs 1 args s (ok (horLoopF fl false tr args s).noControl)
  | 'c' => checkArgs 6 args s (ok (cubicLoopF fl true tr args s))
  | 'C' => checkArgs 6 args s (ok (cubicLoopF fl false tr args s))
  | 'q' => checkArgs 4 args s (ok (quadLoopF fl true tr args s))
  | 'Q' => checkArgs 4 args s (ok (quadLoopF fl false tr args s))
  | 'a' => checkArgs 7 args s (arcLoopF fl lib true tr args s)
  | 'A' => checkArgs 7 args s (arcLoopF fl lib false tr args s)
  | 'z' | 'Z' => ok (closeCmdF fl tr s)
  | c => some (.error (.unknown c), s)

/-- The loop of `parse_path`, 831-848.  Every number is rounded when it is read. -/
noncomputable def pathLoopF (tr : Transform) (first : Bool) (text : List Char) (s : PathState) : Option Outcome :=
  let text := text.dropWhile isWhite
  if text = [] then some (.done (.ok ()) s)
  else
    match pathCommand text with
    | none => some .panic
    | some (rest, cmd, args) =>
      match buildPathF fl lib cmd (args.map fun q : ℚ => fl (q : ℝ)) tr first s with
      | none => some .panic
      | some (.error e, s') => some (.done (.error e) s')
      | some (.ok (), s') => pathLoopF tr false rest s'
  partial_fixpoint

/-- `parse_path`, 824-850. -/
noncomputable def parsePathF (text : List Char) (tr : Transform) (s : PathState) : Option Outcome :=
  pathLoopF fl lib tr true text s

/-! ### svg_parser.rs, as in `SvgDoc` -/

/-- One round of the attribute loop, 51-82.  (The numbers of the view box are rounded when they are used.) -/
noncomputable def collectF (c : Collected) (a : Attr) : Option Collected :=
  if a.name.local = "transform" then
    (parseTransformF fl lib a.value).map fun t => { c with transform := tmul fl c.transform t }
  else if a.name.local = "d" then some { c with d := some a.value }
  else if a.name.local = "viewBox" then
    (parseViewBox a.value).map fun v => { c with viewBox := some v }
  else if a.name.local = "height" then some { c with height := some a.value }
  else if a.name.local = "width" then some { c with width := some a.value }
  else some c

/-- The attribute loop. -/
noncomputable def collectAllF (t : Transform) (attrs : List Attr) : Option Collected :=
  attrs.foldlM (collectF fl lib) ⟨t, none, none, none, none⟩

/-- The scale of an `svg` element, 96-129.  With a view box of zero width the source gets an infinity. -/
noncomputable def viewScaleF (c : Collected) : Option Transform :=
  match c.width, c.height with
  | some w, some h =>
    (parseLengthF fl w).bind fun w => (parseLengthF fl h).map fun h =>
      let vb : ℝ × ℝ := match c.viewBox with
        | some (_, _, vw, vh) => (fl vw, fl vh)
        | none => (w, h)
      Transform.scaleXy (fl (w / vb.1)) (fl (h / vb.2))
  | _, _ => none

/-- One event, 31-147. -/
noncomputable def docStepF (keep : Filter) (st : DocState) : XmlEvent → Option (DocResult ⊕ DocState)
  | .start name attrs =>
    if st.ignore > 0 || !keep name attrs then some (.inr { st with ignore := st.ignore + 1 })
    else if name.ns = some svgNs then
      match collectAllF fl lib st.transform attrs with
      | none => some (.inl .err)
      | some c =>
        let st := { st with stack := st.transform :: st.stack, transform := c.transform }
        if name.local = "path" then
          match c.d with
          | none => some (.inl .err)
          | some d =>
            match parsePathF fl lib d st.transform st.path with
            | none => none
            | some .panic => some (.inl .panic)
            | some (.done (.error _) _) => some (.inl .err)
            | some (.done (.ok ()) path) => some (.inr { st with path })
        else if name.local = "svg" then
          match viewScaleF fl c with
          | none => some (.inl .err)
          | some sc => some (.inr { st with transform := tmul fl st.transform sc })
        else some (.inr st)
    else some (.inr st)
  | .finish name =>
    if st.ignore > 0 then some (.inr { st with ignore := st.ignore - 1 })
    else if name.ns = some svgNs then
      match st.stack with
      | [] => some (.inl .panic)
      | t :: stack => some (.inr { st with stack, transform := t })
    else some (.inr st)
  | .error => some (.inl (.ok st.path.segs))
  | .other => some (.inr st)

/-- The loop over the events, 30-149. -/
noncomputable def docLoopF (keep : Filter) : List XmlEvent → DocState → Option DocResult
  | [], st => some (.ok st.path.segs)
  | e :: es, st =>
    match docStepF fl lib keep st e with
    | none => none
    | some (.inl r) => some r
    | some (.inr st) => docLoopF keep es st

/-- `parse_document`, 18-152. -/
noncomputable def parseDocumentF (keep : Filter) (t0 : Transform) (events : List XmlEvent) : Option DocResult :=
  docLoopF fl lib keep events ⟨0, [], t0, .new⟩

end StepperPaths.Rounded
