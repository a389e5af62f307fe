import Verif.Model.Draw

/-!
Model of `build_path` and the ellipse arithmetic of `/repo/src/svg_path_parser.rs` in exact
arithmetic (`f64` is `ℝ`).  The two `println!` of the quadratic curves are left out.
-/

namespace StepperPaths.Svg
open Coords Draw

/-- The errors of `build_path`; the source has one text for each. -/
inductive BuildError
  | tooFew
  | notMultiple
  | zeroArc
  | ellipseTooSmall
  | unknown (c : Char)

/-- `struct PathContext`, svg_path_parser.rs 321-325, together with the vector of segments that is
handed to `build_path`. -/
structure PathState where
  pos : Vec
  start : Vec
  lastControl : Option Vec
  segs : List Seg

/-- `PathContext::new`, 327-334, with no segments. -/
def PathState.new : PathState := ⟨⟨0, 0⟩, ⟨0, 0⟩, none, []⟩

/-- `segs.push(s)`. -/
def PathState.push (s : PathState) (seg : Seg) : PathState := { s with segs := s.segs ++ [seg] }

/-- What `build_path` leaves behind: its result and the changed context and vector. -/
abbrev Built := Except BuildError Unit × PathState

/-! ### Ellipses -/

/-- A `[f64; 4]`, row by row. -/
@[ext] structure Mat where
  a : ℝ
  b : ℝ
  c : ℝ
  d : ℝ

/-- `mul2x2`, 377-384. -/
def mul2x2 (a b : Mat) : Mat :=
  ⟨a.a * b.a + a.b * b.c, a.a * b.b + a.b * b.d, a.c * b.a + a.d * b.c, a.c * b.b + a.d * b.d⟩

/-- `invert2x2`, 386-393. -/
noncomputable def invert2x2 (m : Mat) : Option Mat :=
  let d := m.a * m.d - m.b * m.c
  if d = 0 then none else some ⟨m.d / d, -m.b / d, -m.c / d, m.a / d⟩

/-- `transpose2x2`, 395-397. -/
def transpose2x2 (m : Mat) : Mat := ⟨m.a, m.c, m.b, m.d⟩

/-- The matrix of the quadratic form of an ellipse, 418-429. -/
noncomputable def ellipseForm (rx ry rot : ℝ) : Mat :=
  let rs := Real.sin rot
  let rc := Real.cos rot
  let A := rc * rc / (rx * rx) + rs * rs / (ry * ry)
  let B := rs * rs / (rx * rx) + rc * rc / (ry * ry)
  let C := (1 / (rx * rx) - 1 / (ry * ry)) * rs * rc
  ⟨A, C, C, B⟩

/-- The half axes and the rotation of a form, 439-456. -/
noncomputable def formAxes (q : Mat) : Option (ℝ × ℝ × ℝ) :=
  let trot := Vec.atan2 (-q.c * 2) (q.d - q.a) / 2
  let ts := Real.sin trot
  let tc := Real.cos trot
  let den := q.a * (tc * tc) + 2 * q.c * (tc * ts) + q.d * (ts * ts)
  if den ≤ 0 then none
  else
    let den' := q.a * (ts * ts) - 2 * q.c * (tc * ts) + q.d * (tc * tc)
    if den' ≤ 0 then none
    else some (√(1 / den), √(1 / den'), trot)

/-- `transform_ellipse`, 417-458: `none` for the three panics. -/
noncomputable def transformEllipse (rx ry rot : ℝ) (m : Mat) : Option (ℝ × ℝ × ℝ) :=
  (invert2x2 m).bind fun invm =>
    formAxes (mul2x2 (mul2x2 (transpose2x2 invm) (ellipseForm rx ry rot)) invm)

/-! ### Arcs -/

/-- `struct ArcArgs`, 460-468, without the end point. -/
structure ArcArgs where
  rx : ℝ
  ry : ℝ
  rot : ℝ
  largeArc : Prop
  sweep : Prop

/-- The points on the ellipse with half axes `rx`, `ry` whose difference is `dx`, `dy`, for
`|dy| < |dx|`, 738-752.  `none` when the ellipse is too small. -/
noncomputable def chordFlat (rx ry dx dy : ℝ) : Option (Vec × Vec) :=
  let k := dy / dx
  let ry2 := ry * ry
  let c := ry2 / (rx * rx) + k * k
  let m2 := (c * dx * dx / 4 - ry2) / (k * k / c - 1)
  if m2 < 0 then none
  else
    let m := √m2
    let mp := -k * m / c
    let x1 := mp - dx / 2
    let x2 := mp + dx / 2
    some (⟨x1, k * x1 + m⟩, ⟨x2, k * x2 + m⟩)

/-- The same for `|dx| ≤ |dy|`, 754-768. -/
noncomputable def chordSteep (rx ry dx dy : ℝ) : Option (Vec × Vec) :=
  let k := dx / dy
  let rx2 := rx * rx
  let c := rx2 / (ry * ry) + k * k
  let m2 := (c * dy * dy / 4 - rx2) / (k * k / c - 1)
  if m2 < 0 then none
  else
    let m := √m2
    let mp := -k * m / c
    let y1 := mp - dy / 2
    let y2 := mp + dy / 2
    some (⟨k * y1 + m, y1⟩, ⟨k * y2 + m, y2⟩)

/-- The choice between the two, 737-769. -/
noncomputable def chord (rx ry dx dy : ℝ) : Option (Vec × Vec) :=
  if |dy| < |dx| then chordFlat rx ry dx dy else chordSteep rx ry dx dy

open Classical in
/-- The angles of the arc, 771-788. -/
noncomputable def arcAngles (rx ry : ℝ) (p1 p2 : Vec) (largeArc sweep : Prop) : ℝ × ℝ :=
  let a1 := Vec.atan2 (p1.y / ry) (p1.x / rx)
  let a2 := Vec.atan2 (p2.y / ry) (p2.x / rx)
  let a2 :=
    if Xor largeArc (|a2 - a1| > Real.pi) then
      (if a1 < a2 then a2 - 2 * Real.pi else a2 + 2 * Real.pi)
    else a2
  if Xor sweep (a2 > a1) then (a2 + Real.pi, a1 + Real.pi) else (a1, a2)

/-- One arc, 710-803, from the displacement `d` (698-708) in the coordinates of the drawing. -/
noncomputable def arcSeg (tr : Transform) (d : Vec) (a : ArcArgs) : Option (Except BuildError Seg) :=
  if d.x = 0 ∧ d.y = 0 then some (.error .zeroArc)
  else
    (transformEllipse a.rx a.ry a.rot ⟨tr.m0, tr.m2, tr.m1, tr.m3⟩).bind fun (rx, ry, rot) =>
      let rs := Real.sin a.rot
      let rc := Real.cos a.rot
      match chord rx ry (d.x * rc - d.y * rs) (d.x * rs + d.y * rc) with
      | none => some (.error .ellipseTooSmall)
      | some (p1, p2) =>
        let (a1, a2) := arcAngles rx ry p1 p2 a.largeArc a.sweep
        some (.ok (.arc rx ry a1 a2 rot))

/-! ### The loops over the arguments -/

/-- The next position: relative to the current one or not. -/
noncomputable def target (rel : Bool) (pos p : Vec) : Vec := if rel then pos + p else p

/-- The lines of `m` and `l`, 513-521 and 533-541.  Arguments are taken in pairs (`PointIterator`,
343-375), an odd last one is dropped. -/
noncomputable def lineLoop (rel : Bool) (tr : Transform) : List ℝ → PathState → PathState
  | x :: y :: rest, s =>
    let pos := target rel s.pos ⟨x, y⟩
    lineLoop rel tr rest ({ s with pos }.push (.lineTo (tr * pos)))
  | _, s => s

/-- The lines of `v`, 548-556. -/
noncomputable def vertLoop (rel : Bool) (tr : Transform) : List ℝ → PathState → PathState
  | y :: rest, s =>
    let pos : Vec := ⟨s.pos.x, if rel then s.pos.y + y else y⟩
    vertLoop rel tr rest ({ s with pos }.push (.lineTo (tr * pos)))
  | _, s => s

/-- The lines of `h`, 565-573. -/
noncomputable def horLoop (rel : Bool) (tr : Transform) : List ℝ → PathState → PathState
  | x :: rest, s =>
    let pos : Vec := ⟨if rel then s.pos.x + x else x, s.pos.y⟩
    horLoop rel tr rest ({ s with pos }.push (.lineTo (tr * pos)))
  | _, s => s

/-- `offset`, 590-594 and 648-652. -/
noncomputable def offset (rel : Bool) (pos : Vec) : Vec := if rel then pos else ⟨0, 0⟩

/-- The curves of `c`, 589-630. -/
noncomputable def cubicLoop (rel : Bool) (tr : Transform) : List ℝ → PathState → PathState
  | x1 :: y1 :: x2 :: y2 :: x :: y :: rest, s =>
    let o := offset rel s.pos
    let p2 := (⟨x, y⟩ : Vec) + o
    let c1 := (⟨x1, y1⟩ : Vec) + o
    let c2 := (⟨x2, y2⟩ : Vec) + o
    let seg := Seg.curveTo (tr * p2) (tr * c1 - tr * s.pos) (tr * c2 - tr * p2)
    cubicLoop rel tr rest ({ s with pos := p2, lastControl := some c2 }.push seg)
  | _, s => s

/-- The curves of `q`, 647-684. -/
noncomputable def quadLoop (rel : Bool) (tr : Transform) : List ℝ → PathState → PathState
  | x1 :: y1 :: x :: y :: rest, s =>
    let o := offset rel s.pos
    let p2 := (⟨x, y⟩ : Vec) + o
    let m1 := (⟨x1, y1⟩ : Vec) + o
    let control := (m1 - p2) * (2 / 3 : ℝ) + p2
    let seg := Seg.curveTo (tr * p2) ((tr * m1 - tr * s.pos) * (2 / 3 : ℝ))
      ((tr * m1 - tr * p2) * (2 / 3 : ℝ))
    quadLoop rel tr rest ({ s with pos := p2, lastControl := some control }.push seg)
  | _, s => s

/-- The arcs of `a`, 697-812, with `get_arc_args`, 470-480. -/
noncomputable def arcLoop (rel : Bool) (tr : Transform) : List ℝ → PathState → Option Built
  | rx :: ry :: rot :: large :: sweep :: x :: y :: rest, s =>
    let a : ArcArgs := ⟨rx, ry, rot * Real.pi / 180, large ≠ 0, sweep ≠ 0⟩
    let d := (if rel then tr * ((⟨x, y⟩ : Vec) + s.pos) else tr * (⟨x, y⟩ : Vec)) - tr * s.pos
    match arcSeg tr d a with
    | none => none
    | some (.error e) => some (.error e, s)
    | some (.ok seg) => arcLoop rel tr rest { s.push seg with pos := target rel s.pos ⟨x, y⟩ }
  | _, s => some (.ok (), s)

/-! ### build_path -/

/-- The checks of the number of arguments at the head of each command: at least `n`, a multiple
of `n`. -/
def checkArgs (n : ℕ) (args : List ℝ) (s : PathState) (body : Option Built) : Option Built :=
  if args.length < n then some (.error .tooFew, s)
  else if args.length % n ≠ 0 then some (.error .notMultiple, s)
  else body

/-- The first point of `m`, 503-512. -/
noncomputable def moveFirst (rel : Bool) (tr : Transform) (p : Vec) (s : PathState) : PathState :=
  let pos := target rel s.pos p
  { s with pos, start := pos }.push (.goTo (tr * pos))

/-- `m`, 502-521, after the checks. -/
noncomputable def moveCmd (rel first : Bool) (tr : Transform) (args : List ℝ) (s : PathState) :
    PathState :=
  match args with
  | x :: y :: rest => lineLoop rel tr rest (moveFirst (rel && !first) tr ⟨x, y⟩ s)
  | _ => s

/-- `ctxt.last_control = None`. -/
def PathState.noControl (s : PathState) : PathState := { s with lastControl := none }

/-- `z`, 814-818. -/
noncomputable def closeCmd (tr : Transform) (s : PathState) : PathState :=
  { s with pos := s.start }.push (.closeTo (tr * s.start))

/-- `build_path`, 482-822.  `char::is_ascii_lowercase` is spelled out by the letters; the test
`args.len() % 1 != 0` of `h` and `v`, which is not in the source, is never true. -/
noncomputable def buildPath (cmd : Char) (args : List ℝ) (tr : Transform) (first : Bool)
    (s : PathState) : Option Built :=
  let ok (s : PathState) : Option Built := some (.ok (), s)
  match cmd with
  | 'm' => checkArgs 2 args s (ok (moveCmd true first tr args s).noControl)
  | 'M' => checkArgs 2 args s (ok (moveCmd false first tr args s).noControl)
  | 'l' => checkArgs 2 args s (ok (lineLoop true tr args s).noControl)
  | 'L' => checkArgs 2 args s (ok (lineLoop false tr args s).noControl)
  | 'v' => checkArgs 1 args s (ok (vertLoop true tr args s).noControl)
  | 'V' => checkArgs 1 args s (ok (vertLoop false tr args s).noControl)
  | 'h' => checkArgs 1 args s (ok (horLoop true tr args s).noControl)
  | 'H' => checkArgs 1 args s (ok (horLoop false tr args s).noControl)
  | 'c' => checkArgs 6 args s (ok (cubicLoop true tr args s))
  | 'C' => checkArgs 6 args s (ok (cubicLoop false tr args s))
  | 'q' => checkArgs 4 args s (ok (quadLoop true tr args s))
  | 'Q' => checkArgs 4 args s (ok (quadLoop false tr args s))
  | 'a' => checkArgs 7 args s (arcLoop true tr args s)
  | 'A' => checkArgs 7 args s (arcLoop false tr args s)
  | 'z' | 'Z' => ok (closeCmd tr s)
  | c => some (.error (.unknown c), s)

/-- A list of commands, one after the other, up to the first error; the loop of `parse_path`
(831-848) after the text has been split.  `first` is `first_elem`. -/
noncomputable def buildAll (tr : Transform) : Bool → List (Char × List ℝ) → PathState → Option Built
  | _, [], s => some (.ok (), s)
  | first, (cmd, args) :: rest, s =>
    match buildPath cmd args tr first s with
    | none => none
    | some (.error e, s) => some (.error e, s)
    | some (.ok (), s) => buildAll tr false rest s

end StepperPaths.Svg
