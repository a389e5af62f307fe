import Verif.Model.SvgText

/-!
Model of `parse_document` (`/repo/src/svg_parser.rs` 18-152) and of the layer filter of
`/repo/src/svg_path.rs` (220-257).  The XML reader (crate xml-rs) is outside of the model: its
events are the input.  Prefixes of names are left out, they are not used.  Text is a list of
characters.
-/

namespace StepperPaths.Svg
open Coords Draw

/-- `OwnedName`. -/
structure Name where
  «local» : String
  ns : Option String
  deriving DecidableEq

/-- `OwnedAttribute`. -/
structure Attr where
  name : Name
  value : List Char
  deriving DecidableEq

/-- What the reader yields: `XmlEvent::StartElement`, `EndElement`, an error, or any other event. -/
inductive XmlEvent
  | start (name : Name) (attrs : List Attr)
  | finish (name : Name)
  | error
  | other

/-- `ElementFilter`, svg_parser.rs 17. -/
abbrev Filter := Name → List Attr → Bool

/-- `SVG_NS`, 14. -/
def svgNs : String := "http://www.w3.org/2000/svg"

/-- The variables of the attribute loop, 46-82; `transform` is the changed transform. -/
structure Collected where
  transform : Transform
  d : Option (List Char)
  viewBox : Option (ℚ × ℚ × ℚ × ℚ)
  width : Option (List Char)
  height : Option (List Char)

/-- One round of the loop, 51-82; `none` is the return of an error. -/
noncomputable def collect (c : Collected) (a : Attr) : Option Collected :=
  if a.name.local = "transform" then
    (parseTransform a.value).map fun t => { c with transform := c.transform * t }
  else if a.name.local = "d" then some { c with d := some a.value }
  else if a.name.local = "viewBox" then
    (parseViewBox a.value).map fun v => { c with viewBox := some v }
  else if a.name.local = "height" then some { c with height := some a.value }
  else if a.name.local = "width" then some { c with width := some a.value }
  else some c

/-- The attribute loop. -/
noncomputable def collectAll (t : Transform) (attrs : List Attr) : Option Collected :=
  attrs.foldlM collect ⟨t, none, none, none, none⟩

/-- The scale of an `svg` element, 96-129; `none` is the return of an error.  A view box with a
zero width or height gives infinities in the source; here the quotient is zero. -/
noncomputable def viewScale (c : Collected) : Option Transform :=
  match c.width, c.height with
  | some w, some h =>
    (parseLength w).bind fun w => (parseLength h).map fun h =>
      let vb : ℚ × ℚ := match c.viewBox with
        | some (_, _, vw, vh) => (vw, vh)
        | none => (w, h)
      Transform.scaleXy ((w : ℝ) / (vb.1 : ℝ)) ((h : ℝ) / (vb.2 : ℝ))
  | _, _ => none

/-- The variables of `parse_document`, 23-29.  `ignore` is an `i32` in the source. -/
structure DocState where
  ignore : ℕ
  stack : List Transform
  transform : Transform
  path : PathState

/-- How `parse_document` ends: with a panic, an error, or the segments. -/
inductive DocResult
  | panic
  | err
  | ok (segs : List Seg)

/-- One event, 31-147: the end, or the next state.  `none` would be an endless loop. -/
noncomputable def docStep (keep : Filter) (st : DocState) : XmlEvent → Option (DocResult ⊕ DocState)
  | .start name attrs =>
    if st.ignore > 0 || !keep name attrs then some (.inr { st with ignore := st.ignore + 1 })
    else if name.ns = some svgNs then
      match collectAll st.transform attrs with
      | none => some (.inl .err)
      | some c =>
        let st := { st with stack := st.transform :: st.stack, transform := c.transform }
        if name.local = "path" then
          match c.d with
          | none => some (.inl .err)
          | some d =>
            match parsePath d st.transform st.path with
            | none => none
            | some .panic => some (.inl .panic)
            | some (.done (.error _) _) => some (.inl .err)
            | some (.done (.ok ()) path) => some (.inr { st with path })
        else if name.local = "svg" then
          match viewScale c with
          | none => some (.inl .err)
          | some sc => some (.inr { st with transform := st.transform * sc })
        else some (.inr st)
    else some (.inr st)
  | .finish name =>
    if st.ignore > 0 then some (.inr { st with ignore := st.ignore - 1 })
    else if name.ns = some svgNs then
      match st.stack with
      | [] => some (.inl .panic)
      | t :: stack => some (.inr { st with stack, transform := t })
    else some (.inr st)
  | .error => some (.inl (.ok st.path.segs))
  | .other => some (.inr st)

/-- The loop over the events, 30-149. -/
noncomputable def docLoop (keep : Filter) : List XmlEvent → DocState → Option DocResult
  | [], st => some (.ok st.path.segs)
  | e :: es, st =>
    match docStep keep st e with
    | none => none
    | some (.inl r) => some r
    | some (.inr st) => docLoop keep es st

/-- `parse_document`, 18-152. -/
noncomputable def parseDocument (keep : Filter) (t0 : Transform) (events : List XmlEvent) :
    Option DocResult :=
  docLoop keep events ⟨0, [], t0, .new⟩

/-! ### The layer filter -/

/-- `INKSCAPE_NS`, svg_path.rs 29. -/
def inkscapeNs : String := "http://www.inkscape.org/namespaces/inkscape"

/-- The flags `is_layer` and `layer_name_matches` after one attribute, 231-245. -/
def layerFlags (layer : List Char) (f : Bool × Bool) (a : Attr) : Bool × Bool :=
  if a.name.ns = some inkscapeNs then
    (if a.name.local = "groupmode" ∧ a.value = "layer".toList then true else f.1,
     if a.name.local = "label" ∧ a.value = layer then true else f.2)
  else f

/-- The filter of `--layer`, 221-254. -/
def layerFilter (layer : List Char) : Filter := fun name attrs =>
  if name.local = "g" ∧ name.ns = some svgNs then
    let f := attrs.foldl (layerFlags layer) (false, false)
    if f.1 && !f.2 then false else true
  else true

/-- The filter without `--layer`, 256. -/
def noFilter : Filter := fun _ _ => true

end StepperPaths.Svg
