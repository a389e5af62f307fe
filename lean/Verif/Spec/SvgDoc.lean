import Verif.Model.SvgDoc
import Verif.Spec.SvgText

/-!
Documents as trees, and what they draw.  The types of names and attributes are those of the model;
the parsers of attribute values are used as the meaning of these values (their own properties are
C52–C55 and C80).
-/

namespace StepperPaths.Spec.Svg
open StepperPaths.Svg Coords Draw

/-- A list of XML nodes: elements with their children, and anything else (text, comments). -/
inductive Forest
  | nil
  | other (rest : Forest)
  | elem (name : Name) (attrs : List Attr) (kids rest : Forest)

/-- The events of a well-formed document. -/
def Forest.events : Forest → List XmlEvent
  | .nil => []
  | .other rest => .other :: rest.events
  | .elem name attrs kids rest => .start name attrs :: (kids.events ++ .finish name :: rest.events)

/-- The values of the attributes with a name, in any namespace. -/
def texts (key : String) (attrs : List Attr) : List (List Char) :=
  (attrs.filter fun a => a.name.local = key).map Attr.value

/-- The transform inside of an SVG element: the outer one, times its `transform` attributes, times
the scale from its view box to its size for an `svg` element.  `none` when an attribute is bad. -/
noncomputable def inside (t : Transform) (name : Name) (attrs : List Attr) : Option Transform :=
  ((texts "transform" attrs).mapM parseTransform).bind fun ts =>
  ((texts "viewBox" attrs).mapM parseViewBox).bind fun boxes =>
  let t := ts.foldl (· * ·) t
  if name.local = "svg" then
    ((texts "width" attrs).getLast?.bind parseLength).bind fun w =>
    ((texts "height" attrs).getLast?.bind parseLength).map fun h =>
      match boxes.getLast? with
      | some (_, _, vw, vh) => t * (⟨w / vw, 0, 0, h / vh, 0, 0⟩ : Transform)
      | none => t * (⟨w / w, 0, 0, h / h, 0, 0⟩ : Transform)
  else some t

/-- The paths of a document in document order, each with its transform.  Elements that are not
kept are left out with everything inside; elements of other namespaces change nothing.  `none` when
an element is faulty. -/
noncomputable def Forest.paths (keep : Filter) (t : Transform) :
    Forest → Option (List (Transform × List Char))
  | .nil => some []
  | .other rest => rest.paths keep t
  | .elem name attrs kids rest =>
    let own :=
      if keep name attrs then
        if name.ns = some "http://www.w3.org/2000/svg" then
          (inside t name attrs).bind fun t' =>
            if name.local = "path" then
              (texts "d" attrs).getLast?.bind fun d => (kids.paths keep t').map fun l => (t', d) :: l
            else kids.paths keep t'
        else kids.paths keep t
      else some []
    own.bind fun l => (rest.paths keep t).map fun l' => l ++ l'

/-- What a list of paths draws, one after the other with one context. -/
noncomputable def drawPaths : List (Transform × List Char) → PathState → DocResult
  | [], s => .ok s.segs
  | (t, d) :: l, s =>
    match parsePath d t s with
    | some (.done (.ok ()) s') => drawPaths l s'
    | some (.done (.error _) _) => .err
    | _ => .panic

/-- The texts of all paths. -/
def Forest.dTexts : Forest → List (List Char)
  | .nil => []
  | .other rest => rest.dTexts
  | .elem _ attrs kids rest => texts "d" attrs ++ kids.dTexts ++ rest.dTexts

/-- The document without the elements that are not kept, and without what is inside of them. -/
def Forest.prune (keep : Filter) : Forest → Forest
  | .nil => .nil
  | .other rest => .other (rest.prune keep)
  | .elem name attrs kids rest =>
    if keep name attrs then .elem name attrs (kids.prune keep) (rest.prune keep) else rest.prune keep

/-- The document without the namespaces of the attributes. -/
def Forest.bare : Forest → Forest
  | .nil => .nil
  | .other rest => .other rest.bare
  | .elem name attrs kids rest =>
    .elem name (attrs.map fun a => { a with name := { a.name with ns := none } }) kids.bare rest.bare

/-- The text of a path starts with a move. -/
def StartsWithMove (text : List Char) : Prop :=
  ∃ lead c rest, White lead ∧ (c = 'm' ∨ c = 'M') ∧ text = lead ++ c :: rest

/-- One drawing after another. -/
def _root_.StepperPaths.Svg.DocResult.append : DocResult → DocResult → DocResult
  | .ok a, .ok b => .ok (a ++ b)
  | .ok _, r => r
  | r, _ => r

end StepperPaths.Spec.Svg
