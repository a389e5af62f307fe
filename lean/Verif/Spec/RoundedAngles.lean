import Verif.Spec.RoundedSvg

/-! What is assumed of the functions of angles in the library, and of the arcs of a document. -/

namespace StepperPaths.Spec
open Coords Draw Context StepperPaths.Svg Rounded Spec.Svg

/-- What is assumed of `sin`, `cos` and `atan2` of the library for arcs: they are exact at zero, and `atan2` is accurate; on the
negative axis it may have either sign. -/
structure FloatAngles (lib : Rounded.Lib) : Prop where
  sin : lib.sin 0 = 0
  cos : lib.cos 0 = 1
  zero : lib.atan2 0 0 = 0
  near : ∀ y x, ¬ (x = 0 ∧ y = 0) → |lib.atan2 y x - Vec.atan2 y x| ≤ 1 / 2 ^ 50 ∨ y = 0 ∧ x < 0 ∧ |lib.atan2 y x + Real.pi| ≤ 1 / 2 ^ 50

/-- The arguments are those of arcs of circles, without rotation, with a radius that is not extreme, and flags that are 0 or 1. -/
def CircleArgs : List ℚ → Prop
  | rx :: ry :: rot :: large :: sweep :: _ :: _ :: rest =>
    (ry = rx ∧ rot = 0 ∧ 1 / 2 ^ 10 ≤ (rx : ℝ) ∧ (rx : ℝ) ≤ 2 ^ 20 ∧ (large = 0 ∨ large = 1) ∧ (sweep = 0 ∨ sweep = 1)) ∧ CircleArgs rest
  | _ => True

/-- Both axes are scaled in the same way, and not rotated. -/
structure EvenScale (t : Transform) : Prop where
  m1 : t.m1 = 0
  m2 : t.m2 = 0
  m3 : t.m3 = t.m0

/-- The length of the chord of an arc. -/
noncomputable def arcChord (R a1 a2 : ℝ) : ℝ := √((R * Real.cos a2 - R * Real.cos a1) ^ 2 + (R * Real.sin a2 - R * Real.sin a1) ^ 2)

/-- An arc is at most as large as `B`; it is not very short, also not if it is compared with the coordinates (`q`), and its
chord is not too close to a diameter (`h`). -/
structure CleanArc (h q : ℕ) (B : ℝ) (reach : Axis → ℝ) (R a1 a2 : ℝ) : Prop where
  size : R ≤ B
  long : R / 2 ^ 10 ≤ arcChord R a1 a2
  near : ∀ i, 2 * reach i ≤ q * arcChord R a1 a2
  short : arcChord R a1 a2 ^ 2 * h ^ 2 ≤ (2 * R) ^ 2 * (h ^ 2 - 1)

/-- The errors of the numbers that an arc is computed from, in units of the last place. -/
def Size.units (s : Size) (cmds : List Cmd) (q : ℕ) : ℕ := (12 * s.count + numbers cmds + 10) * q

/-- The path has only lines, curves, and clean arcs of circles that are scaled evenly; it is not too long or deeply nested, and the
error is at most `δ`.  Where the arcs are is said by the exact reading of the path (C52, C79). -/
structure ArcsReadable (h q : ℕ) (B : ℝ) (δ : Axis → ℝ) (d : Drawing) (s : Size) : Prop where
  circles : ∀ c ∈ d.cmds, c.letter = 'a' ∨ c.letter = 'A' → CircleArgs c.args.values
  even : EvenScale s.bound
  scale : s.bound.m0 = d.tr.m0
  small : 1 / 2 ^ 20 ≤ d.tr.m0
  large : d.tr.m0 ≤ 2 ^ 20
  nested : s.count ≤ 30
  units : s.units d.cmds q * h ≤ 2 ^ 20
  positive : 20 ≤ q ∧ 1 ≤ h ∧ h ≤ 2 ^ 10 ∧ 0 ≤ B
  exact : ∀ s1, parsePath d.text d.tr .new = some (.done (.ok ()) s1) →
    (∀ R R2 a1 a2 rot, .arc R R2 a1 a2 rot ∈ s1.segs → CleanArc h q B (s.reach d.cmds) R a1 a2) ∧
    ∀ i, s.error d.cmds i + 3 * (s1.segs.length * (s.units d.cmds q * h / 2 ^ 30 * B)) ≤ δ i

/-- As it is read, with rounding, an element scales both axes in the same way: every `transform` attribute does, and width and
height are in the ratio of the view box. -/
structure EvenElem (fl : ℝ → ℝ) (lib : Lib) (name : Name) (attrs : List Attr) : Prop where
  transforms : ∀ text ∈ texts "transform" attrs, ∀ t, parseTransformF fl lib text = some t → EvenScale t
  box : name.local = "svg" → ∀ boxes, (texts "viewBox" attrs).mapM parseViewBox = some boxes →
    ∀ w, (texts "width" attrs).getLast?.bind (parseLengthF fl) = some w → ∀ h, (texts "height" attrs).getLast?.bind (parseLengthF fl) = some h →
      match boxes.getLast? with
      | some (_, _, vw, vh) => fl (w / fl vw) = fl (h / fl vh)
      | none => fl (w / w) = fl (h / h)

/-- All elements of a document that are not left out do. -/
def _root_.StepperPaths.Spec.Svg.Forest.Even (fl : ℝ → ℝ) (lib : Lib) (keep : Filter) : Forest → Prop
  | .nil => True
  | .other rest => rest.Even fl lib keep
  | .elem name attrs kids rest =>
    (keep name attrs = true → (name.ns = some "http://www.w3.org/2000/svg" → EvenElem fl lib name attrs) ∧ kids.Even fl lib keep) ∧
      rest.Even fl lib keep

end StepperPaths.Spec
