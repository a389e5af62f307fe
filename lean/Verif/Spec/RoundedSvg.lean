import Verif.Model.RoundedSvg
import Verif.Spec.Picture
import Verif.Spec.RoundedArc

/-!
How large the numbers in a document are, and how far the computed lines and curves may be from those
that are written.
-/

namespace StepperPaths.Spec
open Coords Draw Context StepperPaths.Svg Rounded Spec.Svg

/-- What is assumed of the library. -/
structure FloatLib (lib : Lib) : Prop where
  trig : FloatTrig lib.sin lib.cos
  tan : ∀ x, |lib.tan x - Real.tan x| ≤ 1 / 2 ^ 52 * (1 + |Real.tan x|)

/-- The size of a number: its absolute value, but not less than `1 / 1024`, unless it is zero. -/
noncomputable def mag (q : ℚ) : ℝ := if q = 0 then 0 else max |(q : ℝ)| (1 / 2 ^ 10)

/-- Bounds for the entries of the transform of a call.  Angles of skews must not be close to right angles. -/
noncomputable def _root_.StepperPaths.Rounded.Fn.size : Fn → Option Transform
  | .matrix a b c d e f => some ⟨mag a, mag b, mag c, mag d, mag e, mag f⟩
  | .translate x y => some ⟨1, 0, 0, 1, mag x, mag (y.getD 0)⟩
  | .scale x y => some ⟨mag x, 0, 0, mag (y.getD x), 0, 0⟩
  | .rotate a none => some ⟨1 + mag a / 50, 1 + mag a / 50, 1 + mag a / 50, 1 + mag a / 50, 0, 0⟩
  | .rotate a (some (x, y)) =>
    some ⟨1 + mag a / 50, 1 + mag a / 50, 1 + mag a / 50, 1 + mag a / 50,
      mag x * (2 + mag a / 50) + mag y * (1 + mag a / 50), mag x * (1 + mag a / 50) + mag y * (2 + mag a / 50)⟩
  | .skewX a =>
    let c := Real.cos (radians a)
    if 1 / 2 ^ 20 ≤ |c| ∧ mag a ≤ 2 ^ 10 then some ⟨1, 0, (3 + mag a) / c ^ 2, 1, 0, 0⟩ else none
  | .skewY a =>
    let c := Real.cos (radians a)
    if 1 / 2 ^ 20 ≤ |c| ∧ mag a ≤ 2 ^ 10 then some ⟨1, (3 + mag a) / c ^ 2, 0, 1, 0, 0⟩ else none

/-- Bounds for the entries of a transform, and the number of factors that it was made from. -/
structure Size where
  bound : Transform
  count : ℕ

/-- With another factor. -/
noncomputable def Size.times (s : Size) (b : Transform) : Size := ⟨s.bound * b, s.count + 1⟩

/-- With the calls of a `transform` attribute. -/
noncomputable def Size.attr (s : Size) (text : List Char) : Option Size :=
  (calls text).bind fun l => (l.mapM Fn.size).map fun bs => bs.foldl Size.times s

/-- Neither very small nor very large. -/
def Moderate (q : ℚ) : Prop := 1 / 2 ^ 20 ≤ |(q : ℝ)| ∧ |(q : ℝ)| ≤ 2 ^ 20

open Classical in
/-- A bound for the quotient of a length and the size of a view box. -/
noncomputable def ratio (w v : ℚ) : Option ℝ := if Moderate v then some (max |(w : ℝ)| (1 / 2 ^ 5) / |(v : ℝ)|) else none

/-- With the attributes of an element; compare `inside`. -/
noncomputable def Size.inside (s : Size) (name : Name) (attrs : List Attr) : Option Size :=
  ((texts "transform" attrs).foldlM Size.attr s).bind fun s =>
  ((texts "viewBox" attrs).mapM parseViewBox).bind fun boxes =>
  if name.local = "svg" then
    ((texts "width" attrs).getLast?.bind parseLength).bind fun w =>
    ((texts "height" attrs).getLast?.bind parseLength).bind fun h =>
      match boxes.getLast? with
      | some (_, _, vw, vh) =>
        (ratio w vw).bind fun x => (ratio h vh).map fun y => s.times ⟨x, 0, 0, y, 0, 0⟩
      | none => (ratio w w).bind fun _ => (ratio h h).map fun _ => s.times ⟨1, 0, 0, 1, 0, 0⟩
  else some s

/-- The sizes of the transforms of the paths of a document, in document order; compare `paths`. -/
noncomputable def _root_.StepperPaths.Spec.Svg.Forest.sizes (keep : Filter) (s : Size) : Forest → Option (List Size)
  | .nil => some []
  | .other rest => rest.sizes keep s
  | .elem name attrs kids rest =>
    let own :=
      if keep name attrs then
        if name.ns = some "http://www.w3.org/2000/svg" then
          (s.inside name attrs).bind fun s' =>
            if name.local = "path" then (kids.sizes keep s').map fun l => s' :: l
            else kids.sizes keep s'
        else kids.sizes keep s
      else some []
    own.bind fun l => (rest.sizes keep s).map fun l' => l ++ l'

/-- The sum of the sizes of all numbers of a path: no point is farther from the origin. -/
noncomputable def extent (cmds : List Cmd) : ℝ := ((cmds.flatMap fun c => c.args.values).map mag).sum

/-- The number of numbers of a path. -/
def numbers (cmds : List Cmd) : ℕ := (cmds.flatMap fun c => c.args.values).length

/-- A bound for the transformed coordinates of a path. -/
noncomputable def Size.reach (s : Size) (cmds : List Cmd) : Axis → ℝ
  | .x => s.bound.m0 * extent cmds + s.bound.m2 * extent cmds + s.bound.m4
  | .y => s.bound.m1 * extent cmds + s.bound.m3 * extent cmds + s.bound.m5

/-- How far the lines and curves of a path may be from those that are written. -/
noncomputable def Size.error (s : Size) (cmds : List Cmd) (i : Axis) : ℝ :=
  6 * (12 * s.count + numbers cmds + 10) / 2 ^ 52 * s.reach cmds i

/-- Two lines or curves are nowhere farther apart than `δ`. -/
def CloseLines (δ : Axis → ℝ) (γ' γ : ℝ → Vec) : Prop :=
  ∀ u, 0 ≤ u → u ≤ 1 → ∀ i, |coord (γ' u) i - coord (γ u) i| ≤ δ i

/-- The path has no arcs, and is not too long or deeply nested, and the error is at most `δ`. -/
structure Readable (δ : Axis → ℝ) (d : Drawing) (s : Size) : Prop where
  arcs : ∀ c ∈ d.cmds, c.letter ≠ 'a' ∧ c.letter ≠ 'A'
  nested : s.count ≤ 30
  long : numbers d.cmds ≤ 2 ^ 50
  error : ∀ i, s.error d.cmds i ≤ δ i

end StepperPaths.Spec
