import Verif.Proof.RoundedSvgText
import Verif.Proof.SvgDoc

/-! Without rounding the model `RoundedSvg` is the exact one. -/

namespace StepperPaths.Rounded
open Coords Draw StepperPaths.Svg StepperPaths.Svg.Parser

/-- The exact functions. -/
noncomputable def exactLib : Lib := ⟨Real.sin, Real.cos, Real.tan, Vec.atan2⟩

namespace SvgExact

theorem tmul_id (a b : Transform) : tmul id a b = a * b := rfl

theorem tapply_id (a : Transform) (v : Vec) : tapply id a v = a * v := rfl

theorem radians_id (a : ℚ) : radiansF id a = radians a := rfl

theorem eval_id (f : Fn) : f.evalF id exactLib = f.eval := by
  cases f with
  | rotate a c =>
    rcases c with _ | ⟨x, y⟩ <;> rfl
  | _ => rfl

theorem evalAll_id : ∀ l : List Fn, evalAllF id exactLib l = evalAll l
  | [] => rfl
  | [a] => eval_id a
  | a :: b :: l => by
    rw [evalAllF, evalAll, evalAll_id (b :: l), eval_id, tmul_id]

theorem parseTransform_id : parseTransformF id exactLib = parseTransform := by
  funext s
  rw [calls_eval, parseTransformF, funext evalAll_id]

theorem length_id (p : ℚ × Option LengthUnit) : lengthF id p = ((lengthVal p : ℚ) : ℝ) := by
  obtain ⟨v, _ | u⟩ := p
  · rfl
  · cases u <;> simp [lengthF, lengthVal, LengthUnit.valueF, LengthUnit.val, inch, px, pt] <;> norm_num

theorem parseLength_id (s : List Char) : parseLengthF id s = (parseLength s).map fun q : ℚ => (q : ℝ) := by
  rw [lengthParts_val, parseLengthF, Option.map_map]
  congr 1
  funext p
  exact length_id p

theorem arcSeg_id (tr : Transform) (d : Vec) (a : ArcArgs) : arcSegF id exactLib tr d a = arcSeg tr d a := rfl

theorem line_id (rel : Bool) (tr : Transform) : ∀ (args : List ℝ) (s : PathState), lineLoopF id rel tr args s = lineLoop rel tr args s
  | [], _ => rfl
  | [_], _ => rfl
  | _ :: _ :: l, _ => line_id rel tr l _

theorem vert_id (rel : Bool) (tr : Transform) : ∀ (args : List ℝ) (s : PathState), vertLoopF id rel tr args s = vertLoop rel tr args s
  | [], _ => rfl
  | _ :: l, _ => vert_id rel tr l _

theorem hor_id (rel : Bool) (tr : Transform) : ∀ (args : List ℝ) (s : PathState), horLoopF id rel tr args s = horLoop rel tr args s
  | [], _ => rfl
  | _ :: l, _ => hor_id rel tr l _

theorem cubic_id (rel : Bool) (tr : Transform) : ∀ (args : List ℝ) (s : PathState), cubicLoopF id rel tr args s = cubicLoop rel tr args s
  | [], _ => rfl
  | [_], _ => rfl
  | [_, _], _ => rfl
  | [_, _, _], _ => rfl
  | [_, _, _, _], _ => rfl
  | [_, _, _, _, _], _ => rfl
  | _ :: _ :: _ :: _ :: _ :: _ :: l, _ => cubic_id rel tr l _

theorem quad_id (rel : Bool) (tr : Transform) : ∀ (args : List ℝ) (s : PathState), quadLoopF id rel tr args s = quadLoop rel tr args s
  | [], _ => rfl
  | [_], _ => rfl
  | [_, _], _ => rfl
  | [_, _, _], _ => rfl
  | _ :: _ :: _ :: _ :: l, _ => quad_id rel tr l _

theorem arc_id (rel : Bool) (tr : Transform) : ∀ (args : List ℝ) (s : PathState), arcLoopF id exactLib rel tr args s = arcLoop rel tr args s
  | [], _ => rfl
  | [_], _ => rfl
  | [_, _], _ => rfl
  | [_, _, _], _ => rfl
  | [_, _, _, _], _ => rfl
  | [_, _, _, _, _], _ => rfl
  | [_, _, _, _, _, _], _ => rfl
  | rx :: ry :: rot :: large :: sweep :: x :: y :: l, s => by
    have ih : arcLoopF id exactLib rel tr l = arcLoop rel tr l := funext (arc_id rel tr l)
    rw [arcLoopF, arcLoop, ih]
    simp only [arcSeg_id]
    rfl

theorem move_id (rel first : Bool) (tr : Transform) (args : List ℝ) (s : PathState) :
    moveCmdF id rel first tr args s = moveCmd rel first tr args s := by
  match args with
  | [] => rfl
  | [_] => rfl
  | _ :: _ :: _ => rw [moveCmdF, moveCmd, line_id]; rfl

theorem build_id (cmd : Char) (args : List ℝ) (tr : Transform) (first : Bool) (s : PathState) :
    buildPathF id exactLib cmd args tr first s = buildPath cmd args tr first s := by
  unfold buildPathF buildPath
  simp only [line_id, vert_id, hor_id, cubic_id, quad_id, arc_id, move_id]
  rfl

theorem loop_id (tr : Transform) (text : List Char) : ∀ (first : Bool) (s : PathState),
    pathLoopF id exactLib tr first text s = pathLoop tr first text s := by
  induction hlen : text.length using Nat.strong_induction_on generalizing text with
  | _ k ih =>
    intro first s
    rw [pathLoopF, pathLoop]
    by_cases h0 : text.dropWhile isWhite = []
    · simp [h0]
    simp only [h0, if_false]
    cases hc : pathCommand (text.dropWhile isWhite) with
    | none => rfl
    | some v =>
      obtain ⟨rest, cmd, args⟩ := v
      simp only [build_id, id_eq]
      have hlt := pathCommand_shorter hc
      have hle := (List.dropWhile_suffix isWhite (l := text)).length_le
      rcases buildPath cmd (args.map fun q : ℚ => (q : ℝ)) tr first s with _ | ⟨_ | _, s'⟩
      · rfl
      · rfl
      · exact ih rest.length (by omega) rest rfl false s'

theorem viewScale_id (c : Collected) : viewScaleF id c = viewScale c := by
  unfold viewScaleF viewScale
  rcases c.width with _ | w
  · rfl
  rcases c.height with _ | h
  · rfl
  simp only [parseLength_id]
  cases parseLength w with
  | none => rfl
  | some w =>
    cases parseLength h with
    | none => rfl
    | some h =>
      simp only [Option.map_some, Option.bind_some]
      rcases c.viewBox with _ | ⟨_, _, vw, vh⟩ <;> rfl

theorem collectAll_id (t : Transform) (attrs : List Attr) : collectAllF id exactLib t attrs = collectAll t attrs := by
  unfold collectAllF collectAll
  have : collectF id exactLib = collect := by
    funext c a
    unfold collectF collect
    rw [parseTransform_id]
    rfl
  rw [this]

theorem docStep_id (keep : Filter) (st : DocState) (e : XmlEvent) : docStepF id exactLib keep st e = docStep keep st e := by
  unfold docStepF docStep
  simp only [collectAll_id, parsePathF, parsePath, loop_id, viewScale_id, tmul_id]
  rfl

theorem docLoop_id (keep : Filter) : ∀ (es : List XmlEvent) (st : DocState), docLoopF id exactLib keep es st = docLoop keep es st
  | [], _ => rfl
  | e :: es, st => by
    rw [docLoopF, docLoop, docStep_id]
    rcases docStep keep st e with _ | _ | st'
    · rfl
    · rfl
    · exact docLoop_id keep es st'

end SvgExact
end StepperPaths.Rounded
