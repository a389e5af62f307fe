import Verif.Model.RoundedSvg

/-! The builder of paths with rounded numbers, as that without, only appends segments. -/

namespace StepperPaths.Rounded.Grow
open Coords Draw Svg

variable {fl : ℝ → ℝ} {lib : Lib} {tr : Transform}

theorem line (rel : Bool) : ∀ (args : List ℝ) (s : PathState), s.segs <+: (lineLoopF fl rel tr args s).segs
  | [], _ => List.prefix_rfl
  | [_], _ => List.prefix_rfl
  | x :: y :: args, s => by
    rw [lineLoopF]
    refine List.IsPrefix.trans ?_ (line rel args _)
    exact List.prefix_append _ _

theorem vert (rel : Bool) : ∀ (args : List ℝ) (s : PathState), s.segs <+: (vertLoopF fl rel tr args s).segs
  | [], _ => List.prefix_rfl
  | _ :: args, s => by
    rw [vertLoopF]
    refine List.IsPrefix.trans ?_ (vert rel args _)
    exact List.prefix_append _ _

theorem hor (rel : Bool) : ∀ (args : List ℝ) (s : PathState), s.segs <+: (horLoopF fl rel tr args s).segs
  | [], _ => List.prefix_rfl
  | _ :: args, s => by
    rw [horLoopF]
    refine List.IsPrefix.trans ?_ (hor rel args _)
    exact List.prefix_append _ _

theorem cubic (rel : Bool) : ∀ (args : List ℝ) (s : PathState), s.segs <+: (cubicLoopF fl rel tr args s).segs
  | [], _ => List.prefix_rfl
  | [_], _ => List.prefix_rfl
  | [_, _], _ => List.prefix_rfl
  | [_, _, _], _ => List.prefix_rfl
  | [_, _, _, _], _ => List.prefix_rfl
  | [_, _, _, _, _], _ => List.prefix_rfl
  | _ :: _ :: _ :: _ :: _ :: _ :: args, s => by
    rw [cubicLoopF]
    refine List.IsPrefix.trans ?_ (cubic rel args _)
    exact List.prefix_append _ _

theorem quad (rel : Bool) : ∀ (args : List ℝ) (s : PathState), s.segs <+: (quadLoopF fl rel tr args s).segs
  | [], _ => List.prefix_rfl
  | [_], _ => List.prefix_rfl
  | [_, _], _ => List.prefix_rfl
  | [_, _, _], _ => List.prefix_rfl
  | _ :: _ :: _ :: _ :: args, s => by
    rw [quadLoopF]
    refine List.IsPrefix.trans ?_ (quad rel args _)
    exact List.prefix_append _ _

theorem move (rel first : Bool) (args : List ℝ) (s : PathState) : s.segs <+: (moveCmdF fl rel first tr args s).segs := by
  unfold moveCmdF
  split
  · refine List.IsPrefix.trans ?_ (line rel _ _)
    exact List.prefix_append _ _
  · exact List.prefix_rfl

theorem arc (rel : Bool) : ∀ (args : List ℝ) (s : PathState) {e : Except BuildError Unit} {r : PathState},
    arcLoopF fl lib rel tr args s = some (e, r) → s.segs <+: r.segs
  | rx :: ry :: rot :: large :: sweep :: x :: y :: args, s, e, r, h => by
    simp only [arcLoopF] at h
    split at h
    · cases h
    · cases h; exact List.prefix_rfl
    · refine List.IsPrefix.trans ?_ (arc rel args _ h)
      exact List.prefix_append _ _
  | [], _, _, _, h => by cases h; exact List.prefix_rfl
  | [_], _, _, _, h => by cases h; exact List.prefix_rfl
  | [_, _], _, _, _, h => by cases h; exact List.prefix_rfl
  | [_, _, _], _, _, _, h => by cases h; exact List.prefix_rfl
  | [_, _, _, _], _, _, _, h => by cases h; exact List.prefix_rfl
  | [_, _, _, _, _], _, _, _, h => by cases h; exact List.prefix_rfl
  | [_, _, _, _, _, _], _, _, _, h => by cases h; exact List.prefix_rfl

theorem check {n : ℕ} {args : List ℝ} {s r : PathState} {b : Option Built} {e : Except BuildError Unit}
    (h : checkArgs n args s b = some (e, r)) (hb : b = some (e, r) → s.segs <+: r.segs) : s.segs <+: r.segs := by
  unfold checkArgs at h
  split at h
  · cases h; exact List.prefix_rfl
  split at h
  · cases h; exact List.prefix_rfl
  · exact hb h

theorem build {cmd : Char} {args : List ℝ} {first : Bool} {s r : PathState} {e : Except BuildError Unit}
    (h : buildPathF fl lib cmd args tr first s = some (e, r)) : s.segs <+: r.segs := by
  unfold buildPathF at h
  split at h
  · exact check h fun h => by cases h; exact move true first args s
  · exact check h fun h => by cases h; exact move false first args s
  · exact check h fun h => by cases h; exact line true args s
  · exact check h fun h => by cases h; exact line false args s
  · exact check h fun h => by cases h; exact vert true args s
  · exact check h fun h => by cases h; exact vert false args s
  · exact check h fun h => by cases h; exact hor true args s
  · exact check h fun h => by cases h; exact hor false args s
  · exact check h fun h => by cases h; exact cubic true args s
  · exact check h fun h => by cases h; exact cubic false args s
  · exact check h fun h => by cases h; exact quad true args s
  · exact check h fun h => by cases h; exact quad false args s
  · exact check h fun h => arc true args s h
  · exact check h fun h => arc false args s h
  · cases h; exact List.prefix_append _ _
  · cases h; exact List.prefix_append _ _
  · cases h; exact List.prefix_rfl

theorem path {text : List Char} {first : Bool} {s r : PathState} {e : Except BuildError Unit}
    (h : pathLoopF fl lib tr first text s = some (.done e r)) : s.segs <+: r.segs := by
  refine pathLoopF.partial_correctness fl lib tr
    (fun _ _ s o => ∀ e r, o = .done e r → s.segs <+: r.segs) ?_ first text s _ h e r rfl
  intro rec ih first text s o h e r ho
  subst ho
  simp only at h
  split at h
  · cases h; exact List.prefix_rfl
  · split at h
    · cases h
    · split at h
      · cases h
      · rename_i hb; cases h; exact build hb
      · rename_i hb; exact (build hb).trans (ih _ _ _ _ h _ _ rfl)

theorem step {keep : Filter} {st st' : DocState} {e : XmlEvent} (h : docStepF fl lib keep st e = some (.inr st')) :
    st.path.segs <+: st'.path.segs := by
  cases e with
  | start n attrs =>
    simp only [docStepF] at h
    repeat' split at h
    all_goals first
      | (cases h; done)
      | (cases h; exact List.prefix_rfl)
      | (rename_i hp; cases h; exact path hp)
  | finish n =>
    simp only [docStepF] at h
    repeat' split at h
    all_goals first
      | (cases h; done)
      | (cases h; exact List.prefix_rfl)
  | error => cases h
  | other => cases h; exact List.prefix_rfl

theorem loop {keep : Filter} : ∀ {es : List XmlEvent} {st : DocState} {segs : List Seg},
    docLoopF fl lib keep es st = some (.ok segs) → st.path.segs <+: segs
  | [], st, segs, h => by cases h; exact List.prefix_rfl
  | e :: es, st, segs, h => by
    rw [docLoopF] at h
    split at h
    · cases h
    · rename_i hs
      cases h
      cases e with
      | error => cases hs; exact List.prefix_rfl
      | start n attrs =>
        simp only [docStepF] at hs
        repeat' split at hs
        all_goals cases hs
      | finish n =>
        simp only [docStepF] at hs
        repeat' split at hs
        all_goals cases hs
      | other => cases hs
    · rename_i hs
      exact (step hs).trans (loop h)

end StepperPaths.Rounded.Grow
