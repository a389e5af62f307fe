import Verif.Model.SvgPath

/-! The builder of paths only appends segments. -/

namespace StepperPaths.Svg.Grow
open Coords Draw

variable {tr : Transform}

theorem line (rel : Bool) : ∀ (args : List ℝ) (s : PathState), s.segs <+: (lineLoop rel tr args s).segs
  | [], _ => List.prefix_rfl
  | [_], _ => List.prefix_rfl
  | x :: y :: args, s => by
    rw [lineLoop]
    refine List.IsPrefix.trans ?_ (line rel args _)
    exact List.prefix_append _ _

theorem vert (rel : Bool) : ∀ (args : List ℝ) (s : PathState), s.segs <+: (vertLoop rel tr args s).segs
  | [], _ => List.prefix_rfl
  | _ :: args, s => by
    rw [vertLoop]
    refine List.IsPrefix.trans ?_ (vert rel args _)
    exact List.prefix_append _ _

theorem hor (rel : Bool) : ∀ (args : List ℝ) (s : PathState), s.segs <+: (horLoop rel tr args s).segs
  | [], _ => List.prefix_rfl
  | _ :: args, s => by
    rw [horLoop]
    refine List.IsPrefix.trans ?_ (hor rel args _)
    exact List.prefix_append _ _

theorem cubic (rel : Bool) : ∀ (args : List ℝ) (s : PathState), s.segs <+: (cubicLoop rel tr args s).segs
  | [], _ => List.prefix_rfl
  | [_], _ => List.prefix_rfl
  | [_, _], _ => List.prefix_rfl
  | [_, _, _], _ => List.prefix_rfl
  | [_, _, _, _], _ => List.prefix_rfl
  | [_, _, _, _, _], _ => List.prefix_rfl
  | _ :: _ :: _ :: _ :: _ :: _ :: args, s => by
    rw [cubicLoop]
    refine List.IsPrefix.trans ?_ (cubic rel args _)
    exact List.prefix_append _ _

theorem quad (rel : Bool) : ∀ (args : List ℝ) (s : PathState), s.segs <+: (quadLoop rel tr args s).segs
  | [], _ => List.prefix_rfl
  | [_], _ => List.prefix_rfl
  | [_, _], _ => List.prefix_rfl
  | [_, _, _], _ => List.prefix_rfl
  | _ :: _ :: _ :: _ :: args, s => by
    rw [quadLoop]
    refine List.IsPrefix.trans ?_ (quad rel args _)
    exact List.prefix_append _ _

theorem move (rel first : Bool) (args : List ℝ) (s : PathState) : s.segs <+: (moveCmd rel first tr args s).segs := by
  unfold moveCmd
  split
  · refine List.IsPrefix.trans ?_ (line rel _ _)
    exact List.prefix_append _ _
  · exact List.prefix_rfl

theorem arc (rel : Bool) : ∀ (args : List ℝ) (s : PathState) {e : Except BuildError Unit} {r : PathState},
    arcLoop rel tr args s = some (e, r) → s.segs <+: r.segs
  | rx :: ry :: rot :: large :: sweep :: x :: y :: args, s, e, r, h => by
    simp only [arcLoop] at h
    split at h
    · cases h
    · cases h; exact List.prefix_rfl
    · refine List.IsPrefix.trans ?_ (arc rel args _ h)
      exact List.prefix_append _ _
  | [], _, _, _, h => by cases h; exact List.prefix_rfl
  | [_], _, _, _, h => by cases h; exact List.prefix_rfl
  | [_, _], _, _, _, h => by cases h; exact List.prefix_rfl
  | [_, _, _], _, _, _, h => by cases h; exact List.prefix_rfl
  | [_, _, _, _], _, _, _, h => by cases h; exact List.prefix_rfl
  | [_, _, _, _, _], _, _, _, h => by cases h; exact List.prefix_rfl
  | [_, _, _, _, _, _], _, _, _, h => by cases h; exact List.prefix_rfl

theorem check {n : ℕ} {args : List ℝ} {s r : PathState} {b : Option Built} {e : Except BuildError Unit}
    (h : checkArgs n args s b = some (e, r)) (hb : b = some (e, r) → s.segs <+: r.segs) : s.segs <+: r.segs := by
  unfold checkArgs at h
  split at h
  · cases h; exact List.prefix_rfl
  split at h
  · cases h; exact List.prefix_rfl
  · exact hb h

theorem build {cmd : Char} {args : List ℝ} {first : Bool} {s r : PathState} {e : Except BuildError Unit}
    (h : buildPath cmd args tr first s = some (e, r)) : s.segs <+: r.segs := by
  unfold buildPath at h
  split at h
  · exact check h fun h => by cases h; exact move true first args s
  · exact check h fun h => by cases h; exact move false first args s
  · exact check h fun h => by cases h; exact line true args s
  · exact check h fun h => by cases h; exact line false args s
  · exact check h fun h => by cases h; exact vert true args s
  · exact check h fun h => by cases h; exact vert false args s
  · exact check h fun h => by cases h; exact hor true args s
  · exact check h fun h => by cases h; exact hor false args s
  · exact check h fun h => by cases h; exact cubic true args s
  · exact check h fun h => by cases h; exact cubic false args s
  · exact check h fun h => by cases h; exact quad true args s
  · exact check h fun h => by cases h; exact quad false args s
  · exact check h fun h => arc true args s h
  · exact check h fun h => arc false args s h
  · cases h; exact List.prefix_append _ _
  · cases h; exact List.prefix_append _ _
  · cases h; exact List.prefix_rfl

theorem all : ∀ (cmds : List (Char × List ℝ)) (first : Bool) {s r : PathState} {e : Except BuildError Unit},
    buildAll tr first cmds s = some (e, r) → s.segs <+: r.segs
  | [], _, _, _, _, h => by cases h; exact List.prefix_rfl
  | (cmd, args) :: cmds, first, s, r, e, h => by
    simp only [buildAll] at h
    split at h
    · cases h
    · rename_i hq; cases h; exact build hq
    · rename_i hq; exact (build hq).trans (all cmds false h)

end StepperPaths.Svg.Grow
