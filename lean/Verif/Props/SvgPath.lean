import Verif.Model.SvgPath
import Verif.Spec.Svg
import Verif.Spec.Draw
import Verif.Props.Coords

/-!
Properties C49, C50, C51 and C77: the commands of SVG paths, `build_path` in
`/repo/src/svg_path_parser.rs`, in exact arithmetic.
-/

namespace StepperPaths.Props
open Coords Draw Svg Spec.Svg Spec

/-! ### C50 -/

theorem absPairs_length (p : Vec) (l : List ℝ) : (absPairs p l).length = l.length := by
  fun_induction absPairs p l <;> simp_all

theorem absNums_length (a : ℝ) (l : List ℝ) : (absNums a l).length = l.length := by
  fun_induction absNums a l <;> simp_all

theorem absCubic_length (p : Vec) (l : List ℝ) : (absCubic p l).length = l.length := by
  fun_induction absCubic p l <;> simp_all

theorem absQuad_length (p : Vec) (l : List ℝ) : (absQuad p l).length = l.length := by
  fun_induction absQuad p l <;> simp_all

theorem absArc_length (p : Vec) (l : List ℝ) : (absArc p l).length = l.length := by
  fun_induction absArc p l <;> simp_all

theorem absFirstMove_length (l : List ℝ) : (absFirstMove l).length = l.length := by
  match l with
  | [] => rfl
  | [_] => rfl
  | x :: y :: r => simp [absFirstMove, absPairs_length]

theorem checkArgs_congr {n : ℕ} {args args' : List ℝ} {s : PathState} {b b' : Option Built}
    (h : args'.length = args.length) (hb : b = b') :
    checkArgs n args s b = checkArgs n args' s b' := by
  simp only [checkArgs, h, hb]

theorem lineLoop_abs (tr : Transform) (l : List ℝ) (s : PathState) :
    lineLoop true tr l s = lineLoop false tr (absPairs s.pos l) s := by
  fun_induction lineLoop true tr l s with
  | case1 s x y rest pos ih =>
    rw [ih]
    simp only [absPairs, lineLoop, target, PathState.push, pos]
    rfl
  | case2 l s h =>
    match l with
    | [] => rfl
    | [_] => rfl
    | x :: y :: r => exact absurd rfl (h x y r)

theorem vertLoop_abs (tr : Transform) (l : List ℝ) (s : PathState) :
    vertLoop true tr l s = vertLoop false tr (absNums s.pos.y l) s := by
  induction l generalizing s with
  | nil => rfl
  | cons y l ih => simp [vertLoop, absNums, ih, PathState.push]

theorem horLoop_abs (tr : Transform) (l : List ℝ) (s : PathState) :
    horLoop true tr l s = horLoop false tr (absNums s.pos.x l) s := by
  induction l generalizing s with
  | nil => rfl
  | cons y l ih => simp [horLoop, absNums, ih, PathState.push]

theorem cubicLoop_abs (tr : Transform) (l : List ℝ) (s : PathState) :
    cubicLoop true tr l s = cubicLoop false tr (absCubic s.pos l) s := by
  fun_induction cubicLoop true tr l s with
  | case1 x1 y1 x2 y2 x y rest s o p2 c1 c2 seg ih =>
    rw [ih]
    have e : ∀ a b : ℝ, (⟨a, b⟩ : Vec) + s.pos = ⟨s.pos.x + a, s.pos.y + b⟩ := by
      intro a b; rw [vadd]; congr 1 <;> ring
    have z : ∀ v : Vec, v + ⟨0, 0⟩ = v := by intro v; rw [vadd]; simp
    simp only [absCubic, cubicLoop, PathState.push, p2, c1, c2, seg, o, offset, if_true, e, z,
      Bool.false_eq_true, if_false]
  | case2 l s h => rw [absCubic.eq_2 _ _ h, cubicLoop.eq_2 _ _ _ _ h]

theorem quadLoop_abs (tr : Transform) (l : List ℝ) (s : PathState) :
    quadLoop true tr l s = quadLoop false tr (absQuad s.pos l) s := by
  fun_induction quadLoop true tr l s with
  | case1 x1 y1 x y rest s o p2 m1 control seg ih =>
    rw [ih]
    have e : ∀ a b : ℝ, (⟨a, b⟩ : Vec) + s.pos = ⟨s.pos.x + a, s.pos.y + b⟩ := by
      intro a b; rw [vadd]; congr 1 <;> ring
    have z : ∀ v : Vec, v + ⟨0, 0⟩ = v := by intro v; rw [vadd]; simp
    simp only [absQuad, quadLoop, PathState.push, p2, m1, control, seg, o, offset, if_true, e, z,
      Bool.false_eq_true, if_false]
  | case2 l s h => rw [absQuad.eq_2 _ _ h, quadLoop.eq_2 _ _ _ _ h]

theorem arcLoop_abs (tr : Transform) : ∀ (l : List ℝ) (s : PathState),
    arcLoop true tr l s = arcLoop false tr (absArc s.pos l) s
  | rx :: ry :: rot :: large :: sweep :: x :: y :: rest, s => by
    have e : (⟨x, y⟩ : Vec) + s.pos = ⟨s.pos.x + x, s.pos.y + y⟩ := by
      rw [vadd]; congr 1 <;> ring
    have e' : s.pos + (⟨x, y⟩ : Vec) = ⟨s.pos.x + x, s.pos.y + y⟩ := rfl
    simp only [arcLoop, absArc, if_true, Bool.false_eq_true, if_false, target, e, e']
    split
    · rfl
    · rfl
    · exact arcLoop_abs tr rest _
  | [], _ => rfl
  | [_], _ => rfl
  | [_, _], _ => rfl
  | [_, _, _], _ => rfl
  | [_, _, _, _], _ => rfl
  | [_, _, _, _, _], _ => rfl
  | [_, _, _, _, _, _], _ => rfl

theorem moveCmd_abs (first : Bool) (tr : Transform) (l : List ℝ) (s : PathState) :
    moveCmd true first tr l s =
      moveCmd false first tr (if first then absFirstMove l else absPairs s.pos l) s := by
  match l with
  | [] => cases first <;> rfl
  | [_] => cases first <;> rfl
  | x :: y :: r =>
    cases first <;> simp only [moveCmd, absFirstMove, absPairs, lineLoop_abs, Bool.not_true,
      Bool.not_false, Bool.true_and, Bool.false_and, if_true, Bool.false_eq_true, if_false]
    · rfl
    · rfl

/-- **C50.**  A relative command does exactly what its absolute form does: same segments, same
errors, same context afterwards. -/
theorem C50_relative (cmd : Char) (args : List ℝ) (tr : Transform) (first : Bool) (s : PathState) :
    buildPath cmd args tr first s =
      buildPath (absolute cmd first s.pos args).1 (absolute cmd first s.pos args).2 tr first s := by
  unfold absolute
  split
  · refine checkArgs_congr ?_ (by rw [moveCmd_abs])
    split
    · exact absFirstMove_length _
    · exact absPairs_length _ _
  · exact checkArgs_congr (absPairs_length _ _) (by rw [lineLoop_abs])
  · exact checkArgs_congr (absNums_length _ _) (by rw [horLoop_abs])
  · exact checkArgs_congr (absNums_length _ _) (by rw [vertLoop_abs])
  · exact checkArgs_congr (absCubic_length _ _) (by rw [cubicLoop_abs])
  · exact checkArgs_congr (absQuad_length _ _) (by rw [quadLoop_abs])
  · exact checkArgs_congr (absArc_length _ _) (by rw [arcLoop_abs])
  · rfl
  · rfl

/-- The absolute form of a command uses capital letters only. -/
theorem C50_capital (cmd : Char) (n : ℕ) (h : groupSize cmd = some n) (first : Bool) (pos : Vec)
    (args : List ℝ) :
    (absolute cmd first pos args).1 ∈ ['M', 'L', 'H', 'V', 'C', 'Q', 'A'] ∧
      (absolute cmd first pos args).2.length = args.length := by
  unfold groupSize at h
  split at h <;> cases h <;> simp only [absolute, absPairs_length, absNums_length, absCubic_length,
    absQuad_length, absArc_length, List.mem_cons] <;> simp
  split <;> simp [absFirstMove_length, absPairs_length]

example : absolute 'c' false ⟨1, 2⟩ [1, 1, 2, 2, 3, 3] = ('C', [2, 3, 3, 4, 4, 5]) := by
  simp [absolute, absCubic]; norm_num

/-! ### C51 -/

/-- The state after a command that has passed the checks, arcs aside. -/
noncomputable def after (cmd : Char) (args : List ℝ) (tr : Transform) (first : Bool)
    (s : PathState) : PathState :=
  match cmd with
  | 'm' => (moveCmd true first tr args s).noControl
  | 'M' => (moveCmd false first tr args s).noControl
  | 'l' => (lineLoop true tr args s).noControl
  | 'L' => (lineLoop false tr args s).noControl
  | 'v' => (vertLoop true tr args s).noControl
  | 'V' => (vertLoop false tr args s).noControl
  | 'h' => (horLoop true tr args s).noControl
  | 'H' => (horLoop false tr args s).noControl
  | 'c' => cubicLoop true tr args s
  | 'C' => cubicLoop false tr args s
  | 'q' => quadLoop true tr args s
  | 'Q' => quadLoop false tr args s
  | _ => closeCmd tr s

/-- Arcs need more than a check of the number of arguments. -/
def IsArc (cmd : Char) : Prop := cmd = 'a' ∨ cmd = 'A'

theorem build_group {cmd : Char} {n : ℕ} (h : groupSize cmd = some n) (ha : ¬ IsArc cmd)
    (args : List ℝ) (tr : Transform) (first : Bool) (s : PathState) :
    buildPath cmd args tr first s =
      checkArgs n args s (some (.ok (), after cmd args tr first s)) := by
  unfold groupSize at h
  split at h <;> cases h <;> first | rfl | (exfalso; exact ha (by simp [IsArc]))

theorem build_arc {cmd : Char} (h : IsArc cmd) (args : List ℝ) (tr : Transform) (first : Bool)
    (s : PathState) :
    buildPath cmd args tr first s = checkArgs 7 args s (arcLoop (cmd == 'a') tr args s) := by
  rcases h with rfl | rfl <;> rfl

theorem arc_group {cmd : Char} (h : IsArc cmd) : groupSize cmd = some 7 := by
  rcases h with rfl | rfl <;> rfl

theorem build_close {cmd : Char} (h : cmd = 'z' ∨ cmd = 'Z') (args : List ℝ) (tr : Transform)
    (first : Bool) (s : PathState) :
    buildPath cmd args tr first s = some (.ok (), closeCmd tr s) := by
  rcases h with rfl | rfl <;> rfl

theorem build_unknown {cmd : Char} (h : groupSize cmd = none) (hz : ¬ (cmd = 'z' ∨ cmd = 'Z'))
    (args : List ℝ) (tr : Transform) (first : Bool) (s : PathState) :
    buildPath cmd args tr first s = some (.error (.unknown cmd), s) := by
  unfold buildPath
  split <;> first | rfl | (exfalso; simp [groupSize] at h; done) | (exfalso; exact hz (by simp))

theorem groupSize_pos {cmd : Char} {n : ℕ} (h : groupSize cmd = some n) : 0 < n := by
  unfold groupSize at h
  split at h <;> cases h <;> norm_num

theorem check_bad {n : ℕ} (h0 : 0 < n) {args : List ℝ} (hn : ¬ (args ≠ [] ∧ n ∣ args.length))
    (s : PathState) (b : Option Built) : ∃ e, checkArgs n args s b = some (.error e, s) := by
  unfold checkArgs
  by_cases h1 : args.length < n
  · exact ⟨_, if_pos h1⟩
  rw [if_neg h1]
  by_cases h2 : args.length % n ≠ 0
  · exact ⟨_, if_pos h2⟩
  refine absurd ⟨?_, Nat.dvd_of_mod_eq_zero (not_not.1 h2)⟩ hn
  rintro rfl
  simp at h1
  omega

theorem check_good {n : ℕ} {args : List ℝ} (h1 : args ≠ []) (hn : n ∣ args.length)
    (s : PathState) (b : Option Built) : checkArgs n args s b = b := by
  unfold checkArgs
  rw [if_neg, if_neg (by simp [Nat.mod_eq_zero_of_dvd hn])]
  have := Nat.le_of_dvd (List.length_pos_iff.2 h1) hn
  omega

/-- **C51.**  A command that is not supported, or has a wrong number of arguments, is an error;
nothing is emitted and the context is unchanged. -/
theorem C51_rejected (cmd : Char) (args : List ℝ) (h : ¬ Accepted cmd args) (tr : Transform)
    (first : Bool) (s : PathState) : ∃ e, buildPath cmd args tr first s = some (.error e, s) := by
  have hz : ¬ (cmd = 'z' ∨ cmd = 'Z') := fun hz => h (by rcases hz with h | h <;> simp [Accepted, h])
  rcases hg : groupSize cmd with _ | n
  · exact ⟨_, build_unknown hg hz args tr first s⟩
  have hn : ¬ (args ≠ [] ∧ n ∣ args.length) := fun hn => h (.inr (.inr ⟨n, hg, hn⟩))
  by_cases ha : IsArc cmd
  · rw [build_arc ha]
    cases (arc_group ha).symm.trans hg
    exact check_bad (by norm_num) hn _ _
  · rw [build_group hg ha]
    exact check_bad (groupSize_pos hg) hn _ _

/-- **C51.**  Every other command that is not an arc is accepted. -/
theorem C51_accepted (cmd : Char) (args : List ℝ) (h : Accepted cmd args) (ha : cmd ≠ 'a')
    (hA : cmd ≠ 'A') (tr : Transform) (first : Bool) (s : PathState) :
    ∃ s', buildPath cmd args tr first s = some (.ok (), s') := by
  rcases h with h | h | ⟨n, hg, h1, h2⟩
  · exact ⟨_, build_close (.inl h) args tr first s⟩
  · exact ⟨_, build_close (.inr h) args tr first s⟩
  · rw [build_group hg (by simp [IsArc, ha, hA]), check_good h1 h2]
    exact ⟨_, rfl⟩

/-- **C51.**  The smooth curves of SVG, which the text parser lets through, are rejected. -/
theorem C51_smooth (cmd : Char) (h : cmd ∈ ['s', 'S', 't', 'T']) (args : List ℝ) (tr : Transform)
    (first : Bool) (s : PathState) :
    buildPath cmd args tr first s = some (.error (.unknown cmd), s) := by
  simp only [List.mem_cons, List.not_mem_nil, or_false] at h
  rcases h with rfl | rfl | rfl | rfl <;> exact build_unknown rfl (by decide) _ _ _ _

/-- **C51.**  Arguments of a closing command, an error in SVG, are ignored. -/
theorem C51_close_args (args : List ℝ) (tr : Transform) (first : Bool) (s : PathState) :
    buildPath 'z' args tr first s = buildPath 'z' [] tr first s := rfl

example : ¬ Accepted 'c' [1, 2, 3, 4] := by
  rintro (h | h | ⟨n, h, -, h2⟩)
  · cases h
  · cases h
  · cases h; revert h2; decide

example : Accepted 'q' [1, 2, 3, 4] := .inr (.inr ⟨4, rfl, by simp, by decide⟩)

/-! ### C49 -/

/-- The segments of a state, transformed. -/
noncomputable def mapSegs (t : Transform) (s : PathState) : PathState :=
  { s with segs := s.segs.map (Seg.transform t) }

theorem ident_mul (v : Vec) : Transform.identity * v = v := by
  ext <;> simp [Transform.identity]

theorem lin_sub (t : Transform) (a b : Vec) : t.noTranslation * (a - b) = t * a - t * b := by
  ext <;> simp [Transform.noTranslation] <;> ring

theorem lin_scale (t : Transform) (a : Vec) (r : ℝ) :
    t.noTranslation * (a * r) = (t.noTranslation * a) * r := by
  ext <;> simp [Transform.noTranslation] <;> ring

theorem lineLoop_map (rel : Bool) (tr : Transform) (l : List ℝ) (s : PathState) :
    lineLoop rel tr l (mapSegs tr s) = mapSegs tr (lineLoop rel .identity l s) := by
  fun_induction lineLoop rel .identity l s with
  | case1 x y rest s pos ih =>
    rw [← ih]
    simp only [lineLoop, mapSegs, PathState.push, List.map_append, List.map_cons, List.map_nil,
      Seg.transform, ident_mul, pos]
  | case2 l s h => rw [lineLoop.eq_2 _ _ _ _ h]

theorem vertLoop_map (rel : Bool) (tr : Transform) (l : List ℝ) (s : PathState) :
    vertLoop rel tr l (mapSegs tr s) = mapSegs tr (vertLoop rel .identity l s) := by
  induction l generalizing s with
  | nil => rfl
  | cons y l ih =>
    simp only [vertLoop, ← ih]
    simp only [mapSegs, PathState.push, List.map_append, List.map_cons, List.map_nil,
      Seg.transform, ident_mul]

theorem horLoop_map (rel : Bool) (tr : Transform) (l : List ℝ) (s : PathState) :
    horLoop rel tr l (mapSegs tr s) = mapSegs tr (horLoop rel .identity l s) := by
  induction l generalizing s with
  | nil => rfl
  | cons y l ih =>
    simp only [horLoop, ← ih]
    simp only [mapSegs, PathState.push, List.map_append, List.map_cons, List.map_nil,
      Seg.transform, ident_mul]

theorem cubicLoop_map (rel : Bool) (tr : Transform) (l : List ℝ) (s : PathState) :
    cubicLoop rel tr l (mapSegs tr s) = mapSegs tr (cubicLoop rel .identity l s) := by
  fun_induction cubicLoop rel .identity l s with
  | case1 x1 y1 x2 y2 x y rest s o p2 c1 c2 seg ih =>
    rw [← ih]
    simp only [cubicLoop, mapSegs, PathState.push, List.map_append, List.map_cons, List.map_nil,
      Seg.transform, ident_mul, lin_sub, p2, c1, c2, seg, o]
  | case2 l s h => rw [cubicLoop.eq_2 _ _ _ _ h]

theorem quadLoop_map (rel : Bool) (tr : Transform) (l : List ℝ) (s : PathState) :
    quadLoop rel tr l (mapSegs tr s) = mapSegs tr (quadLoop rel .identity l s) := by
  fun_induction quadLoop rel .identity l s with
  | case1 x1 y1 x y rest s o p2 m1 control seg ih =>
    rw [← ih]
    simp only [quadLoop, mapSegs, PathState.push, List.map_append, List.map_cons, List.map_nil,
      Seg.transform, ident_mul, lin_sub, lin_scale, p2, m1, control, seg, o]
  | case2 l s h => rw [quadLoop.eq_2 _ _ _ _ h]

theorem moveCmd_map (rel first : Bool) (tr : Transform) (l : List ℝ) (s : PathState) :
    moveCmd rel first tr l (mapSegs tr s) = mapSegs tr (moveCmd rel first .identity l s) := by
  match l with
  | [] => rfl
  | [_] => rfl
  | x :: y :: r =>
    simp only [moveCmd, ← lineLoop_map]
    simp only [moveFirst, mapSegs, PathState.push, List.map_append, List.map_cons, List.map_nil,
      Seg.transform, ident_mul]

theorem closeCmd_map (tr : Transform) (s : PathState) :
    closeCmd tr (mapSegs tr s) = mapSegs tr (closeCmd .identity s) := by
  simp only [closeCmd, mapSegs, PathState.push, List.map_append, List.map_cons, List.map_nil,
    Seg.transform, ident_mul]

theorem after_map (cmd : Char) (args : List ℝ) (tr : Transform) (first : Bool) (s : PathState) :
    after cmd args tr first (mapSegs tr s) = mapSegs tr (after cmd args .identity first s) := by
  have e : ∀ s : PathState, (mapSegs tr s).noControl = mapSegs tr s.noControl := fun s => rfl
  unfold after
  split <;> simp only [moveCmd_map, lineLoop_map, vertLoop_map, horLoop_map, cubicLoop_map,
    quadLoop_map, closeCmd_map, e]

/-- **C49.**  With a transform `tr` a command other than an arc emits the transformed segments of
the same command without a transform, and is an error in the same cases. -/
theorem C49_command (cmd : Char) (ha : cmd ≠ 'a') (hA : cmd ≠ 'A') (args : List ℝ) (tr : Transform)
    (first : Bool) (s : PathState) :
    buildPath cmd args tr first (mapSegs tr s) =
      (buildPath cmd args .identity first s).map fun r => (r.1, mapSegs tr r.2) := by
  by_cases hz : cmd = 'z' ∨ cmd = 'Z'
  · rw [build_close hz, build_close hz, closeCmd_map]; rfl
  rcases hg : groupSize cmd with _ | n
  · rw [build_unknown hg hz, build_unknown hg hz]; rfl
  · have hc : ¬ IsArc cmd := by simp [IsArc, ha, hA]
    rw [build_group hg hc, build_group hg hc]
    by_cases h : args ≠ [] ∧ n ∣ args.length
    · rw [check_good h.1 h.2, check_good h.1 h.2, after_map]; rfl
    · unfold checkArgs
      split
      · rfl
      split
      · rfl
      · rw [after_map]; rfl

/-- **C49.**  The same for a path of any length. -/
theorem C49_path (cmds : List (Char × List ℝ)) (hc : ∀ c ∈ cmds, c.1 ≠ 'a' ∧ c.1 ≠ 'A')
    (tr : Transform) (first : Bool) (s : PathState) :
    buildAll tr first cmds (mapSegs tr s) =
      (buildAll .identity first cmds s).map fun r => (r.1, mapSegs tr r.2) := by
  induction cmds generalizing first s with
  | nil => rfl
  | cons c cmds ih =>
    obtain ⟨c, args⟩ := c
    have h := hc (c, args) (by simp)
    simp only [buildAll, C49_command c h.1 h.2]
    rcases buildPath c args .identity first s with _ | ⟨_ | _, s'⟩
    · rfl
    · rfl
    · exact ih (fun c hc' => hc c (by simp [hc'])) false s'

/-- A line in a sheared drawing. -/
example : buildAll ⟨1, 0, 2, 1, 5, 6⟩ true [('M', [1, 1]), ('l', [0, 2])] .new =
    some (.ok (), ⟨⟨1, 3⟩, ⟨1, 1⟩, none, [.goTo ⟨8, 7⟩, .lineTo ⟨12, 9⟩]⟩) := by
  simp only [buildAll, buildPath, checkArgs, moveCmd, moveFirst, lineLoop, target, PathState.push,
    PathState.new, PathState.noControl]
  norm_num

/-! ### C77 -/

theorem lineLoop_append (rel : Bool) (tr : Transform) (l l' : List ℝ) (h : 2 ∣ l.length)
    (s : PathState) : lineLoop rel tr (l ++ l') s = lineLoop rel tr l' (lineLoop rel tr l s) := by
  fun_induction lineLoop rel tr l s with
  | case1 x y rest s pos ih =>
    simp only [List.cons_append, lineLoop]
    exact ih (by simp at h ⊢; omega)
  | case2 l s hl =>
    match l with
    | [] => rfl
    | [_] => simp at h
    | x :: y :: r => exact absurd rfl (hl x y r)

theorem lineLoop_noControl (rel : Bool) (tr : Transform) (l : List ℝ) (s : PathState) :
    (lineLoop rel tr l s.noControl).noControl = (lineLoop rel tr l s).noControl := by
  fun_induction lineLoop rel tr l s with
  | case1 x y rest s pos ih =>
    rw [← ih]
    rfl
  | case2 l s h => rw [lineLoop.eq_2 _ _ _ _ h]; rfl

theorem vertLoop_append (rel : Bool) (tr : Transform) (l l' : List ℝ) (s : PathState) :
    vertLoop rel tr (l ++ l') s = vertLoop rel tr l' (vertLoop rel tr l s) := by
  induction l generalizing s with
  | nil => rfl
  | cons y l ih => simp only [List.cons_append, vertLoop, ih]

theorem vertLoop_noControl (rel : Bool) (tr : Transform) (l : List ℝ) (s : PathState) :
    (vertLoop rel tr l s.noControl).noControl = (vertLoop rel tr l s).noControl := by
  induction l generalizing s with
  | nil => rfl
  | cons y l ih =>
    simp only [vertLoop]
    refine Eq.trans ?_ (ih _)
    rfl

theorem horLoop_append (rel : Bool) (tr : Transform) (l l' : List ℝ) (s : PathState) :
    horLoop rel tr (l ++ l') s = horLoop rel tr l' (horLoop rel tr l s) := by
  induction l generalizing s with
  | nil => rfl
  | cons y l ih => simp only [List.cons_append, horLoop, ih]

theorem horLoop_noControl (rel : Bool) (tr : Transform) (l : List ℝ) (s : PathState) :
    (horLoop rel tr l s.noControl).noControl = (horLoop rel tr l s).noControl := by
  induction l generalizing s with
  | nil => rfl
  | cons y l ih =>
    simp only [horLoop]
    refine Eq.trans ?_ (ih _)
    rfl

theorem moveCmd_append (rel first : Bool) (tr : Transform) (x y : ℝ) (l' : List ℝ)
    (s : PathState) : moveCmd rel first tr ([x, y] ++ l') s =
      lineLoop rel tr l' (moveCmd rel first tr [x, y] s) := rfl

/-- **C77.**  A command with several groups of arguments is the command with the first group,
followed by the command with the others; after a move the others are lines. -/
theorem C77_groups (cmd : Char) (n : ℕ) (h : groupSize cmd = some n) (args more : List ℝ)
    (hl : args.length = n) (hm : more ≠ []) (hd : n ∣ more.length) (tr : Transform) (first : Bool)
    (s : PathState) :
    buildAll tr first [(cmd, args ++ more)] s =
      buildAll tr first [(cmd, args), (nextCmd cmd, more)] s := by
  have h0 := groupSize_pos h
  have hne : args ≠ [] := by rintro rfl; simp at hl; omega
  have hnext : groupSize (nextCmd cmd) = some n := by
    unfold groupSize at h
    split at h <;> first | exact h | cases h
  by_cases ha : IsArc cmd
  · have hn : nextCmd cmd = cmd := by rcases ha with rfl | rfl <;> rfl
    cases (arc_group ha).symm.trans h
    simp only [buildAll, hn, build_arc ha]
    rw [check_good (by simp [hne]) (by simp [hl, hd]), check_good hne (by simp [hl])]
    match args, hl with
    | [rx, ry, rot, large, sweep, x, y], _ =>
      simp only [List.cons_append, List.nil_append, arcLoop]
      generalize arcSeg tr _ _ = r
      rcases r with _ | _ | seg
      · rfl
      · rfl
      · simp only []
        rw [check_good hm hd]
  · have ha' : ¬ IsArc (nextCmd cmd) := by
      unfold nextCmd; split
      · simp [IsArc]
      · simp [IsArc]
      · exact ha
    simp only [buildAll, build_group h ha, build_group hnext ha']
    rw [check_good (by simp [hne]) (by simp [hl, hd]), check_good hne (by simp [hl])]
    simp only []
    rw [check_good hm hd]
    simp only []
    congr 2
    unfold groupSize at h
    split at h <;> cases h
    · match args, hl with
      | [x, y], _ => exact (lineLoop_noControl _ _ _ _).symm
    · match args, hl with
      | [x, y], _ => exact (lineLoop_noControl _ _ _ _).symm
    · match args, hl with
      | [x, y], _ => exact (lineLoop_noControl _ _ _ _).symm
    · match args, hl with
      | [x, y], _ => exact (lineLoop_noControl _ _ _ _).symm
    · match args, hl with
      | [x], _ => exact (horLoop_noControl _ _ _ _).symm
    · match args, hl with
      | [x], _ => exact (horLoop_noControl _ _ _ _).symm
    · match args, hl with
      | [x], _ => exact (vertLoop_noControl _ _ _ _).symm
    · match args, hl with
      | [x], _ => exact (vertLoop_noControl _ _ _ _).symm
    · match args, hl with
      | [_, _, _, _, _, _], _ => rfl
    · match args, hl with
      | [_, _, _, _, _, _], _ => rfl
    · match args, hl with
      | [_, _, _, _], _ => rfl
    · match args, hl with
      | [_, _, _, _], _ => rfl
    · exact absurd (.inl rfl) ha
    · exact absurd (.inr rfl) ha

theorem build_single {cmd : Char} {n : ℕ} (h : groupSize cmd = some n) (ha : ¬ IsArc cmd)
    {args : List ℝ} (hl : args.length = n) (tr : Transform) (first : Bool) (s : PathState) :
    buildPath cmd args tr first s = some (.ok (), after cmd args tr first s) := by
  have h0 := groupSize_pos h
  have hne : args ≠ [] := by rintro rfl; simp at hl; omega
  rw [build_group h ha, check_good hne (by simp [hl])]

/-- **C77.**  A move goes to the given point, which is also the point to close to. -/
theorem C77_move (x y : ℝ) (tr : Transform) (first : Bool) (s : PathState) :
    buildPath 'M' [x, y] tr first s =
      some (.ok (), ⟨⟨x, y⟩, ⟨x, y⟩, none, s.segs ++ [.goTo (tr * (⟨x, y⟩ : Vec))]⟩) := by
  rw [build_single rfl (by simp [IsArc]) rfl]
  rfl

/-- The result of a command that draws one curve `γ` (before the transform) ending in `e`. -/
def Traces (r : Option Built) (tr : Transform) (s : PathState) (γ : ℝ → Vec) (e : Vec) : Prop :=
  ∃ seg control, r = some (.ok (), ⟨e, s.start, control, s.segs ++ [seg]⟩) ∧
    (∀ p, seg ≠ .goTo p) ∧ ∀ u, pointAt (tr * s.pos) seg u = tr * γ u

/-- **C77.**  A line command draws the straight line to the given point. -/
theorem C77_line (x y : ℝ) (tr : Transform) (first : Bool) (s : PathState) :
    Traces (buildPath 'L' [x, y] tr first s) tr s (line s.pos ⟨x, y⟩) ⟨x, y⟩ := by
  refine ⟨.lineTo (tr * (⟨x, y⟩ : Vec)), none, ?_, by simp, fun u => ?_⟩
  · rw [build_single rfl (by simp [IsArc]) rfl]
    rfl
  ext <;> simp [pointAt, line] <;> ring

/-- **C77.**  A horizontal line. -/
theorem C77_horizontal (x : ℝ) (tr : Transform) (first : Bool) (s : PathState) :
    Traces (buildPath 'H' [x] tr first s) tr s (line s.pos ⟨x, s.pos.y⟩) ⟨x, s.pos.y⟩ := by
  refine ⟨.lineTo (tr * (⟨x, s.pos.y⟩ : Vec)), none, ?_, by simp, fun u => ?_⟩
  · rw [build_single rfl (by simp [IsArc]) rfl]
    rfl
  ext <;> simp [pointAt, line] <;> ring

/-- **C77.**  A vertical line. -/
theorem C77_vertical (y : ℝ) (tr : Transform) (first : Bool) (s : PathState) :
    Traces (buildPath 'V' [y] tr first s) tr s (line s.pos ⟨s.pos.x, y⟩) ⟨s.pos.x, y⟩ := by
  refine ⟨.lineTo (tr * (⟨s.pos.x, y⟩ : Vec)), none, ?_, by simp, fun u => ?_⟩
  · rw [build_single rfl (by simp [IsArc]) rfl]
    rfl
  ext <;> simp [pointAt, line] <;> ring

/-- **C77.**  A closing command draws the straight line to the start of the figure. -/
theorem C77_close (tr : Transform) (first : Bool) (s : PathState) :
    Traces (buildPath 'Z' [] tr first s) tr s (line s.pos s.start) s.start := by
  refine ⟨.closeTo (tr * s.start), s.lastControl, rfl, by simp, fun u => ?_⟩
  ext <;> simp [pointAt, line] <;> ring

theorem add_zero_vec (v : Vec) : v + (⟨0, 0⟩ : Vec) = v := by ext <;> simp

/-- **C77.**  A cubic curve command draws the Bezier curve with the given control points. -/
theorem C77_cubic (x1 y1 x2 y2 x y : ℝ) (tr : Transform) (first : Bool) (s : PathState) :
    Traces (buildPath 'C' [x1, y1, x2, y2, x, y] tr first s) tr s
      (cubic s.pos ⟨x1, y1⟩ ⟨x2, y2⟩ ⟨x, y⟩) ⟨x, y⟩ := by
  refine ⟨.curveTo (tr * (⟨x, y⟩ : Vec)) (tr * (⟨x1, y1⟩ : Vec) - tr * s.pos) (tr * (⟨x2, y2⟩ : Vec) - tr * (⟨x, y⟩ : Vec)),
    some ⟨x2, y2⟩, ?_, by simp, fun u => ?_⟩
  · rw [build_single rfl (by simp [IsArc]) rfl]
    simp only [after, cubicLoop, offset, Bool.false_eq_true, if_false, add_zero_vec, PathState.push]
  · ext <;> simp [pointAt, cubic, quadratic, line] <;> ring

/-- **C77.**  A quadratic curve command draws the quadratic Bezier curve with the given control
point. -/
theorem C77_quadratic (x1 y1 x y : ℝ) (tr : Transform) (first : Bool) (s : PathState) :
    Traces (buildPath 'Q' [x1, y1, x, y] tr first s) tr s
      (quadratic s.pos ⟨x1, y1⟩ ⟨x, y⟩) ⟨x, y⟩ := by
  refine ⟨.curveTo (tr * (⟨x, y⟩ : Vec)) ((tr * (⟨x1, y1⟩ : Vec) - tr * s.pos) * (2 / 3 : ℝ))
      ((tr * (⟨x1, y1⟩ : Vec) - tr * (⟨x, y⟩ : Vec)) * (2 / 3 : ℝ)),
    some (((⟨x1, y1⟩ : Vec) - ⟨x, y⟩) * (2 / 3 : ℝ) + ⟨x, y⟩), ?_, by simp, fun u => ?_⟩
  · rw [build_single rfl (by simp [IsArc]) rfl]
    simp only [after, quadLoop, offset, Bool.false_eq_true, if_false, add_zero_vec, PathState.push]
  · ext <;> simp [pointAt, quadratic, line] <;> ring

/-- The top of a quadratic arch. -/
example : quadratic ⟨0, 0⟩ ⟨2, 4⟩ ⟨4, 0⟩ (1 / 2) = ⟨2, 2⟩ := by
  ext <;> norm_num [quadratic, line]

end StepperPaths.Props
