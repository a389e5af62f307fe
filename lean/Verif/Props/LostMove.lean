import Verif.Props.Picture

/-! # C96: moves that are lost -/

namespace StepperPaths.Props
open Coords Curves Context IntegerCurve Spec Draw Program Config Control StepperPaths.Svg Spec.Svg Rounded

/-- Two pens that differ at most in the moves that were recorded as left out. -/
def SamePen (s s' : Pen) : Prop := ∃ l, s' = { s with skipped := l }

theorem flush_same {e : Draw.Env} {v : ℝ} {s s' : Pen} (h : SamePen s s') :
    (s.flush e v = none ∧ s'.flush e v = none) ∨ ∃ t t', s.flush e v = some t ∧ s'.flush e v = some t' ∧ SamePen t t' := by
  obtain ⟨l, rfl⟩ := h
  unfold Pen.flush
  rcases hd : Draw.drawCurve e s.ctx s.start s.curves v with _ | ⟨c, err⟩
  · exact .inl (by simp)
  · exact .inr ⟨_, _, rfl, rfl, l, rfl⟩

theorem step_same {e : Draw.Env} {v : ℝ} {s s' : Pen} (seg : Seg) (h : SamePen s s') :
    (s.step e v seg = none ∧ s'.step e v seg = none) ∨
      ∃ t t', s.step e v seg = some t ∧ s'.step e v seg = some t' ∧ SamePen t t' := by
  have hfl := flush_same (e := e) (v := v) h
  obtain ⟨l, rfl⟩ := h
  have add : ∀ (info : Curve) (next : Vec), (s.add e v info next = none ∧ Pen.add e v { s with skipped := l } info next = none) ∨
      ∃ t t', s.add e v info next = some t ∧ Pen.add e v { s with skipped := l } info next = some t' ∧ SamePen t t' := by
    intro info next
    unfold Pen.add
    by_cases ht : s.turns (info.value 0).2
    · rw [if_pos ht, if_pos (show Pen.turns { s with skipped := l } _ from ht)]
      rcases hfl with ⟨h1, h2⟩ | ⟨t, t', h1, h2, m, rfl⟩
      · exact .inl (by simp [h1, h2])
      · exact .inr ⟨_, _, by rw [h1]; rfl, by rw [h2]; rfl, m, rfl⟩
    · rw [if_neg ht, if_neg (show ¬ Pen.turns { s with skipped := l } _ from ht)]
      exact .inr ⟨_, _, rfl, rfl, l, rfl⟩
  cases seg with
  | goTo p =>
    simp only [Pen.step, Pen.goTo]
    rw [show Pen.atMachine e { s with skipped := l } p = s.atMachine e p from rfl]
    rcases s.atMachine e p with _ | _ | _
    · exact .inl (by simp)
    · rcases hfl with ⟨h1, h2⟩ | ⟨t, t', h1, h2, m, rfl⟩
      · exact .inl (by simp [h1, h2])
      · exact .inr ⟨_, _, by simp only [h1, Option.bind_eq_bind, Option.bind_some]; rfl, by simp only [h2, Option.bind_eq_bind, Option.bind_some]; rfl, m, rfl⟩
    · exact .inr ⟨_, _, rfl, rfl, l ++ [(p, s.current)], rfl⟩
  | lineTo p => exact add _ _
  | closeTo p =>
    simp only [Pen.step]
    by_cases hc : (s.current - p).length < 1 / 1000000
    · rw [if_pos hc, if_pos hc]
      exact .inr ⟨_, _, rfl, rfl, l, rfl⟩
    · rw [if_neg hc, if_neg hc]
      exact add _ _
  | curveTo p a b => exact add _ _
  | arc r r' a b rot =>
    simp only [Pen.step, Env.segInfo]
    by_cases hr : |r - r'| > Draw.epsilon
    · exact .inl (by simp [hr])
    · simp only [hr, if_false, Option.bind_eq_bind, Option.bind_some]
      exact add _ _

theorem run_same {e : Draw.Env} {v : ℝ} (segs : List Seg) {s s' : Pen} (h : SamePen s s') :
    (s.run e v segs = none ∧ s'.run e v segs = none) ∨
      ∃ t t', s.run e v segs = some t ∧ s'.run e v segs = some t' ∧ SamePen t t' := by
  induction segs generalizing s s' with
  | nil => exact .inr ⟨_, _, rfl, rfl, h⟩
  | cons seg segs ih =>
    simp only [Pen.run]
    rcases step_same (e := e) (v := v) seg h with ⟨h1, h2⟩ | ⟨t, t', h1, h2, h3⟩
    · exact .inl (by simp [h1, h2])
    · simp only [h1, h2, Option.bind_eq_bind, Option.bind_some]
      exact ih h3

/-- The pen after a move and a segment: the machine has not moved. -/
theorem not_moved {e : Draw.Env} {c : Ctx} {v : ℝ} {p : Vec} {seg : Seg} (hseg : ∀ q, seg ≠ .goTo q) {s : Pen}
    (h : (Pen.init e c).run e v [.goTo p, seg] = some s) : s.ctx = c := by
  simp only [Pen.run, Option.bind_eq_bind] at h
  obtain ⟨s1, h1, h⟩ := Option.bind_eq_some_iff.1 h
  obtain ⟨s2, h2, h⟩ := Option.bind_eq_some_iff.1 h
  simp only [Option.some.injEq] at h
  subst h
  have i1 : s1.ctx = c ∧ s1.prevDir = none := by
    rw [show (Pen.init e c).step e v (.goTo p) = (Pen.init e c).goTo e v p from rfl] at h1
    rcases Draw.goTo_eq h1 with ⟨-, rfl⟩ | ⟨-, s0, hf, rfl⟩
    · exact ⟨rfl, rfl⟩
    · refine ⟨?_, rfl⟩
      simp [Pen.flush, Pen.init, Draw.drawCurve] at hf
      rw [← hf]
  have add : ∀ (info : Curve) (next : Vec), s1.add e v info next = some s2 → s2.ctx = c := by
    intro info next h
    unfold Pen.add at h
    rw [if_neg (by rintro ⟨d, hd, -⟩; rw [i1.2] at hd; cases hd)] at h
    simp only [Option.bind_eq_bind, Option.bind_some, Option.pure_def, Option.some.injEq] at h
    rw [← h]
    exact i1.1
  cases seg with
  | goTo q => exact absurd rfl (hseg q)
  | lineTo q => exact add _ _ h2
  | closeTo q =>
    simp only [Pen.step] at h2
    split at h2
    · simp only [Option.some.injEq] at h2
      rw [← h2]
      exact i1.1
    · exact add _ _ h2
  | curveTo q a b => exact add _ _ h2
  | arc r r' a b rot =>
    simp only [Pen.step, Env.segInfo] at h2
    by_cases hr : |r - r'| > Draw.epsilon
    · simp [hr] at h2
    · simp only [hr, if_false, Option.bind_eq_bind, Option.bind_some] at h2
      exact add _ _ h2

theorem run_append {e : Draw.Env} {v : ℝ} (a b : List Seg) (s : Pen) :
    s.run e v (a ++ b) = (s.run e v a).bind fun s => s.run e v b := by
  induction a generalizing s with
  | nil => rfl
  | cons seg a ih =>
    simp only [List.cons_append, Pen.run, Option.bind_eq_bind, Option.bind_assoc]
    congr
    funext s
    exact ih s

/-- C96: after a first line, a move to the place where the machine was before this path has no effect:
everything is drawn as if it was not there. -/
theorem C96_lost (e : Draw.Env) (c : Ctx) (v : ℝ) (p q : Vec) (seg : Seg) (hseg : ∀ q, seg ≠ .goTo q) (rest : List Seg)
    (hq : ∀ i, e.toSteps (coord q i) i = some (c.channels i).pos) :
    Draw.drawCurves e c (.goTo p :: seg :: .goTo q :: rest) v = Draw.drawCurves e c (.goTo p :: seg :: rest) v := by
  unfold Draw.drawCurves Draw.drawPen
  simp only [List.isEmpty_cons, Bool.false_eq_true, if_false]
  rw [show (.goTo p :: seg :: .goTo q :: rest : List Seg) = [.goTo p, seg] ++ (.goTo q :: rest) from rfl,
    show (.goTo p :: seg :: rest : List Seg) = [.goTo p, seg] ++ rest from rfl, run_append, run_append]
  rcases hs : (Pen.init e c).run e v [.goTo p, seg] with _ | s
  · rfl
  · have hc := not_moved hseg hs
    have hm : s.atMachine e q = some true := by
      unfold Pen.atMachine
      have hx := hq .x
      have hy := hq .y
      simp only [coord] at hx hy
      simp [hx, hy, hc]
    have hst : s.step e v (.goTo q) = some { s with skipped := s.skipped ++ [(q, s.current)] } := by
      simp [Pen.step, Pen.goTo, hm]
    simp only [Option.bind_some, Pen.run, hst, Option.bind_eq_bind]
    rcases run_same (e := e) (v := v) rest (s := s) ⟨s.skipped ++ [(q, s.current)], rfl⟩ with ⟨h1, h2⟩ | ⟨t, t', h1, h2, h3⟩
    · rw [h1, h2]
    · rw [h1, h2]
      simp only [Option.bind_some]
      rcases flush_same (e := e) (v := v) h3 with ⟨h4, h5⟩ | ⟨u, u', h4, h5, l, rfl⟩
      · rw [h4, h5]
      · rw [h4, h5]
        rfl

/-- C96: the same for the program, where the machine is at the origin at first. -/
theorem C96_program (cfg : Xy) (o : Options) (ho : o.repeats.getD 1 = 1) (e : Draw.Env) (p : Vec) (seg : Seg) (hseg : ∀ q, seg ≠ .goTo q)
    (rest : List Seg) (port : Port) :
    svgMain cfg o e (.goTo p :: seg :: .goTo ⟨0, 0⟩ :: rest) port = svgMain cfg o e (.goTo p :: seg :: rest) port := by
  have round0 : Draw.round 0 = 0 := by simpa using Draw.round_int 0
  unfold svgMain
  simp only [ho]
  split
  · rfl
  · congr 1
    unfold svgEvents
    simp only [Int.toNat_one, drawTimes, Option.bind_eq_bind]
    rw [C96_lost _ _ _ _ _ _ hseg]
    intro i
    cases i <;> simp [Env.toSteps, coord, round0, cassert, Ctx.setWeight, Ctx.new]

/-! ### A wrong picture -/

/-- `M10,0L30,0M0,0L0,40`: a line on each of the two axes. -/
def cornerCmds : List Cmd :=
  [⟨[], 'M', .some [] (two 1 0) (.cons [','] (two 0 0) .nil)⟩,
   ⟨[], 'L', .some [] (two 3 0) (.cons [','] (two 0 0) .nil)⟩,
   ⟨[], 'M', .some [] (two 0 0) (.cons [','] (two 0 0) .nil)⟩,
   ⟨[], 'L', .some [] (two 0 0) (.cons [','] (two 4 0) .nil)⟩]

noncomputable def cornerDrawing : Drawing :=
  ⟨.identity, cornerCmds, [], [Svg.line ⟨10, 0⟩ ⟨30, 0⟩, Svg.line ⟨0, 0⟩ ⟨0, 40⟩]⟩

def cornerDoc : Forest :=
  .elem ⟨"path", some "http://www.w3.org/2000/svg"⟩ [⟨⟨"d", none⟩, "M10,00L30,00M00,00L00,40".toList⟩] .nil .nil

/-- The same without the second move. -/
def joinedCmds : List Cmd :=
  [⟨[], 'M', .some [] (two 1 0) (.cons [','] (two 0 0) .nil)⟩,
   ⟨[], 'L', .some [] (two 3 0) (.cons [','] (two 0 0) .nil)⟩,
   ⟨[], 'L', .some [] (two 0 0) (.cons [','] (two 4 0) .nil)⟩]

noncomputable def joinedDrawing : Drawing :=
  ⟨.identity, joinedCmds, [], [Svg.line ⟨10, 0⟩ ⟨30, 0⟩, Svg.line ⟨30, 0⟩ ⟨0, 40⟩]⟩

def joinedDoc : Forest :=
  .elem ⟨"path", some "http://www.w3.org/2000/svg"⟩ [⟨⟨"d", none⟩, "M10,00L30,00L00,40".toList⟩] .nil .nil

theorem corner_values : cornerDrawing.values = [('M', [10, 0]), ('L', [30, 0]), ('M', [0, 0]), ('L', [0, 40])] := by
  simp [Drawing.values, cornerDrawing, cornerCmds, Args.values, NumList.values, two, Num.value, Sign.val, Digits.val]
  norm_num [Nat.ofDigits]

theorem joined_values : joinedDrawing.values = [('M', [10, 0]), ('L', [30, 0]), ('L', [0, 40])] := by
  simp [Drawing.values, joinedDrawing, joinedCmds, Args.values, NumList.values, two, Num.value, Sign.val, Digits.val]
  norm_num [Nat.ofDigits]

theorem corner_valid : cornerDrawing.Valid := by
  have v2 : ∀ a b, (two a b).Valid := fun a b => ⟨by simp [two], by simp [two]⟩
  have hs : Separator [','] := .inr ⟨[], [], by simp [Blank], by simp [Blank], rfl⟩
  refine ⟨?_, by simp [cornerDrawing, White], ⟨cornerCmds[0], rfl, .inr rfl⟩, ?_, ?_⟩
  · intro c hc
    simp only [cornerDrawing, cornerCmds, List.mem_cons, List.not_mem_nil, or_false] at hc
    rcases hc with rfl | rfl | rfl | rfl <;> exact ⟨by simp [White], by decide, by simp [Blank], v2 _ _, hs, v2 _ _, trivial⟩
  · rw [corner_values]
    exact .move (.line (.move (.line (.nil _ _ _))))
  · rintro ⟨c, hc, hc'⟩
    simp only [cornerDrawing, cornerCmds, List.mem_cons, List.not_mem_nil, or_false] at hc
    exfalso
    rcases hc with rfl | rfl | rfl | rfl <;> revert hc' <;> decide

theorem joined_valid : joinedDrawing.Valid := by
  have v2 : ∀ a b, (two a b).Valid := fun a b => ⟨by simp [two], by simp [two]⟩
  have hs : Separator [','] := .inr ⟨[], [], by simp [Blank], by simp [Blank], rfl⟩
  refine ⟨?_, by simp [joinedDrawing, White], ⟨joinedCmds[0], rfl, .inr rfl⟩, ?_, ?_⟩
  · intro c hc
    simp only [joinedDrawing, joinedCmds, List.mem_cons, List.not_mem_nil, or_false] at hc
    rcases hc with rfl | rfl | rfl <;> exact ⟨by simp [White], by decide, by simp [Blank], v2 _ _, hs, v2 _ _, trivial⟩
  · rw [joined_values]
    exact .move (.line (.line (.nil _ _ _)))
  · rintro ⟨c, hc, hc'⟩
    simp only [joinedDrawing, joinedCmds, List.mem_cons, List.not_mem_nil, or_false] at hc
    exfalso
    rcases hc with rfl | rfl | rfl <;> revert hc' <;> decide

theorem corner_paths : cornerDoc.paths (keepOf none) .identity = some ([cornerDrawing].map fun d => (d.tr, d.text)) := by
  have : cornerDrawing.text = "M10,00L30,00M00,00L00,40".toList := by
    show pathText cornerCmds ++ [] = _
    decide
  simp [cornerDoc, Forest.paths, keepOf, noFilter, inside, texts, this]
  rfl

theorem joined_paths : joinedDoc.paths (keepOf none) .identity = some ([joinedDrawing].map fun d => (d.tr, d.text)) := by
  have : joinedDrawing.text = "M10,00L30,00L00,40".toList := by
    show pathText joinedCmds ++ [] = _
    decide
  simp [joinedDoc, Forest.paths, keepOf, noFilter, inside, texts, this]
  rfl

theorem corner_segments : parseDocument (keepOf none) .identity cornerDoc.events =
    some (.ok [.goTo ⟨10, 0⟩, .lineTo ⟨30, 0⟩, .goTo ⟨0, 0⟩, .lineTo ⟨0, 40⟩]) := by
  rw [C48_paths _ _ _ _ corner_paths]
  have h := C52_path cornerCmds corner_valid.cmds [] (by simp [White]) .identity .new
  have hv := corner_values
  unfold Drawing.values cornerDrawing at hv
  simp only at hv
  rw [hv] at h
  have hb : buildAll .identity true [('M', [10, 0]), ('L', [30, 0]), ('M', [0, 0]), ('L', [0, 40])] .new =
      some (.ok (), ⟨⟨0, 40⟩, ⟨0, 0⟩, none, [.goTo ⟨10, 0⟩, .lineTo ⟨30, 0⟩, .goTo ⟨0, 0⟩, .lineTo ⟨0, 40⟩]⟩) := by
    simp [buildAll, buildPath, checkArgs, moveCmd, moveFirst, lineLoop, target, PathState.push,
      PathState.new, PathState.noControl, Transform.identity]
  rw [hb] at h
  simp only [List.map_cons, List.map_nil, drawPaths, Drawing.text, cornerDrawing, h]

theorem joined_segments : parseDocument (keepOf none) .identity joinedDoc.events =
    some (.ok [.goTo ⟨10, 0⟩, .lineTo ⟨30, 0⟩, .lineTo ⟨0, 40⟩]) := by
  rw [C48_paths _ _ _ _ joined_paths]
  have h := C52_path joinedCmds joined_valid.cmds [] (by simp [White]) .identity .new
  have hv := joined_values
  unfold Drawing.values joinedDrawing at hv
  simp only at hv
  rw [hv] at h
  have hb : buildAll .identity true [('M', [10, 0]), ('L', [30, 0]), ('L', [0, 40])] .new =
      some (.ok (), ⟨⟨0, 40⟩, ⟨10, 0⟩, none, [.goTo ⟨10, 0⟩, .lineTo ⟨30, 0⟩, .lineTo ⟨0, 40⟩]⟩) := by
    simp [buildAll, buildPath, checkArgs, moveCmd, moveFirst, lineLoop, target, PathState.push,
      PathState.new, PathState.noControl, Transform.identity]
  rw [hb] at h
  simp only [List.map_cons, List.map_nil, drawPaths, Drawing.text, joinedDrawing, h]

/-- C96: a document that means one line on each axis.  The machine is sent events, the same as for the document
without the second move, by which it burns a line that is not there: the laser is on at (15 mm, 20 mm), up to
0.1 mm.  The program ends normally. -/
theorem C96_wrong (e : Draw.Env) (he : e.stepScale = fun _ => 80) (hf : Searches (exactEnv e)) (hT : Tables e) :
    cornerDoc.paths (keepOf none) .identity = some ([cornerDrawing].map fun d => (d.tr, d.text)) ∧ cornerDrawing.Valid ∧
    picture [cornerDrawing] = [Svg.line ⟨10, 0⟩ ⟨30, 0⟩, Svg.line ⟨0, 0⟩ ⟨0, 40⟩] ∧
    (∀ port, svgProgram quickXy ⟨none, none, none, none, some 100⟩ none e cornerDoc.events port =
      svgProgram quickXy ⟨none, none, none, none, some 100⟩ none e joinedDoc.events port) ∧
    ∃ (es : List Event),
      (∃ τ, (∀ w, weightAt w es τ = 254) ∧ ∃ τ', (τ' = τ ∨ τ' = τ + 1) ∧
        |posAt .x es τ' - 1200| ≤ 8 ∧ |posAt .y es τ' - 1600| ≤ 8) ∧
      (∀ port port', svgProgram quickXy ⟨none, none, none, none, some 100⟩ none e cornerDoc.events port = some (some port') →
        ∃ (r0 : List Char) (t0 : ℤ) (rs : List Round), readInt r0 = some t0 ∧
          (accepted rs).map decodeLine = (Spec.absolute (t0 + 128) es).map some ∧
          port'.log = port.log ++ ((['T'], r0) :: rs).flatMap Round.acts) ∧
      ∃ port port', svgProgram quickXy ⟨none, none, none, none, some 100⟩ none e cornerDoc.events port = some (some port') := by
  have same : ∀ port, svgProgram quickXy ⟨none, none, none, none, some 100⟩ none e cornerDoc.events port =
      svgProgram quickXy ⟨none, none, none, none, some 100⟩ none e joinedDoc.events port := by
    intro port
    unfold svgProgram
    simp only [corner_segments, joined_segments]
    rw [C96_program quickXy ⟨none, none, none, none, some 100⟩ rfl e _ _ (by simp)]
  have pic : ∀ a b : Vec, (fun u : ℝ => Transform.identity * Svg.line a b u) = Svg.line a b := by
    intro a b
    funext u
    ext <;> simp [Transform.identity]
  refine ⟨corner_paths, corner_valid, ?_, same, ?_⟩
  · simp only [picture, cornerDrawing, List.flatMap_cons, List.flatMap_nil, List.append_nil, moved, List.map_cons, List.map_nil, pic]
  have hv : (20 : ℝ) / ((800 : ℕ) : ℝ) = 1 / 40 := by norm_num
  have he' : ∀ i, (exactEnv e).stepScale i = 80 := fun i => by rw [exactEnv, he]
  have hpt : ∀ x y : ℝ, |x| ≤ 100 → |y| ≤ 100 → Bounded 100 ⟨x, y⟩ := by
    intro x y hx hy i
    cases i
    · exact hx
    · exact hy
  have l1 : ((⟨30, 0⟩ : Vec) - ⟨10, 0⟩).length = 20 := by
    show √((30 - 10) * (30 - 10) + (0 - 0) * (0 - 0)) = 20
    rw [show ((30 : ℝ) - 10) * (30 - 10) + (0 - 0) * (0 - 0) = 20 ^ 2 by norm_num]
    exact Real.sqrt_sq (by norm_num)
  have l2 : ((⟨0, 40⟩ : Vec) - ⟨30, 0⟩).length = 50 := by
    show √((0 - 30) * (0 - 30) + (40 - 0) * (40 - 0)) = 50
    rw [show ((0 : ℝ) - 30) * (0 - 30) + (40 - 0) * (40 - 0) = 50 ^ 2 by norm_num]
    exact Real.sqrt_sq (by norm_num)
  obtain ⟨ha, hb'⟩ := quick_limits
  have L : CurveLimits (exactEnv e) (fun _ => 10) (fun _ => 100) (1 / 40) 1 100 (1 / 10 ^ 11) (1 / 10 ^ 6) (1 / 15) 3 8 := by
    refine ⟨by norm_num, by norm_num, by norm_num, by norm_num, by norm_num, by norm_num, by norm_num, by norm_num, by norm_num,
      ?_, ?_, ?_, ?_, by norm_num, by norm_num, by norm_num, ?_, ?_, ?_⟩ <;>
      (intro i; rw [he']; norm_num)
  have fits : Fits (fun _ => 80) 100 ((8 : ℕ) * (1 / 40)) (1 / 10 ^ 11) (1 / 10 ^ 6) (1 / 15) (1 / 40 / 100) (fun _ => 5) ⟨10, 0⟩
        [.lineTo ⟨30, 0⟩, .lineTo ⟨0, 40⟩] (fun _ => 0) := by
    have rx : Draw.round (coord (⟨10, 0⟩ : Vec) .x * 80) = 800 := by
      rw [show coord (⟨10, 0⟩ : Vec) .x * 80 = ((800 : ℤ) : ℝ) by norm_num [coord]]
      exact Draw.round_int 800
    have far : ¬ ∀ i : Axis, Draw.round (coord (⟨10, 0⟩ : Vec) i * (fun _ => (80 : ℝ)) i) = (fun _ => (0 : ℤ)) i := by
      intro h
      have := h .x
      simp only [rx] at this
      omega
    refine ⟨hpt _ _ (by simp) (by simp), ⟨hpt _ _ (by norm_num) (by norm_num), ?_, ?_⟩, trivial, fun h => absurd h far⟩
    · simp only [ExactPath, l1, l2]
      exact ⟨hpt _ _ (by norm_num) (by norm_num), by norm_num, by norm_num,
        hpt _ _ (by norm_num) (by norm_num), by norm_num, by norm_num, trivial⟩
    · rintro (h | ⟨q, hq, -⟩)
      · exact absurd h far
      · simp at hq
  obtain ⟨es, t, T, h1, h2, h3, h4, -, h5, h7, h6⟩ := C95_program quickXy ⟨none, none, none, none, some 100⟩ none e (by rw [he]; rfl)
    (by rw [ha, hb']; exact ⟨by norm_num, by norm_num, by norm_num, by norm_num, by norm_num⟩) hf hT
    1 100 (1 / 10 ^ 11) (1 / 10 ^ 6) (1 / 15) 3 8 (by
      rw [ha, hb']
      simp only [Option.getD_none]
      rw [show (20 : ℝ) / (quickXy.ticksPerSecond : ℝ) = 1 / 40 from hv]
      exact L) (fun i => by rw [he]; norm_num) (fun _ => 5) (fun i => by rw [he]; norm_num) 1 rfl (by norm_num) (by simp)
    joinedDoc [joinedDrawing] (by simp) (by simpa using joined_valid) joined_paths (by
      intro p0 rest h
      rw [joined_segments] at h
      cases h
      refine ⟨by simp, fun P hP => ?_⟩
      simp only [Option.getD_none]
      rw [show (20 : ℝ) / (quickXy.ticksPerSecond : ℝ) = 1 / 40 from hv, he]
      rcases hP with hP | ⟨hP, -⟩
      · rw [show P = fun _ => 0 from funext hP]
        exact fits
      · omega)
  have hw : weightOf (Option.getD (some 100) 5) = 254 := by decide
  simp only [hw, Option.getD_none, he] at h3
  rw [show (20 : ℝ) / (quickXy.ticksPerSecond : ℝ) = 1 / 40 from hv] at h3
  have mem0 : Svg.line ⟨30, 0⟩ ⟨0, 40⟩ ∈ picture [joinedDrawing] := by
    simp only [picture, joinedDrawing, List.flatMap_cons, List.flatMap_nil, List.append_nil, moved, List.map_cons, List.map_nil, pic]
    exact List.mem_cons_of_mem _ List.mem_cons_self
  refine ⟨es, ?_, fun port port' h => h7 port port' (by rw [← same]; exact h), ?_⟩
  · obtain ⟨τ, a1, a2, a3, τ', a4, a5⟩ := (h3 0 (by norm_num)).all _ mem0 (fun ht => by
      have := ht 0 1 le_rfl zero_le_one zero_le_one le_rfl .x
      norm_num [coord, Svg.line] at this) (1 / 2) (by norm_num) (by norm_num)
    refine ⟨τ, a3, τ', a4, ?_, ?_⟩
    · have := a5 .x
      have h2 : |((posAt .x es τ' - 1200 : ℤ) : ℝ)| < 9 := by
        push_cast
        refine lt_of_le_of_lt (le_of_eq ?_) (lt_of_le_of_lt this ?_)
        · congr 2; norm_num [coord, Svg.line]
        · norm_num
      have : |posAt .x es τ' - 1200| < 9 := by exact_mod_cast h2
      omega
    · have := a5 .y
      have h2 : |((posAt .y es τ' - 1600 : ℤ) : ℝ)| < 9 := by
        push_cast
        refine lt_of_le_of_lt (le_of_eq ?_) (lt_of_le_of_lt this ?_)
        · congr 2; norm_num [coord, Svg.line]
        · norm_num
      have : |posAt .y es τ' - 1600| < 9 := by exact_mod_cast h2
      omega
  · simp only [same]
    refine ⟨quickPort (String.ofList ("17\n".toList ++ (List.replicate es.length 0).flatMap answers)), ?_⟩
    refine h6 _ ['1', '7'] 17 (List.replicate es.length 0) _ (by simp) (by decide) (by decide)
      (by decide) (delivers_quick _ _ 0 ?_) (fun _ => rfl)
    intro i hi
    simp only [quickPort, String.toList_ofList, Nat.zero_add]
    have : "17\n".toList ++ (List.replicate es.length 0).flatMap answers =
        ['1', '7'] ++ '\n' :: (List.replicate es.length 0).flatMap answers := rfl
    rw [this, List.getElem?_eq_getElem hi]

end StepperPaths.Props
