import Verif.Proof.RoundedArcDoc
import Verif.Props.RoundedArcs

/-! # C103: documents with arcs of circles, with rounding -/

namespace StepperPaths.Props
open Coords Context Spec Draw Program StepperPaths.Svg Spec.Svg Rounded

/-- C103: the computed lines, curves and arcs of a document, in which circles are scaled evenly, are as many as it has, in the same
order, and nowhere farther from them than the bound `δ` that follows from the sizes of the numbers in the document and the arcs. -/
theorem C103_document (fl : ℝ → ℝ) (hf : FloatRounding fl) (lib : Lib) (hl : FloatLib lib) (hl' : FloatAngles lib) (keep : Filter)
    (f : Forest) (he : f.Even fl lib keep) (l : List Drawing) (hn : l ≠ []) (hv : ∀ d ∈ l, d.Valid)
    (hp : f.paths keep .identity = some (l.map fun d => (d.tr, d.text)))
    (z : List Size) (hz : f.sizes keep ⟨.identity, 0⟩ = some z) (h q : ℕ) (B : ℝ) (δ : Axis → ℝ)
    (hr : List.Forall₂ (fun d s => Readable δ d s ∨ ArcsReadable h q B δ d s) l z) :
    ∃ p0 rest, parseDocumentF fl lib keep .identity f.events = some (.ok (.goTo p0 :: rest)) ∧
      List.Forall₂ (CloseLines δ) (linesOf p0 rest) (picture l) := by
  have nested : ∀ s ∈ z, s.count ≤ 30 := by
    clear hz hp hv hn
    induction hr with
    | nil => simp
    | cons h _ ih =>
      intro s hs
      rcases List.mem_cons.1 hs with rfl | hs
      · exact h.elim (fun h => h.nested) fun h => h.nested
      · exact ih s hs
  obtain ⟨p', h1, h2⟩ := Acc.paths_near (t' := .identity) (t := .identity) hf hl keep f (s := ⟨.identity, 0⟩) (fun _ => Acc.TApp.identity _ _) hp hz nested
  have h3 := Acc.paths_even hf keep f he ⟨rfl, rfl, rfl⟩ h1
  obtain ⟨s', a', h4, h5, h6, h7⟩ := Acc.pictures_near (lib := lib) hf (Even := EvenScale) (fun hd hg he hn => hg.elim
    (fun hg => ⟨0, _, Acc.Readable.ok hg _⟩) fun hg => ⟨_, _, Acc.arcs_ok hf hl' hd hg he hn⟩) l h2 h3 hv hr .new
  obtain ⟨p0, rest, rfl⟩ := h7 hn
  refine ⟨p0, rest, ?_, h6 p0⟩
  rw [Acc.parseDocumentF_ok keep f _ s' p' h1 h4, h5]
  rfl

/-! ### Example -/

theorem two_valid (a b : Fin 10) : (two a b).Valid := ⟨by simp [two], by simp [two]⟩

theorem two_value (a b : Fin 10) : (two a b).value = 10 * a.val + b.val := by
  simp [two, Num.value, Sign.val, Digits.val, Nat.ofDigits]
  ring

/-- `M10,05A05,05,0,0,1,05,10L00,10`: a quarter of a circle around (5, 5) and a line. -/
def roundCmds : List Cmd :=
  [⟨[], 'M', .some [] (two 1 0) (.cons [','] (two 0 5) .nil)⟩,
   ⟨[], 'A', .some [] (two 0 5) (.cons [','] (two 0 5) (.cons [','] (int 0) (.cons [','] (int 0)
      (.cons [','] (int 1) (.cons [','] (two 0 5) (.cons [','] (two 1 0) .nil))))))⟩,
   ⟨[], 'L', .some [] (two 0 0) (.cons [','] (two 1 0) .nil)⟩]

noncomputable def roundDrawing : Drawing :=
  ⟨Transform.identity * (⟨20 / 10, 0, 0, 20 / 10, 0, 0⟩ : Transform), roundCmds, [],
    [fun u => ⟨10 + 5 * (Real.cos (0 + (Real.pi / 2 - 0) * u) - Real.cos 0), 5 + 5 * (Real.sin (0 + (Real.pi / 2 - 0) * u) - Real.sin 0)⟩,
     Svg.line ⟨5, 10⟩ ⟨0, 10⟩]⟩

/-- A document of 20 mm × 20 mm with a view box of 10 × 10. -/
def roundDoc : Forest := boxOf "20mm".toList "20mm".toList "0 0 10 10".toList "M10,05A05,05,0,0,1,05,10L00,10".toList

theorem round_tr : roundDrawing.tr = ⟨2, 0, 0, 2, 0, 0⟩ := by
  simp [roundDrawing, Transform.identity]
  norm_num

theorem round_values : roundDrawing.values = [('M', [10, 5]), ('A', [5, 5, 0, 0, 1, 5, 10]), ('L', [0, 10])] := by
  simp [Drawing.values, roundDrawing, roundCmds, Args.values, NumList.values, two, int, Num.value, Sign.val, Digits.val]
  norm_num [Nat.ofDigits]

theorem round_arc : CircleArc 5 ⟨10, 5⟩ ⟨5, 10⟩ ((0 : ℝ) ≠ 0) ((1 : ℝ) ≠ 0) (fun u => ⟨10 + 5 * (Real.cos (0 + (Real.pi / 2 - 0) * u) - Real.cos 0),
    5 + 5 * (Real.sin (0 + (Real.pi / 2 - 0) * u) - Real.sin 0)⟩) := by
  have := Real.pi_pos
  refine ⟨by norm_num, by simp, 0, Real.pi / 2, fun _ => rfl, ?_, by simp; positivity, ?_, by simp, fun _ => ?_⟩
  · simp; norm_num
  · rw [sub_zero, abs_of_pos (by positivity)]; linarith
  · rw [sub_zero, abs_of_pos (by positivity)]; linarith

theorem round_valid : roundDrawing.Valid := by
  have v2 : ∀ a b, (two a b).Valid := fun a b => ⟨by simp [two], by simp [two]⟩
  have hs : Separator [','] := .inr ⟨[], [], by simp [Blank], by simp [Blank], rfl⟩
  refine ⟨?_, by simp [roundDrawing, White], ⟨roundCmds[0], rfl, .inr rfl⟩, ?_, ?_⟩
  · intro c hc
    simp only [roundDrawing, roundCmds, List.mem_cons, List.not_mem_nil, or_false] at hc
    rcases hc with rfl | rfl | rfl
    · exact ⟨by simp [White], by decide, by simp [Blank], v2 _ _, hs, v2 _ _, trivial⟩
    · exact ⟨by simp [White], by decide, by simp [Blank], v2 _ _, hs, v2 _ _, hs, int_valid _, hs, int_valid _, hs, int_valid _, hs, v2 _ _, hs, v2 _ _, trivial⟩
    · exact ⟨by simp [White], by decide, by simp [Blank], v2 _ _, hs, v2 _ _, trivial⟩
  · rw [round_values]
    exact .move (.arc round_arc (.line (.nil _ _ _)))
  · intro _
    exact ⟨2, 0, by norm_num, by rw [round_tr]; simp, by rw [round_tr]; simp, by rw [round_tr]; simp, by rw [round_tr]; simp⟩

theorem round_text : roundDrawing.text = "M10,05A05,05,0,0,1,05,10L00,10".toList := by
  show pathText roundCmds ++ [] = _
  decide

theorem round_lengths : parseLength "20mm".toList = some 20 ∧ parseViewBox "0 0 10 10".toList = some (0, 0, 10, 10) := by
  refine ⟨?_, ?_⟩
  · have := C80_length [] [] (by simp [Blank]) (by simp [Blank]) (two 2 0) (two_valid 2 0) "mm" 1
      (by simp [units]) []
    rw [two_value] at this
    rw [show "20mm".toList = [] ++ ((two 2 0).text ++ ([] ++ ("mm".toList ++ []))) by decide, this]
    norm_num
  · have hs : Separator [' '] := .inl ⟨by simp [Blank], by simp⟩
    have := C80_view_box [] (by simp [Blank]) (int 0) (int 0) (two 1 0) (two 1 0) (int_valid _) (int_valid _)
      (two_valid _ _) (two_valid _ _) [' '] [' '] [' '] hs hs hs [] (by simp)
    simp only [int_value, two_value] at this
    rw [show "0 0 10 10".toList = [] ++ ((int 0).text ++ ([' '] ++ ((int 0).text ++ ([' '] ++ ((two 1 0).text ++
      ([' '] ++ ((two 1 0).text ++ []))))))) by decide, this]
    norm_num

theorem round_paths : roundDoc.paths (keepOf none) .identity = some ([roundDrawing].map fun d => (d.tr, d.text)) := by
  obtain ⟨h1, h2⟩ := round_lengths
  rw [roundDoc, boxOf_paths _ _ _ _ _ _ _ _ _ _ h1 h1 h2, List.map_singleton, round_text]
  norm_num [roundDrawing]

theorem round_sizes : roundDoc.sizes (keepOf none) ⟨.identity, 0⟩ =
    some [⟨Transform.identity * (⟨2, 0, 0, 2, 0, 0⟩ : Transform), 1⟩] := by
  obtain ⟨h1, h2⟩ := round_lengths
  have : ratio 20 10 = some 2 := by
    unfold ratio
    rw [if_pos ⟨by norm_num, by norm_num⟩]
    norm_num
  exact boxOf_sizes _ _ _ _ _ _ _ _ _ _ _ _ h1 h1 h2 this this

theorem boxOf_even (fl : ℝ → ℝ) (lib : Lib) (w v d : List Char) (x y u : ℚ) (h3 : parseViewBox v = some (x, y, u, u)) :
    (boxOf w w v d).Even fl lib (keepOf none) := by
  refine ⟨fun _ => ⟨fun _ => ⟨?_, fun _ boxes hb w' hw h' hh => ?_⟩, ⟨fun _ => ⟨fun _ => ⟨?_, ?_⟩, trivial⟩, trivial⟩⟩, trivial⟩
  · intro text ht
    simp [texts] at ht
  · simp [texts] at hw hh hb
    rw [hw] at hh
    rw [h3] at hb
    simp only [Option.bind_some, Option.some.injEq] at hb
    subst hb
    simp at hh
    simp [hh]
  · intro text ht
    simp [texts] at ht
  · intro h
    exact absurd h (by decide)

theorem round_even (fl : ℝ → ℝ) (lib : Lib) : roundDoc.Even fl lib (keepOf none) :=
  boxOf_even _ _ _ _ _ _ _ _ round_lengths.2

theorem round_extent : extent roundCmds = 51 ∧ numbers roundCmds = 11 := by
  constructor
  · simp [extent, roundCmds, Args.values, NumList.values, two, int, Num.value, Sign.val, Digits.val, mag]
    norm_num [Nat.ofDigits]
  · rfl

/-- The exact arc. -/
theorem round_exact : ∃ a1 a2, parsePath roundDrawing.text roundDrawing.tr .new = some (.done (.ok ())
    ⟨⟨0, 10⟩, ⟨10, 5⟩, none, [.goTo ⟨20, 10⟩, .arc (2 * 5) (2 * 5) a1 a2 0, .lineTo ⟨0, 20⟩]⟩) ∧ arcChord (2 * 5) a1 a2 = √200 := by
  have hp := C52_path roundCmds round_valid.cmds [] (by simp [White]) roundDrawing.tr .new
  have hv := round_values
  unfold Drawing.values at hv
  rw [show roundDrawing.cmds = roundCmds from rfl] at hv
  rw [hv] at hp
  have hs : Similar (⟨2, 0, 0, 2, 0, 0⟩ : Transform) 2 := ⟨by norm_num, by norm_num, by norm_num⟩
  obtain ⟨a1, a2, e1, e2, -⟩ := (C79_circle 5 0 1 5 10 (by norm_num) ⟨2, 0, 0, 2, 0, 0⟩ 2 (by norm_num) hs false
    ⟨⟨10, 5⟩, ⟨10, 5⟩, none, [.goTo ⟨20, 10⟩]⟩ (by simp)).2 (by
      show √((5 - 10) * (5 - 10) + (10 - 5) * (10 - 5)) ≤ 2 * 5
      rw [Real.sqrt_le_left (by norm_num)]
      norm_num)
  have hb : buildAll ⟨2, 0, 0, 2, 0, 0⟩ true [('M', [10, 5]), ('A', [5, 5, 0, 0, 1, 5, 10]), ('L', [0, 10])] .new =
      some (.ok (), ⟨⟨0, 10⟩, ⟨10, 5⟩, none, [.goTo ⟨20, 10⟩, .arc (2 * 5) (2 * 5) a1 a2 0, .lineTo ⟨0, 20⟩]⟩) := by
    have m : buildPath 'M' [10, 5] ⟨2, 0, 0, 2, 0, 0⟩ true .new = some (.ok (), ⟨⟨10, 5⟩, ⟨10, 5⟩, none, [.goTo ⟨20, 10⟩]⟩) := by
      simp [buildPath, checkArgs, moveCmd, moveFirst, lineLoop, target, PathState.push, PathState.new, PathState.noControl]
      norm_num
    simp only [buildAll, m, e1]
    simp [buildPath, checkArgs, lineLoop, target, PathState.push, PathState.noControl]
    norm_num
  refine ⟨a1, a2, ?_, ?_⟩
  · rw [round_tr, hb] at hp
    rw [round_tr]
    exact hp
  · have cx := congrArg Vec.x e2
    have cy := congrArg Vec.y e2
    simp [pointAt] at cx cy
    unfold arcChord
    congr 1
    have x1 : 2 * 5 * Real.cos a2 - 2 * 5 * Real.cos a1 = -10 := by linarith
    have y1 : 2 * 5 * Real.sin a2 - 2 * 5 * Real.sin a1 = 10 := by linarith
    rw [x1, y1]
    norm_num

theorem round_readable : ArcsReadable 2 20 10 (fun _ => 1 / 5000) roundDrawing ⟨Transform.identity * (⟨2, 0, 0, 2, 0, 0⟩ : Transform), 1⟩ := by
  have hu : Size.units ⟨Transform.identity * (⟨2, 0, 0, 2, 0, 0⟩ : Transform), 1⟩ roundDrawing.cmds 20 = 660 := by
    unfold Size.units
    rw [show roundDrawing.cmds = roundCmds from rfl, round_extent.2]
    norm_num
  refine ⟨?_, ⟨by simp [Transform.identity], by simp [Transform.identity], by simp [Transform.identity]⟩, by rw [round_tr]; simp [Transform.identity],
    by rw [round_tr]; norm_num, by rw [round_tr]; norm_num, by norm_num, by rw [hu]; norm_num, by norm_num, fun s1 hs1 => ?_⟩
  · intro c hc ha
    simp only [roundDrawing, roundCmds, List.mem_cons, List.not_mem_nil, or_false] at hc
    rcases hc with rfl | rfl | rfl
    · exact absurd ha (by decide)
    · simp [CircleArgs, Args.values, NumList.values, two, int, Num.value, Sign.val, Digits.val, Nat.ofDigits]
      norm_num
    · exact absurd ha (by decide)
  · obtain ⟨a1, a2, e1, e2⟩ := round_exact
    rw [hs1] at e1
    cases e1
    refine ⟨fun R R2 b1 b2 rot hm => ?_, fun i => ?_⟩
    · obtain ⟨rfl, rfl, rfl, rfl, rfl⟩ : R = 2 * 5 ∧ R2 = 2 * 5 ∧ b1 = a1 ∧ b2 = a2 ∧ rot = 0 := by simpa using hm
      have sq : √(200 : ℝ) ^ 2 = 200 := Real.sq_sqrt (by norm_num)
      have s0 : 0 ≤ √(200 : ℝ) := Real.sqrt_nonneg _
      have s1 : 14 ≤ √(200 : ℝ) := Real.le_sqrt_of_sq_le (by norm_num)
      refine ⟨by norm_num, ?_, fun i => ?_, ?_⟩
      · rw [e2]; norm_num; linarith
      · rw [e2]
        unfold Size.reach
        rw [show roundDrawing.cmds = roundCmds from rfl, round_extent.1]
        cases i <;> norm_num [Transform.identity] <;> linarith
      · rw [e2, sq]; norm_num
    · rw [hu]
      unfold Size.error Size.reach
      rw [show roundDrawing.cmds = roundCmds from rfl, round_extent.2, round_extent.1]
      cases i <;> norm_num [Transform.identity]

/-- The computed arc of this document is less than 1/5000 mm off, in `f64` arithmetic. -/
example (lib : Lib) (hl : FloatLib lib) (hl' : FloatAngles lib) : ∃ p0 γ₁ γ₂ rest,
    parseDocumentF double lib (keepOf none) .identity roundDoc.events = some (.ok (.goTo p0 :: rest)) ∧ linesOf p0 rest = [γ₁, γ₂] ∧
    |(γ₁ (1 / 2)).x - (10 + 5 * √2)| ≤ 1 / 5000 ∧ |(γ₁ (1 / 2)).y - (10 + 5 * √2)| ≤ 1 / 5000 ∧
    |(γ₂ 1).x - 0| ≤ 1 / 5000 ∧ |(γ₂ 1).y - 20| ≤ 1 / 5000 := by
  obtain ⟨p0, rest, h1, h2⟩ := C103_document double C90_double lib hl hl' (keepOf none) roundDoc (round_even _ _) [roundDrawing] (by simp)
    (by simpa using round_valid) round_paths _ round_sizes 2 20 10 _ (.cons (.inr round_readable) .nil)
  rcases hq : linesOf p0 rest with _ | ⟨γ₁, _ | ⟨γ₂, _ | ⟨γ₃, r⟩⟩⟩
  · rw [hq] at h2; simp [picture, roundDrawing, moved] at h2
  · rw [hq] at h2; simp [picture, roundDrawing, moved] at h2
  · rw [hq] at h2
    simp only [picture, moved, List.flatMap_cons, List.flatMap_nil, List.append_nil, roundDrawing, List.map_cons, List.map_nil,
      List.forall₂_cons] at h2
    obtain ⟨g1, g2, -⟩ := h2
    have c4 : Real.cos (Real.pi / 2 * (1 / 2)) = √2 / 2 := by rw [← Real.cos_pi_div_four]; congr 1; ring
    rw [one_div] at c4
    have s4 : Real.sin (Real.pi / 2 * (1 / 2)) = √2 / 2 := by rw [← Real.sin_pi_div_four]; congr 1; ring
    rw [one_div] at s4
    refine ⟨p0, γ₁, γ₂, rest, h1, hq, ?_, ?_, ?_, ?_⟩
    · have := g1 (1 / 2) (by norm_num) (by norm_num) .x
      simp [coord, Transform.identity, c4] at this ⊢
      convert this using 2
      ring
    · have := g1 (1 / 2) (by norm_num) (by norm_num) .y
      simp [coord, Transform.identity, s4] at this ⊢
      convert this using 2
      ring
    · have := g2 1 (by norm_num) (by norm_num) .x
      norm_num [coord, Svg.line, Transform.identity] at this ⊢
      exact this
    · have := g2 1 (by norm_num) (by norm_num) .y
      norm_num [coord, Svg.line, Transform.identity] at this ⊢
      exact this
  · rw [hq] at h2; simp [picture, roundDrawing, moved] at h2

end StepperPaths.Props
