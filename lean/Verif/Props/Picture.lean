import Verif.Proof.PicturePass
import Verif.Props.SvgDoc
import Verif.Model.SvgProgram

/-! # C95: from the SVG document to what is burnt -/

namespace StepperPaths.Props
open Coords Curves Context IntegerCurve Spec Draw Program Config Control StepperPaths.Svg Spec.Svg Rounded

theorem linesOf_append (segs segs' : List Seg) (pos : Vec) : ∃ q, linesOf pos (segs ++ segs') = linesOf pos segs ++ linesOf q segs' := by
  induction segs generalizing pos with
  | nil => exact ⟨pos, rfl⟩
  | cons seg segs ih =>
    cases seg with
    | goTo p => exact ih p
    | lineTo p => obtain ⟨q, h⟩ := ih (segEnd pos (.lineTo p)); exact ⟨q, by simp [linesOf, h]⟩
    | closeTo p => obtain ⟨q, h⟩ := ih (segEnd pos (.closeTo p)); exact ⟨q, by simp [linesOf, h]⟩
    | curveTo p a b => obtain ⟨q, h⟩ := ih (segEnd pos (.curveTo p a b)); exact ⟨q, by simp [linesOf, h]⟩
    | arc r r' a b rot => obtain ⟨q, h⟩ := ih (segEnd pos (.arc r r' a b rot)); exact ⟨q, by simp [linesOf, h]⟩

theorem one_drawing {d : Drawing} (h : d.Valid) : ∃ p0 rest, drawPaths [(d.tr, d.text)] .new = .ok (.goTo p0 :: rest) ∧
    linesOf p0 rest = moved d.tr d.lines := by
  have arcs : (∃ c ∈ d.values, c.1 = 'a' ∨ c.1 = 'A') → Turns d.tr := by
    rintro ⟨c, hc, hc'⟩
    obtain ⟨c0, h0, rfl⟩ := List.mem_map.1 hc
    exact h.arcs ⟨c0, h0, hc'⟩
  obtain ⟨s', segs, g1, g2, g3, g4⟩ := Picture.figure_build h.means d.tr arcs .new rfl rfl
  obtain ⟨p0, rest, rfl⟩ := g4 (by
    obtain ⟨c, hc, hc'⟩ := h.first
    refine ⟨(c.letter, c.args.values.map fun q : ℚ => (q : ℝ)), ?_, hc'⟩
    unfold Drawing.values
    rw [List.head?_map]
    exact Option.mem_map_of_mem _ hc)
  refine ⟨p0, rest, ?_, g3⟩
  have := C52_path d.cmds h.cmds d.trail h.trail d.tr .new
  unfold Drawing.values at g1
  rw [g1] at this
  simp only [drawPaths, Drawing.text, this, g2]
  rfl

/-- C95: a document is parsed to the lines and curves that it means, in order, each transformed. -/
theorem C95_document (keep : Filter) (f : Forest) (l : List Drawing) (hl : l ≠ []) (hv : ∀ d ∈ l, d.Valid)
    (hp : f.paths keep .identity = some (l.map fun d => (d.tr, d.text))) :
    ∃ p0 rest, parseDocument keep .identity f.events = some (.ok (.goTo p0 :: rest)) ∧ linesOf p0 rest = picture l := by
  rw [C48_paths keep _ f _ hp, C81_separate]
  · clear hp
    induction l with
    | nil => exact absurd rfl hl
    | cons d l ih =>
      obtain ⟨p0, rest, h1, h2⟩ := one_drawing (hv d List.mem_cons_self)
      by_cases hn : l = []
      · subst hn
        exact ⟨p0, rest, by simp [h1, DocResult.append], by simp [picture, h2]⟩
      · obtain ⟨p1, rest1, h3, h4⟩ := ih hn fun d hd => hv d (List.mem_cons_of_mem _ hd)
        refine ⟨p0, rest ++ .goTo p1 :: rest1, ?_, ?_⟩
        · simp only [List.map_cons, List.foldr_cons, h1]
          rw [Option.some.inj h3]
          rfl
        · obtain ⟨q, hq⟩ := linesOf_append rest (.goTo p1 :: rest1) p0
          rw [hq, h2]
          simp only [picture, List.flatMap_cons]
          rw [show linesOf q (.goTo p1 :: rest1) = linesOf p1 rest1 from rfl, h4]
          rfl
  · intro p hp
    obtain ⟨d, hd, rfl⟩ := List.mem_map.1 hp
    obtain ⟨c, hc, hc'⟩ := (hv d hd).first
    rcases hcs : d.cmds with _ | ⟨c0, cs⟩
    · rw [hcs] at hc
      simp at hc
    · rw [hcs] at hc
      simp only [List.head?_cons, Option.mem_some_iff] at hc
      subst hc
      refine ⟨c0.lead, c0.letter, c0.args.text ++ pathText cs ++ d.trail, ((hv d hd).cmds c0 (by rw [hcs]; exact List.mem_cons_self)).lead,
        hc', ?_⟩
      simp [Drawing.text, hcs, pathText, Cmd.text]

/-- C95: the events of the program burn the picture `n` times and bring the machine home. -/
theorem C95_events (aMax vMax : Axis → ℤ) (hM : Machine aMax vMax) (e : Draw.Env) (hf : Searches (exactEnv e)) (hT : Tables e)
    (v S M D ε κ : ℝ) (N m : ℕ) (L : CurveLimits (exactEnv e) aMax vMax v S M D ε κ N m)
    (hr : ∀ i, M * e.stepScale i ≤ 2 ^ 26)
    (ρ : Axis → ℝ) (hρ : ∀ i, 387 / 100 * S + 1 / 2 + 3 * (N * (1 / 1000000 + 1 / 10 ^ 12) * e.stepScale i) ≤ ρ i)
    (p0 : Vec) (rest : List Seg) (hN : rest.length < N) (w : ℤ) (hw : w ≠ 0) (n : ℕ)
    (hF : Fits e.stepScale M (m * v) D ε κ (v / 100) ρ p0 rest (fun _ => 0))
    (hF' : 2 ≤ n → ∀ P, AtEnd e.stepScale ρ p0 rest P → Fits e.stepScale M (m * v) D ε κ (v / 100) ρ p0 rest P) :
    ∃ (c' : Ctx) (t : ℕ → ℕ) (T : ℕ), svgEvents e aMax vMax w (.goTo p0 :: rest) v n = some c' ∧
      c'.ticks = some T ∧ t 0 = 0 ∧ t n < T ∧
      (∀ k < n, Burnt e.stepScale w aMax vMax c'.events (t k) (t (k + 1)) (linesOf p0 rest)
        (fun i => 1 + e.stepScale i / 1000000)
        (fun i => 386 / 100 * S + 1 / 2 + (N * (1 / 1000000 + 1 / 10 ^ 12) + N * D) * e.stepScale i)
        (fun i => 386 / 100 * S + 1 / 2 + (N * (1 / 1000000 + 1 / 10 ^ 12) + N * D + 13 / 10 * v) * e.stepScale i)) ∧
      (∀ w0 τ, t n ≤ τ → weightAt w0 c'.events τ = 0) ∧
      (∀ i τ, t n ≤ τ → |accAt i c'.events τ| ≤ aMax i ∧ |velAt i c'.events (τ + 1)| ≤ vMax i) ∧
      ∀ i τ, T ≤ τ → velAt i c'.events τ = 0 ∧ posAt i c'.events τ = 0 := by
  have hs : ∀ i, 0 < e.stepScale i := fun i => lt_of_lt_of_le (by norm_num) (L.scale i)
  have hM0 : 0 ≤ M := (abs_nonneg _).trans (hF.bounded .x)
  have hp0 : ∀ i, |(((((Ctx.new aMax vMax).setWeight w).channels i).pos : ℤ) : ℝ)| ≤ 2 * M * e.stepScale i + 4 * S + 2 := by
    intro i
    have := hs i
    have := L.one
    simp only [Ctx.setWeight, Ctx.new, Int.cast_zero, abs_zero]
    positivity
  obtain ⟨c1, t, g1, g2, -, g4, g5, g6, g7, g8, g9⟩ := Picture.passes_burnt hM hf hT L hr hρ hN n
    (c := (Ctx.new aMax vMax).setWeight w) (.step (op := .setWeight w) .new trivial rfl)
    (fun i => by simpa [Ctx.setWeight, Ctx.new] using (zero_le_one.trans (hM.v1 i))) hp0 hw (fun _ => hF) hF'
  obtain ⟨c2, c', T, e1, e2, e3, e4, k1, k2, k3, k4, k5, k6⟩ := Picture.home hM g2 g4 (by
    intro i
    have h1 := g5 i
    have h2 : (3 : ℝ) * M * e.stepScale i + 5 * S + 5 ≤ vMax i * 65535 := L.reach i
    have h3 := mul_nonneg hM0 (hs i).le
    have h4 := L.one
    have : |((c1.channels i).pos : ℝ)| ≤ ((vMax i * 65535 : ℤ) : ℝ) := by
      push_cast
      linarith
    exact_mod_cast this)
  refine ⟨c', t, T, ?_, e4, by rw [g6]; rfl, by rw [g7]; exact k1, fun k hk => ?_, by rw [g7]; exact k4, by rw [g7]; exact k5, k6⟩
  · unfold svgEvents
    simp only [g1, e1, e2, e3, Option.bind_eq_bind, Option.bind_some]
  · have := g8 k hk
    rw [g7] at this
    exact Picture.burnt_later (g9 k hk) this k2 k3

/-- C95: the program `svg_path`.  For a document whose paths mean some lines and curves, and a machine that
can follow these, there are events such that a controller that plays them burns these lines and
curves `n` times and then returns to the origin with the laser off; when the program ends normally the
controller has accepted exactly these events; and it ends normally if the controller reports its time
and accepts every event, after any number of queue-full replies. -/
theorem C95_program (cfg : Xy) (o : Options) (layer : Option (List Char)) (e : Draw.Env)
    (he : e.stepScale = fun i => (cfg.stepper i).stepsPerMillimeter)
    (hM : Machine (svgALimit cfg o.aMax) (vLimit cfg o.vMax)) (hf : Searches (exactEnv e)) (hT : Tables e)
    (S M D ε κ : ℝ) (N m : ℕ)
    (L : CurveLimits (exactEnv e) (svgALimit cfg o.aMax) (vLimit cfg o.vMax) (o.drawSpeed.getD 20 / cfg.ticksPerSecond) S M D ε κ N m)
    (hr : ∀ i, M * e.stepScale i ≤ 2 ^ 26)
    (ρ : Axis → ℝ) (hρ : ∀ i, 387 / 100 * S + 1 / 2 + 3 * (N * (1 / 1000000 + 1 / 10 ^ 12) * e.stepScale i) ≤ ρ i)
    (n : ℕ) (hn : o.repeats.getD 1 = n) (hn1 : 1 ≤ n) (hi : 1 ≤ o.intensity.getD 5 ∧ o.intensity.getD 5 ≤ 100)
    (f : Forest) (l : List Drawing) (hl : l ≠ []) (hv : ∀ d ∈ l, d.Valid)
    (hp : f.paths (keepOf layer) .identity = some (l.map fun d => (d.tr, d.text)))
    (hfit : ∀ p0 rest, parseDocument (keepOf layer) .identity f.events = some (.ok (.goTo p0 :: rest)) →
      rest.length < N ∧ ∀ P : Axis → ℤ, ((∀ i, P i = 0) ∨ 2 ≤ n ∧ AtEnd e.stepScale ρ p0 rest P) →
        Fits e.stepScale M (m * (o.drawSpeed.getD 20 / cfg.ticksPerSecond)) D ε κ (o.drawSpeed.getD 20 / cfg.ticksPerSecond / 100)
          ρ p0 rest P) :
    ∃ (es : List Event) (t : ℕ → ℕ) (T : ℕ), t 0 = 0 ∧ t n < T ∧
      (∀ k < n, Burnt e.stepScale (weightOf (o.intensity.getD 5)) (svgALimit cfg o.aMax) (vLimit cfg o.vMax) es (t k) (t (k + 1))
        (picture l) (fun i => 1 + e.stepScale i / 1000000)
        (fun i => 386 / 100 * S + 1 / 2 + (N * (1 / 1000000 + 1 / 10 ^ 12) + N * D) * e.stepScale i)
        (fun i => 386 / 100 * S + 1 / 2 + (N * (1 / 1000000 + 1 / 10 ^ 12) + N * D +
          13 / 10 * (o.drawSpeed.getD 20 / cfg.ticksPerSecond)) * e.stepScale i)) ∧
      (∀ w0 τ, t n ≤ τ → weightAt w0 es τ = 0) ∧
      (∀ i τ, t n ≤ τ → |accAt i es τ| ≤ svgALimit cfg o.aMax i ∧ |velAt i es (τ + 1)| ≤ vLimit cfg o.vMax i) ∧
      (∀ i τ, T ≤ τ → velAt i es τ = 0 ∧ posAt i es τ = 0) ∧
      (∀ port port', svgProgram cfg o layer e f.events port = some (some port') →
        ∃ (r0 : List Char) (t0 : ℤ) (rs : List Round), readInt r0 = some t0 ∧
          (accepted rs).map decodeLine = (Spec.absolute (t0 + 128) es).map some ∧
          port'.log = port.log ++ ((['T'], r0) :: rs).flatMap Round.acts) ∧
      ∀ (port : Port) (r0 : List Char) (t0 : ℤ) (full : List ℕ) (d : ℕ), full.length = es.length → '\n' ∉ r0 →
        readInt r0 = some t0 → i64Min ≤ t0 ∧ t0 ≤ i64Max →
        Delivers port.input port.reads (r0 ++ '\n' :: full.flatMap answers) d → (∀ n, port.writeOk n = true) →
        ∃ port', svgProgram cfg o layer e f.events port = some (some port') := by
  obtain ⟨p0, rest, d1, d2⟩ := C95_document (keepOf layer) f l hl hv hp
  obtain ⟨hN, hF⟩ := hfit p0 rest d1
  have hw : weightOf (o.intensity.getD 5) ≠ 0 := by
    have := (C85_weight (o.intensity.getD 5) (by omega) hi.2).2.2.2.1
    omega
  obtain ⟨c', t, T, h1, h2, h3, h4, h5, h6, h7, h8⟩ := C95_events _ _ hM e hf hT _ S M D ε κ N m L hr ρ hρ p0 rest hN _ hw n
    (hF _ (.inl fun _ => rfl)) (fun h2 P hP => hF P (.inr ⟨h2, hP⟩))
  rw [d2] at h5
  have ee : { e with stepScale := fun i => (cfg.stepper i).stepsPerMillimeter } = e := by
    rw [← he]
  have prog : ∀ port, svgProgram cfg o layer e f.events port = svgMain cfg o e (.goTo p0 :: rest) port := by
    intro port
    unfold svgProgram
    simp only
    rw [if_neg (by omega), d1]
  have nn : (o.repeats.getD 1).toNat = n := by omega
  refine ⟨c'.events, t, T, h3, h4, h5, h6, h7, h8, fun port port' h => ?_, fun port r0 t0 full d a1 a2 a3 a4 a5 a6 => ?_⟩
  · rw [prog] at h
    obtain ⟨c1, r0, t0, rs, q1, q2, q3, q4⟩ := (C85_main cfg o e _ port).2 port' h
    rw [ee, nn, h1] at q1
    cases q1
    exact ⟨r0, t0, rs, q2, q3, q4⟩
  · rw [prog]
    refine C85_returns cfg o e _ port c' ?_ (by omega) (by omega) (by rw [ee, nn]; exact h1) r0 t0 full a1 d a2 a3 a4 a5 a6
    intro h0
    have := L.tiny
    rw [h0] at this
    norm_num at this

/-! ### Example -/

/-- 80 steps per mm, 800 ticks per second. -/
noncomputable def quickXy : Xy := ⟨800, fun _ => ⟨80, 2000, 160000⟩⟩

/-- A number of two digits. -/
def two (a b : Fin 10) : Num := ⟨.none, [a, b], none, none⟩

/-- `M10,0C20,0,30,10,30,30L30,50`: a curve and a line that goes on in the same direction. -/
def bendCmds : List Cmd :=
  [⟨[], 'M', .some [] (two 1 0) (.cons [','] (two 0 0) .nil)⟩,
   ⟨[], 'C', .some [] (two 2 0) (.cons [','] (two 0 0) (.cons [','] (two 3 0) (.cons [','] (two 1 0)
      (.cons [','] (two 3 0) (.cons [','] (two 3 0) .nil)))))⟩,
   ⟨[], 'L', .some [] (two 3 0) (.cons [','] (two 5 0) .nil)⟩]

noncomputable def bendDrawing : Drawing :=
  ⟨.identity, bendCmds, [], [Svg.cubic ⟨10, 0⟩ ⟨20, 0⟩ ⟨30, 10⟩ ⟨30, 30⟩, Svg.line ⟨30, 30⟩ ⟨30, 50⟩]⟩

/-- The document: a group with a path. -/
def bendDoc : Forest :=
  .elem ⟨"g", some "http://www.w3.org/2000/svg"⟩ []
    (.elem ⟨"path", some "http://www.w3.org/2000/svg"⟩ [⟨⟨"d", none⟩, "M10,00C20,00,30,10,30,30L30,50".toList⟩] .nil .nil) .nil

theorem bend_values : bendDrawing.values = [('M', [10, 0]), ('C', [20, 0, 30, 10, 30, 30]), ('L', [30, 50])] := by
  simp [Drawing.values, bendDrawing, bendCmds, Args.values, NumList.values, two, Num.value, Sign.val, Digits.val]
  norm_num [Nat.ofDigits]

theorem bend_valid : bendDrawing.Valid := by
  have v2 : ∀ a b, (two a b).Valid := fun a b => ⟨by simp [two], by simp [two]⟩
  have hs : Separator [','] := .inr ⟨[], [], by simp [Blank], by simp [Blank], rfl⟩
  refine ⟨?_, by simp [bendDrawing, White], ⟨bendCmds[0], rfl, .inr rfl⟩, ?_, ?_⟩
  · intro c hc
    simp only [bendDrawing, bendCmds, List.mem_cons, List.not_mem_nil, or_false] at hc
    rcases hc with rfl | rfl | rfl
    · exact ⟨by simp [White], by decide, by simp [Blank], v2 _ _, hs, v2 _ _, trivial⟩
    · exact ⟨by simp [White], by decide, by simp [Blank], v2 _ _, hs, v2 _ _, hs, v2 _ _, hs, v2 _ _, hs, v2 _ _, hs, v2 _ _, trivial⟩
    · exact ⟨by simp [White], by decide, by simp [Blank], v2 _ _, hs, v2 _ _, trivial⟩
  · rw [bend_values]
    exact .move (.cubic (.line (.nil _ _ _)))
  · rintro ⟨c, hc, hc'⟩
    simp only [bendDrawing, bendCmds, List.mem_cons, List.not_mem_nil, or_false] at hc
    exfalso
    rcases hc with rfl | rfl | rfl <;> revert hc' <;> decide

theorem bend_paths : bendDoc.paths (keepOf none) .identity = some ([bendDrawing].map fun d => (d.tr, d.text)) := by
  have : bendDrawing.text = "M10,00C20,00,30,10,30,30L30,50".toList := by
    show pathText bendCmds ++ [] = _
    decide
  simp [bendDoc, Forest.paths, keepOf, noFilter, inside, texts, this]
  rfl

theorem bend_segments : parseDocument (keepOf none) .identity bendDoc.events =
    some (.ok [.goTo ⟨10, 0⟩, .curveTo ⟨30, 30⟩ ⟨10, 0⟩ ⟨0, -20⟩, .lineTo ⟨30, 50⟩]) := by
  rw [C48_paths _ _ _ _ bend_paths]
  have h := C52_path bendCmds bend_valid.cmds [] (by simp [White]) .identity .new
  have hv := bend_values
  unfold Drawing.values bendDrawing at hv
  simp only at hv
  rw [hv] at h
  have hb : buildAll .identity true [('M', [10, 0]), ('C', [20, 0, 30, 10, 30, 30]), ('L', [30, 50])] .new =
      some (.ok (), ⟨⟨30, 50⟩, ⟨10, 0⟩, none, [.goTo ⟨10, 0⟩, .curveTo ⟨30, 30⟩ ⟨10, 0⟩ ⟨0, -20⟩, .lineTo ⟨30, 50⟩]⟩) := by
    simp [buildAll, buildPath, checkArgs, moveCmd, moveFirst, lineLoop, cubicLoop, target, offset, PathState.push,
      PathState.new, PathState.noControl, Transform.identity]
    norm_num
  rw [hb] at h
  simp only [List.map_cons, List.map_nil, drawPaths, Drawing.text, bendDrawing, h]

/-- The limits of this machine. -/
theorem quick_limits : svgALimit quickXy none = (fun _ => 10) ∧ vLimit quickXy none = fun _ => 100 := by
  constructor
  · funext i
    have : Draw.round |svgAScale quickXy i * (quickXy.stepper i).maxAcceleration| = 10 := by
      rw [show |svgAScale quickXy i * (quickXy.stepper i).maxAcceleration| = ((10 : ℤ) : ℝ) by
        unfold svgAScale Config.vScale quickXy
        norm_num]
      exact Draw.round_int 10
    simp only [svgALimit, this]
    rfl
  · funext i
    have : Draw.round (|Config.vScale quickXy i| * (quickXy.stepper i).maxVelocity) = 100 := by
      rw [show |Config.vScale quickXy i| * (quickXy.stepper i).maxVelocity = ((100 : ℤ) : ℝ) by
        unfold Config.vScale quickXy
        norm_num]
      exact Draw.round_int 100
    simp only [vLimit, this]
    rfl

/-- The whole program: the document is burnt twice with full intensity at 20 mm/s.  The point in the middle of the
curve is burnt each time, and nothing is burnt away from the picture, here at (10 mm, 40 mm); in the end the
machine rests at the origin. -/
example (e : Draw.Env) (he : e.stepScale = fun _ => 80) (hf : Searches (exactEnv e)) (hT : Tables e) :
    ∃ (es : List Event) (t : ℕ → ℕ) (T : ℕ), t 0 = 0 ∧ t 2 < T ∧
      (∀ k < 2, ∃ τ, t k ≤ τ ∧ τ < t (k + 1) ∧ (∀ w, weightAt w es τ = 254) ∧ ∃ τ', (τ' = τ ∨ τ' = τ + 1) ∧
        |posAt .x es τ' - 1900| ≤ 6 ∧ |posAt .y es τ' - 600| ≤ 6) ∧
      (∀ w τ, posAt .x es τ = 800 → posAt .y es τ = 3200 → weightAt w es τ = 0) ∧
      (∀ i τ, T ≤ τ → velAt i es τ = 0 ∧ posAt i es τ = 0) ∧
      ∃ port port', svgProgram quickXy ⟨none, none, none, some 2, some 100⟩ none e bendDoc.events port = some (some port') := by
  have hv : (20 : ℝ) / ((800 : ℕ) : ℝ) = 1 / 40 := by norm_num
  have he' : ∀ i, (exactEnv e).stepScale i = 80 := fun i => by rw [exactEnv, he]
  have hb : bezierOf ⟨10, 0⟩ ⟨30, 30⟩ ⟨10, 0⟩ ⟨0, -20⟩ = bend := by
    simp only [bezierOf, bend, vec_sub, vec_add]
    norm_num
  have hpt : ∀ x y : ℝ, |x| ≤ 100 → |y| ≤ 100 → Bounded 100 ⟨x, y⟩ := by
    intro x y hx hy i
    cases i
    · exact hx
    · exact hy
  have l2 : ((⟨30, 50⟩ : Vec) - ⟨30, 30⟩).length = 20 := by
    show √((30 - 30) * (30 - 30) + (50 - 30) * (50 - 30)) = 20
    rw [show ((30 : ℝ) - 30) * (30 - 30) + (50 - 30) * (50 - 30) = 20 ^ 2 by norm_num]
    exact Real.sqrt_sq (by norm_num)
  obtain ⟨ha, hb'⟩ := quick_limits
  have L : CurveLimits (exactEnv e) (fun _ => 10) (fun _ => 100) (1 / 40) 1 100 (1 / 10 ^ 11) (1 / 10 ^ 6) (1 / 15) 3 8 := by
    refine ⟨by norm_num, by norm_num, by norm_num, by norm_num, by norm_num, by norm_num, by norm_num, by norm_num, by norm_num,
      ?_, ?_, ?_, ?_, by norm_num, by norm_num, by norm_num, ?_, ?_, ?_⟩ <;>
      (intro i; rw [he']; norm_num)
  have fits : ∀ P : Axis → ℤ, ((∀ i, P i = 0) ∨ AtEnd (fun _ => 80) (fun _ => 5) ⟨10, 0⟩
      [.curveTo ⟨30, 30⟩ ⟨10, 0⟩ ⟨0, -20⟩, .lineTo ⟨30, 50⟩] P) →
      Fits (fun _ => 80) 100 ((8 : ℕ) * (1 / 40)) (1 / 10 ^ 11) (1 / 10 ^ 6) (1 / 15) (1 / 40 / 100) (fun _ => 5) ⟨10, 0⟩
        [.curveTo ⟨30, 30⟩ ⟨10, 0⟩ ⟨0, -20⟩, .lineTo ⟨30, 50⟩] P := by
    intro P hP
    have hx : (P .x = 0 ∨ 2395 ≤ P .x) ∧ |(P .x : ℝ)| ≤ 8000 ∧ |(P .y : ℝ)| ≤ 8000 := by
      rcases hP with h | ⟨q, hq, h⟩
      · simp [h]
      · have hq : q = ⟨30, 30⟩ ∨ q = ⟨30, 50⟩ := by simpa [lineEnds, segEnd] using hq
        have h1 := h .x
        have h2 := h .y
        have hx : |(P .x : ℝ) - 2400| ≤ 5 := by
          rcases hq with rfl | rfl <;> (simp only [coord] at h1; norm_num at h1 ⊢; exact h1)
        have hy : |(P .y : ℝ) - 3200| ≤ 805 := by
          rcases hq with rfl | rfl <;> (simp only [coord] at h2; norm_num at h2 ⊢; rw [abs_le] at h2 ⊢; constructor <;> linarith)
        rw [abs_le] at hx hy
        refine ⟨.inr ?_, abs_le.2 ⟨by linarith, by linarith⟩, abs_le.2 ⟨by linarith, by linarith⟩⟩
        have : (2395 : ℝ) ≤ P .x := by linarith
        exact_mod_cast this
    have rx : Draw.round (coord (⟨10, 0⟩ : Vec) .x * 80) = 800 := by
      rw [show coord (⟨10, 0⟩ : Vec) .x * 80 = ((800 : ℤ) : ℝ) by norm_num [coord]]
      exact Draw.round_int 800
    have far : ¬ ∀ i : Axis, Draw.round (coord (⟨10, 0⟩ : Vec) i * (fun _ => (80 : ℝ)) i) = P i := by
      intro h
      have := h .x
      simp only [rx] at this
      omega
    refine ⟨hpt _ _ ?_ ?_, ⟨hpt _ _ (by norm_num) (by norm_num), ?_, ?_⟩, trivial, fun h => absurd h far⟩
    · rw [abs_div, abs_of_pos (by norm_num : (0 : ℝ) < 80)]
      linarith [hx.2.1]
    · rw [abs_div, abs_of_pos (by norm_num : (0 : ℝ) < 80)]
      linarith [hx.2.2]
    · simp only [ExactPath, hb, l2, bend_arc]
      exact ⟨hpt _ _ (by norm_num) (by norm_num), ⟨60, 0, bend_fits, by norm_num, by norm_num⟩, by norm_num, by norm_num,
        hpt _ _ (by norm_num) (by norm_num), by norm_num, by norm_num, trivial⟩
    · rintro (h | ⟨q, hq, -⟩)
      · exact absurd h far
      · simp at hq
  obtain ⟨es, t, T, h1, h2, h3, h4, -, h5, -, h6⟩ := C95_program quickXy ⟨none, none, none, some 2, some 100⟩ none e (by rw [he]; rfl)
    (by rw [ha, hb']; exact ⟨by norm_num, by norm_num, by norm_num, by norm_num, by norm_num⟩) hf hT
    1 100 (1 / 10 ^ 11) (1 / 10 ^ 6) (1 / 15) 3 8 (by
      rw [ha, hb']
      simp only [Option.getD_none]
      rw [show (20 : ℝ) / (quickXy.ticksPerSecond : ℝ) = 1 / 40 from hv]
      exact L) (fun i => by rw [he]; norm_num) (fun _ => 5) (fun i => by rw [he]; norm_num) 2 rfl (by norm_num) (by simp)
    bendDoc [bendDrawing] (by simp) (by simpa using bend_valid) bend_paths (by
      intro p0 rest h
      rw [bend_segments] at h
      cases h
      refine ⟨by simp, fun P hP => ?_⟩
      simp only [Option.getD_none]
      rw [show (20 : ℝ) / (quickXy.ticksPerSecond : ℝ) = 1 / 40 from hv, he]
      rw [he] at hP
      exact fits P (hP.imp_right And.right))
  have hw : weightOf (Option.getD (some 100) 5) = 254 := by decide
  simp only [hw, Option.getD_none, he] at h3
  rw [show (20 : ℝ) / (quickXy.ticksPerSecond : ℝ) = 1 / 40 from hv] at h3
  have mem : ∀ γ ∈ picture [bendDrawing], γ = Svg.cubic ⟨10, 0⟩ ⟨20, 0⟩ ⟨30, 10⟩ ⟨30, 30⟩ ∨ γ = Svg.line ⟨30, 30⟩ ⟨30, 50⟩ := by
    intro γ hγ
    simp only [picture, bendDrawing, List.flatMap_cons, List.flatMap_nil, List.append_nil, moved, List.map_cons, List.map_nil,
      List.mem_cons, List.not_mem_nil, or_false] at hγ
    rcases hγ with rfl | rfl
    · exact .inl (by funext u; ext <;> simp [Transform.identity])
    · exact .inr (by funext u; ext <;> simp [Transform.identity])
  have mem0 : Svg.cubic ⟨10, 0⟩ ⟨20, 0⟩ ⟨30, 10⟩ ⟨30, 30⟩ ∈ picture [bendDrawing] := by
    simp only [picture, bendDrawing, List.flatMap_cons, List.flatMap_nil, List.append_nil, moved, List.map_cons, List.map_nil]
    refine List.mem_cons.2 (.inl ?_)
    funext u
    ext <;> simp [Transform.identity]
  refine ⟨es, t, T, h1, h2, fun k hk => ?_, fun w τ hx hy => ?_, h5, ?_⟩
  · obtain ⟨τ, a1, a2, a3, τ', a4, a5⟩ := (h3 k hk).all _ mem0 (fun ht => by
      have := ht 0 1 le_rfl zero_le_one zero_le_one le_rfl .x
      norm_num [coord, Svg.cubic, Svg.quadratic, Svg.line] at this) (1 / 2) (by norm_num) (by norm_num)
    refine ⟨τ, a1, a2, a3, τ', a4, ?_, ?_⟩
    · have := a5 .x
      have h2 : |((posAt .x es τ' - 1900 : ℤ) : ℝ)| < 7 := by
        push_cast
        refine lt_of_le_of_lt (le_of_eq ?_) (lt_of_le_of_lt this ?_)
        · congr 2; norm_num [coord, Svg.cubic, Svg.quadratic, Svg.line]
        · norm_num
      have : |posAt .x es τ' - 1900| < 7 := by exact_mod_cast h2
      omega
    · have := a5 .y
      have h2 : |((posAt .y es τ' - 600 : ℤ) : ℝ)| < 7 := by
        push_cast
        refine lt_of_le_of_lt (le_of_eq ?_) (lt_of_le_of_lt this ?_)
        · congr 2; norm_num [coord, Svg.cubic, Svg.quadratic, Svg.line]
        · norm_num
      have : |posAt .y es τ' - 600| < 7 := by exact_mod_cast h2
      omega
  · have key : ∀ k < 2, t k ≤ τ → τ < t (k + 1) → weightAt w es τ = 0 := by
      intro k hk k1 k2
      rcases (h3 k hk).power w τ k1 k2 with h | h
      · exact h
      · obtain ⟨γ, hγ, u, u0, u1, hn⟩ := (h3 k hk).only w τ k1 k2 h
        have n1 := hn .x
        have n2 := hn .y
        rw [hx] at n1
        rw [hy] at n2
        exfalso
        rcases mem γ hγ with rfl | rfl
        · have : coord (Svg.cubic ⟨10, 0⟩ ⟨20, 0⟩ ⟨30, 10⟩ ⟨30, 30⟩ u) .y ≤ 30 := by
            simp only [coord, Svg.cubic, Svg.quadratic, Svg.line]
            nlinarith [mul_nonneg u0 (sub_nonneg.2 u1), mul_nonneg u0 u0, mul_nonneg (mul_nonneg u0 u0) (sub_nonneg.2 u1)]
          rw [abs_le] at n2
          norm_num at n2
          linarith [n2.2]
        · have : coord (Svg.line ⟨30, 30⟩ ⟨30, 50⟩ u) .x = 30 := by
            simp only [coord, Svg.line]
            ring
          rw [this, abs_le] at n1
          norm_num at n1
    by_cases b1 : τ < t 1
    · exact key 0 (by norm_num) (by omega) b1
    by_cases b2 : τ < t 2
    · exact key 1 (by norm_num) (by omega) b2
    · exact h4 w τ (by omega)
  · refine ⟨quickPort (String.ofList ("17\n".toList ++ (List.replicate es.length 0).flatMap answers)), ?_⟩
    refine h6 _ ['1', '7'] 17 (List.replicate es.length 0) _ (by simp) (by decide) (by decide)
      (by decide) (delivers_quick _ _ 0 ?_) (fun _ => rfl)
    intro i hi
    simp only [quickPort, String.toList_ofList, Nat.zero_add]
    have : "17\n".toList ++ (List.replicate es.length 0).flatMap answers =
        ['1', '7'] ++ '\n' :: (List.replicate es.length 0).flatMap answers := rfl
    rw [this, List.getElem?_eq_getElem hi]

end StepperPaths.Props
