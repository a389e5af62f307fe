import Verif.Props.RoundedArcDoc
import Verif.Props.RoundedProgram

/-! # C104: the program `svg_path` with rounding, for documents with arcs of circles -/

namespace StepperPaths.Props
open Coords Curves Context IntegerCurve Spec Draw Program Config Control StepperPaths.Svg Spec.Svg Rounded

/-- C104: the program `svg_path` with rounding, for a document with lines, curves and arcs of circles (C103), as C100. -/
theorem C104_program (fl : ℝ → ℝ) (R : FloatRounding fl) (odd : ∀ x, fl (-x) = -fl x) (pw : ℝ → ℝ → ℝ) (hpw : FloatPow pw)
    (lib : Lib) (hlib : FloatLib lib) (hang : FloatAngles lib) (cfg : Xy) (o : Options) (layer : Option (List Char)) (e : Rounded.Env)
    (hes : e.stepScale = fun i => (cfg.stepper i).stepsPerMillimeter)
    (hM : Machine (svgALimitF fl cfg o.aMax) (vLimitF fl cfg o.vMax)) (hf : Searches e) (he : FloatCurves fl pw lib.sin lib.cos e)
    (v : ℝ) (hvd : drawSpeedF fl cfg o.drawSpeed = v) (S M D ε κ : ℝ) (N m : ℕ)
    (L : CurveLimits e (svgALimitF fl cfg o.aMax) (vLimitF fl cfg o.vMax) v S M D ε κ N m)
    (hr : ∀ i, M * e.stepScale i ≤ 2 ^ 26)
    (ρ : Axis → ℝ) (hρ : ∀ i, 387 / 100 * S + 1 / 2 + 3 * (N * (1 / 1000000 + 1 / 10 ^ 12) * e.stepScale i) ≤ ρ i)
    (n : ℕ) (hn : o.repeats.getD 1 = n) (hn1 : 1 ≤ n) (hi : 1 ≤ o.intensity.getD 5 ∧ o.intensity.getD 5 ≤ 100)
    (htps : cfg.ticksPerSecond ≠ 0)
    (f : Forest) (heven : f.Even fl lib (keepOf layer)) (l : List Drawing) (hl : l ≠ []) (hv : ∀ d ∈ l, d.Valid)
    (hp : f.paths (keepOf layer) .identity = some (l.map fun d => (d.tr, d.text)))
    (z : List Size) (hz : f.sizes (keepOf layer) ⟨.identity, 0⟩ = some z) (h q : ℕ) (B : ℝ) (δ : Axis → ℝ)
    (hread : List.Forall₂ (fun d s => Readable δ d s ∨ ArcsReadable h q B δ d s) l z)
    (hfit : ∀ p0 rest, parseDocumentF fl lib (keepOf layer) .identity f.events = some (.ok (.goTo p0 :: rest)) →
      rest.length < N ∧ ∀ P : Axis → ℤ, ((∀ i, P i = 0) ∨ 2 ≤ n ∧ AtEnd e.stepScale ρ p0 rest P) →
        FloatFits fl e.stepScale M (m * v) D ε κ (v / 100) ρ p0 rest P)
    (θ : Axis → ℝ) (hθ : ∀ i, 101 / 200 + δ i * e.stepScale i ≤ θ i) :
    ∃ (es : List Event) (t : ℕ → ℕ) (T : ℕ), t 0 = 0 ∧ t n < T ∧
      (∀ k < n, Burnt e.stepScale (weightOf (o.intensity.getD 5)) (svgALimitF fl cfg o.aMax) (vLimitF fl cfg o.vMax) es (t k) (t (k + 1))
        (picture l) (fun i => 2 * θ i + e.stepScale i / 1000000)
        (fun i => 386 / 100 * S + θ i + (N * (1 / 1000000 + 1 / 10 ^ 12) + N * D) * e.stepScale i)
        (fun i => 386 / 100 * S + θ i + (N * (1 / 1000000 + 1 / 10 ^ 12) + N * D + 13 / 10 * v) * e.stepScale i)) ∧
      (∀ w0 τ, t n ≤ τ → weightAt w0 es τ = 0) ∧
      (∀ i τ, t n ≤ τ → |accAt i es τ| ≤ svgALimitF fl cfg o.aMax i ∧ |velAt i es (τ + 1)| ≤ vLimitF fl cfg o.vMax i) ∧
      (∀ i τ, T ≤ τ → velAt i es τ = 0 ∧ posAt i es τ = 0) ∧
      (∀ port port', svgProgramF fl lib cfg o layer e f.events port = some (some port') →
        ∃ (r0 : List Char) (t0 : ℤ) (rs : List Round), readInt r0 = some t0 ∧
          (accepted rs).map decodeLine = (Spec.absolute (t0 + 128) es).map some ∧
          port'.log = port.log ++ ((['T'], r0) :: rs).flatMap Round.acts) ∧
      ∀ (port : Port) (r0 : List Char) (t0 : ℤ) (full : List ℕ) (d : ℕ), full.length = es.length → '\n' ∉ r0 →
        readInt r0 = some t0 → i64Min ≤ t0 ∧ t0 ≤ i64Max →
        Delivers port.input port.reads (r0 ++ '\n' :: full.flatMap answers) d → (∀ n, port.writeOk n = true) →
        ∃ port', svgProgramF fl lib cfg o layer e f.events port = some (some port') :=
  C100_read fl R odd pw hpw lib hlib cfg o layer e hes hM hf he v hvd S M D ε κ N m L hr ρ hρ n hn hn1 hi htps f l δ
    (C103_document fl R lib hlib hang (keepOf layer) f heven l hl hv hp z hz h q B δ hread) hfit θ hθ

/-! ### Example: the document of C103 -/

open Classical in
/-- The angles of a computed arc are at most 16. -/
theorem angles_small {fl : ℝ → ℝ} (hf : FloatRounding fl) {lib : Lib} (hl : FloatAngles lib) (rx ry : ℝ) (p1 p2 : Vec) (large sweep : Prop) :
    |(arcAnglesF fl lib rx ry p1 p2 large sweep).1| ≤ 16 ∧ |(arcAnglesF fl lib rx ry p1 p2 large sweep).2| ≤ 16 := by
  have p3 := Real.pi_gt_three
  have p4 := Real.pi_lt_d2
  norm_num at p4
  have at4 : ∀ y x, |lib.atan2 y x| ≤ 33 / 10 := by
    intro y x
    by_cases h0 : x = 0 ∧ y = 0
    · rw [h0.1, h0.2, hl.zero]; norm_num
    rcases hl.near y x h0 with h | ⟨-, -, h⟩
    · have h1 : |Vec.atan2 y x| ≤ Real.pi := Complex.abs_arg_le_pi _
      rw [abs_le] at h h1 ⊢
      norm_num at h
      constructor <;> linarith
    · rw [abs_le] at h ⊢
      norm_num at h
      constructor <;> linarith
  have flb : ∀ {x b : ℝ}, |x| ≤ b → |fl x| ≤ b + 1 / 2 ^ 50 * b + 1 / 2 ^ 50 := by
    intro x b hx
    have h1 := near_100 hf x
    have h2 := abs_add_le (fl x - x) x
    rw [sub_add_cancel] at h2
    have b0 := (abs_nonneg x).trans hx
    have : (1 : ℝ) / 2 ^ 53 * |x| ≤ 1 / 2 ^ 50 * b := mul_le_mul (by norm_num) hx (abs_nonneg _) (by norm_num)
    have : (1 : ℝ) / 2 ^ 100 ≤ 1 / 2 ^ 50 := by norm_num
    linarith
  have fpi : |fl Real.pi| ≤ 32 / 10 := (flb (b := 315 / 100) (by rw [abs_of_pos Real.pi_pos]; linarith)).trans (by norm_num)
  have fpi2 : |fl (2 * fl Real.pi)| ≤ 65 / 10 := (flb (b := 64 / 10) (by rw [abs_mul, abs_two]; linarith)).trans (by norm_num)
  have key : ∀ a1 a2 : ℝ, |a1| ≤ 33 / 10 → |a2| ≤ 99 / 10 → |fl (a2 + fl Real.pi)| ≤ 16 ∧ |fl (a1 + fl Real.pi)| ≤ 16 := by
    intro a1 a2 h1 h2
    exact ⟨(flb (b := 14) ((abs_add_le _ _).trans (by linarith))).trans (by norm_num),
      (flb (b := 14) ((abs_add_le _ _).trans (by linarith))).trans (by norm_num)⟩
  have h1 := at4 (fl (p1.y / ry)) (fl (p1.x / rx))
  have h2 := at4 (fl (p2.y / ry)) (fl (p2.x / rx))
  unfold arcAnglesF
  generalize lib.atan2 (fl (p1.y / ry)) (fl (p1.x / rx)) = a1 at *
  generalize lib.atan2 (fl (p2.y / ry)) (fl (p2.x / rx)) = a2 at *
  have f1 : |fl (a2 - fl (2 * fl Real.pi))| ≤ 99 / 10 := (flb (b := 98 / 10) ((abs_sub _ _).trans (by linarith))).trans (by norm_num)
  have f2 : |fl (a2 + fl (2 * fl Real.pi))| ≤ 99 / 10 := (flb (b := 98 / 10) ((abs_add_le _ _).trans (by linarith))).trans (by norm_num)
  have h2' : |a2| ≤ 99 / 10 := by linarith
  have last : ∀ A, |A| ≤ 99 / 10 → |(if Xor sweep (A > a1) then (fl (A + fl Real.pi), fl (a1 + fl Real.pi)) else (a1, A)).1| ≤ 16 ∧
      |(if Xor sweep (A > a1) then (fl (A + fl Real.pi), fl (a1 + fl Real.pi)) else (a1, A)).2| ≤ 16 := by
    intro A hA
    split
    · exact key _ _ h1 hA
    · exact ⟨by linarith, by simp only; linarith⟩
  refine last _ ?_
  split
  · split
    · exact f1
    · exact f2
  · exact h2'

open Classical in
/-- The first angle of a computed arc is a floating point number. -/
theorem angle_float {fl : ℝ → ℝ} (hf : FloatRounding fl) {lib : Lib} (hat : ∀ y x, fl (lib.atan2 y x) = lib.atan2 y x)
    (rx ry : ℝ) (p1 p2 : Vec) (large sweep : Prop) :
    fl (arcAnglesF fl lib rx ry p1 p2 large sweep).1 = (arcAnglesF fl lib rx ry p1 p2 large sweep).1 := by
  have last : ∀ A a1, fl a1 = a1 → fl (if Xor sweep (A > a1) then (fl (A + fl Real.pi), fl (a1 + fl Real.pi)) else (a1, A)).1 =
      (if Xor sweep (A > a1) then (fl (A + fl Real.pi), fl (a1 + fl Real.pi)) else (a1, A)).1 := by
    intro A a1 h
    split
    · exact hf.idem _
    · exact h
  unfold arcAnglesF
  exact last _ _ (hat _ _)

theorem arcSeg_angles {fl : ℝ → ℝ} {lib : Lib} {tr : Transform} {d : Vec} {a : ArcArgs} {R R2 a1 a2 rot : ℝ}
    (h : arcSegF fl lib tr d a = some (.ok (.arc R R2 a1 a2 rot))) :
    ∃ p1 p2, arcAnglesF fl lib R R2 p1 p2 a.largeArc a.sweep = (a1, a2) := by
  unfold arcSegF at h
  split at h
  · simp at h
  · obtain ⟨⟨rx, ry, r⟩, -, h⟩ := Option.bind_eq_some_iff.1 h
    simp only at h
    split at h
    · simp at h
    · next p1 p2 _ =>
      simp only [Option.some.injEq, Except.ok.injEq, Seg.arc.injEq] at h
      obtain ⟨rfl, rfl, h1, h2, -⟩ := h
      exact ⟨p1, p2, Prod.ext h1 h2⟩

theorem round_length (fl : ℝ → ℝ) (hf : FloatRounding fl) : parseLengthF fl "20mm".toList = some 20 := by
  have h : lengthParts ([] ++ ((two 2 0).text ++ ([] ++ "mm".toList))) = some ((two 2 0).value, some .mm) := by
    have hn := two_valid 2 0
    have hs : Stop ([] ++ "mm".toList) := blank_stop (by simp [Blank]) (unit_text (u := "mm") (v := 1) (by simp [units]) []).2.1
    have h1 : wspOpt ([] ++ ((two 2 0).text ++ ([] ++ "mm".toList))) = some ((two 2 0).text ++ ([] ++ "mm".toList), []) :=
      wspOpt_run (by simp [Blank]) (noHead_imp (number_after _ hn _) (by simp +contextual))
    have h2 := number_text hn hs
    simp only [lengthParts, Parser.map, Parser.pair, h1, h2, Option.bind_some]
    rfl
  rw [show "20mm".toList = [] ++ ((two 2 0).text ++ ([] ++ "mm".toList)) by decide, parseLengthF, h, Option.map_some]
  have : fl 20 = 20 := by simpa using hf.int 20 (by norm_num)
  rw [two_value]
  simp [lengthF, LengthUnit.valueF]
  norm_num [this]

theorem round_pathsF (fl : ℝ → ℝ) (hf : FloatRounding fl) (lib : Lib) : Acc.pathsF fl lib (keepOf none) .identity roundDoc =
    some [(⟨2, 0, 0, 2, 0, 0⟩, "M10,05A05,05,0,0,1,05,10L00,10".toList)] := by
  have i : ∀ n : ℤ, |n| ≤ 2 ^ 53 → fl n = n := hf.int
  have z : fl 0 = 0 := by simpa using i 0 (by norm_num)
  have n1 : fl 1 = 1 := by simpa using i 1 (by norm_num)
  have n2 : fl 2 = 2 := by simpa using i 2 (by norm_num)
  have n10 : fl 10 = 10 := by simpa using i 10 (by norm_num)
  have h1 := round_length fl hf
  have h2 := round_lengths.2
  unfold roundDoc
  generalize "M10,05A05,05,0,0,1,05,10L00,10".toList = text
  generalize "20mm".toList = w at *
  generalize "0 0 10 10".toList = v at *
  simp [boxOf, Acc.pathsF, keepOf, noFilter, Acc.insideF, texts, h1, h2, n10]
  norm_num [n2, Rounded.tmul, Transform.identity, z, n1, Transform.scaleXy]

/-- The points of `roundDoc` are computed exactly. -/
theorem round_computed (fl : ℝ → ℝ) (hf : FloatRounding fl) (lib : Lib) (R a1 a2 : ℝ)
    (h : arcSegF fl lib ⟨2, 0, 0, 2, 0, 0⟩ ⟨-10, 10⟩ ⟨5, 5, 0, (0 : ℝ) ≠ 0, (1 : ℝ) ≠ 0⟩ = some (.ok (.arc R R a1 a2 0))) :
    parseDocumentF fl lib (keepOf none) .identity roundDoc.events =
      some (.ok [.goTo ⟨20, 10⟩, .arc R R a1 a2 0, .lineTo ⟨0, 20⟩]) := by
  have i : ∀ n : ℤ, |n| ≤ 2 ^ 53 → fl n = n := hf.int
  have z : fl 0 = 0 := by simpa using i 0 (by norm_num)
  have n1 : fl 1 = 1 := by simpa using i 1 (by norm_num)
  have n5 : fl 5 = 5 := by simpa using i 5 (by norm_num)
  have n10 : fl 10 = 10 := by simpa using i 10 (by norm_num)
  have n10' : fl (-10) = -10 := by simpa using i (-10) (by norm_num)
  have n20 : fl 20 = 20 := by simpa using i 20 (by norm_num)
  have hv : (roundCmds.map fun c => (c.letter, c.args.values.map fun q : ℚ => fl (q : ℝ))) =
      [('M', [10, 5]), ('A', [5, 5, 0, 0, 1, 5, 10]), ('L', [0, 10])] := by
    have h := congrArg (List.map fun c : Char × List ℝ => (c.1, c.2.map fl)) round_values
    unfold Drawing.values at h
    rw [List.map_map] at h
    have e : (roundCmds.map fun c => (c.letter, c.args.values.map fun q : ℚ => fl (q : ℝ))) =
        List.map ((fun c : Char × List ℝ => (c.1, c.2.map fl)) ∘ fun c : Cmd => (c.letter, c.args.values.map fun q : ℚ => (q : ℝ)))
          roundDrawing.cmds := by simp [roundDrawing, Function.comp_def]
    rw [e, h]
    simp [z, n1, n5, n10]
  have hb : Acc.buildAllF fl lib ⟨2, 0, 0, 2, 0, 0⟩ true [('M', [10, 5]), ('A', [5, 5, 0, 0, 1, 5, 10]), ('L', [0, 10])] .new =
      some (.ok (), ⟨⟨0, 10⟩, ⟨10, 5⟩, none, [.goTo ⟨20, 10⟩, .arc R R a1 a2 0, .lineTo ⟨0, 20⟩]⟩) := by
    have t1 : tapply fl ⟨2, 0, 0, 2, 0, 0⟩ ⟨10, 5⟩ = ⟨20, 10⟩ := by norm_num [tapply, z, n20, n10]
    have t2 : tapply fl ⟨2, 0, 0, 2, 0, 0⟩ ⟨5, 10⟩ = ⟨10, 20⟩ := by norm_num [tapply, z, n20, n10]
    have t3 : tapply fl ⟨2, 0, 0, 2, 0, 0⟩ ⟨0, 10⟩ = ⟨0, 20⟩ := by norm_num [tapply, z, n20]
    have t4 : Rounded.vsub fl ⟨10, 20⟩ ⟨20, 10⟩ = ⟨-10, 10⟩ := by norm_num [Rounded.vsub, n10, n10']
    simp [Acc.buildAllF, buildPathF, checkArgs, moveCmdF, moveFirstF, lineLoopF, arcLoopF, targetF, PathState.push,
      PathState.new, PathState.noControl, t1, t2, t3, t4, z]
    simp only [ne_eq, not_true_eq_false, one_ne_zero, not_false_eq_true] at h
    rw [h]
    rfl
  rw [← hv] at hb
  have hp := Acc.pathLoopF_cmds (t := []) ⟨2, 0, 0, 2, 0, 0⟩ roundCmds round_valid.cmds (by simp [White]) true .new _ hb
  rw [List.append_nil] at hp
  have ht : pathText roundCmds = "M10,05A05,05,0,0,1,05,10L00,10".toList := by decide
  rw [ht] at hp
  exact Acc.parseDocumentF_ok (keepOf none) roundDoc _ ⟨⟨0, 10⟩, ⟨10, 5⟩, none, [.goTo ⟨20, 10⟩, .arc R R a1 a2 0, .lineTo ⟨0, 20⟩]⟩ _
    (round_pathsF fl hf lib) (by simp only [Acc.runPathsF, parsePathF, hp])

theorem arc_end {r : ℝ} (hr : r ≠ 0) (p : Vec) (a b : ℝ) : placedAt (p, arcShape r a b) (r * |b - a|) =
    ⟨p.x + r * (Real.cos b - Real.cos a), p.y + r * (Real.sin b - Real.sin a)⟩ := by
  have e : a + (if a ≤ b then (1 : ℝ) else -1) * (r * |b - a|) / r = b := by
    split
    · next h => rw [abs_of_nonneg (by linarith)]; field_simp; ring
    · next h => rw [abs_of_neg (by linarith)]; field_simp; ring
  simp only [placedAt, arcShape]
  rw [e]
  rfl

/-- The computed arc. -/
theorem round_seg (lib : Lib) (hl : FloatAngles lib) (hat : ∀ y x, double (lib.atan2 y x) = lib.atan2 y x) :
    ∃ R a1 a2, arcSegF double lib ⟨2, 0, 0, 2, 0, 0⟩ ⟨-10, 10⟩ ⟨5, 5, 0, (0 : ℝ) ≠ 0, (1 : ℝ) ≠ 0⟩ = some (.ok (.arc R R a1 a2 0)) ∧
      |R - 10| ≤ 1 / 10 ^ 10 ∧ |a1| ≤ 16 ∧ |a2| ≤ 16 ∧ double a1 = a1 ∧ 9 / 10 ≤ |a2 - a1| ∧ |a2 - a1| ≤ 32 / 10 ∧
      |20 + R * (Real.cos a2 - Real.cos a1) - 10| ≤ 1 / 10 ^ 5 ∧ |10 + R * (Real.sin a2 - Real.sin a1) - 20| ≤ 1 / 10 ^ 5 := by
  have hf := C90_double
  have f1 : double 10 = 10 := by simpa using hf.int 10 (by norm_num)
  have f2 : double (-10) = -10 := by simpa using hf.int (-10) (by norm_num)
  have sq : √(200 : ℝ) ^ 2 = 200 := Real.sq_sqrt (by norm_num)
  have s0 : 0 ≤ √(200 : ℝ) := Real.sqrt_nonneg _
  have s1 : 14 ≤ √(200 : ℝ) := Real.le_sqrt_of_sq_le (by norm_num)
  have ax : |(-10 : ℝ)| ≤ √200 := by norm_num; linarith
  have ay : |(10 : ℝ)| ≤ √200 := by norm_num; linarith
  have D0 : (1 : ℝ) / 2 ^ 60 ≤ √200 := le_trans (by norm_num) s1
  obtain ⟨R, a1, a2, b1, b2, e1, e2, e3, e4, e5⟩ := Acc.arc_near (k := 0) (l := 0) (K := 24) (h := 2) (tr := ⟨2, 0, 0, 2, 0, 0⟩)
    (d' := ⟨-10, 10⟩) (dx := -10) (dy := 10) (D := √200) (r' := 5) (s' := 2) (r := 5) (s := 2) hf hl ((0 : ℝ) ≠ 0) ((1 : ℝ) ≠ 0)
    (Acc.App.exact (by norm_num) (.inl (by norm_num))) (Acc.App.exact (by norm_num) (.inl (by norm_num))) rfl rfl rfl rfl
    (by norm_num) (by norm_num) (by norm_num) (by norm_num)
    ((Acc.App.exact ax (.inl D0)).mono (Nat.zero_le _) le_rfl) ((Acc.App.exact ay (.inl D0)).mono (Nat.zero_le _) le_rfl)
    f2 f1 (by rw [sq]; norm_num) (by norm_num; linarith) (by rw [sq]; norm_num) (by norm_num) (by norm_num) (by norm_num) (by norm_num)
  have g0 : Acc.g 24 ≤ 48 / 2 ^ 52 := (Acc.g_le (by norm_num)).trans (by norm_num)
  have eR : |R - 5 * 2| ≤ 48 / 2 ^ 52 * (5 * 2) := e2.err.trans (mul_le_mul_of_nonneg_right g0 (by norm_num))
  norm_num at e4 e5
  have px := e3.x
  have py := e3.y
  have long : 1 ≤ |b2 - b1| := by
    have := Real.abs_cos_sub_cos_le b2 b1
    have h2 : |Real.cos b2 - Real.cos b1| = 1 := by
      rw [show Real.cos b2 - Real.cos b1 = -1 by linarith]; norm_num
    linarith
  have short := e3.short (by simp)
  have p4 := Real.pi_lt_d2
  norm_num at p4
  have ea : |(a2 - a1) - (b2 - b1)| ≤ 3 / 2 ^ 25 := by
    rw [abs_le] at e4 e5 ⊢
    norm_num
    constructor <;> linarith
  have ea' := abs_le.1 ((abs_abs_sub_abs_le _ _).trans ea)
  norm_num at ea'
  obtain ⟨q1, q2, hq⟩ := arcSeg_angles e1
  obtain ⟨m1, m2⟩ := angles_small hf hl R R q1 q2 ((0 : ℝ) ≠ 0) ((1 : ℝ) ≠ 0)
  have m3 := angle_float hf hat R R q1 q2 ((0 : ℝ) ≠ 0) ((1 : ℝ) ≠ 0)
  rw [hq] at m1 m2 m3
  have c := fun i => Acc.arc_points (u := 1) eR (by norm_num) e4 e5 zero_le_one le_rfl ⟨20, 10⟩ i 0 0
  have cx := c .x
  have cy := c .y
  simp only [pointAt, mul_one, add_sub_cancel, coord] at cx cy
  refine ⟨R, a1, a2, e1, ?_, m1, m2, m3, by linarith, by linarith, ?_, ?_⟩
  · norm_num at eR ⊢
    linarith
  · rw [abs_le] at cx ⊢
    norm_num at cx ⊢
    constructor <;> linarith
  · rw [abs_le] at cy ⊢
    norm_num at cy ⊢
    constructor <;> linarith

/-- The machine can follow the document of C103. -/
theorem round_fits (lib : Lib) (hang : FloatAngles lib)
    (hat : ∀ y x, double (lib.atan2 y x) = lib.atan2 y x) (e : Rounded.Env) (he : e.stepScale = fun _ => 80) :
    ∃ v, drawSpeedF double quickXy none = v ∧ |v - 1 / 40| ≤ 1 / 10 ^ 9 ∧
      CurveLimits e (fun _ => 10) (fun _ => 100) v 1 100 (1 / 10 ^ 6) (1 / 10 ^ 6) (1 / 9) 3 8 ∧
      ∀ p0 rest, parseDocumentF double lib (keepOf none) .identity roundDoc.events = some (.ok (.goTo p0 :: rest)) →
        rest.length < 3 ∧ ∀ P : Axis → ℤ, ((∀ i, P i = 0) ∨ 2 ≤ 1 ∧ AtEnd e.stepScale (fun _ => 5) p0 rest P) →
          FloatFits double e.stepScale 100 ((8 : ℕ) * v) (1 / 10 ^ 6) (1 / 10 ^ 6) (1 / 9) (v / 100) (fun _ => 5) p0 rest P := by
  have R := C90_double
  obtain ⟨v, hvd⟩ : ∃ v, drawSpeedF double quickXy none = v := ⟨_, rfl⟩
  have hv : |v - 1 / 40| ≤ 1 / 10 ^ 9 := by
    have := near_100 R (20 / (quickXy.ticksPerSecond : ℝ))
    rw [show (20 : ℝ) / (quickXy.ticksPerSecond : ℝ) = 1 / 40 by norm_num [quickXy]] at this
    have e1 : v = double (1 / 40) := by
      rw [← hvd, drawSpeedF]
      norm_num [quickXy]
    rw [e1]
    refine this.trans ?_
    rw [abs_of_pos (by norm_num)]
    norm_num
  obtain ⟨v1, v2⟩ := abs_le.1 hv
  norm_num at v1 v2
  have he' : ∀ i, e.stepScale i = 80 := fun i => by rw [he]
  have L : CurveLimits e (fun _ => 10) (fun _ => 100) v 1 100 (1 / 10 ^ 6) (1 / 10 ^ 6) (1 / 9) 3 8 := by
    refine ⟨by norm_num, by linarith, by linarith, by norm_num, by push_cast; linarith, by norm_num, by norm_num, by norm_num, by linarith,
      ?_, ?_, ?_, ?_, by norm_num, by norm_num, by norm_num, ?_, ?_, ?_⟩ <;>
      (intro i; rw [he'])
    · norm_num
    · norm_num
    · norm_num
    · linarith
    · push_cast; linarith
    · have : v ≤ 1 / 39 := by linarith
      have v0 : 0 ≤ v := by linarith
      push_cast
      have : v * 80 * (89 / 1000 + 11 / (20 * 8) + 5 * (1 / 9 * v)) ≤ 1 / 39 * 80 * (89 / 1000 + 11 / (20 * 8) + 5 * (1 / 9 * (1 / 39))) := by
        gcongr
      refine this.trans ?_
      norm_num
    · norm_num
  obtain ⟨r, a1, a2, k1, k2, k3, k4, k5, k6, k7, k8, k9⟩ := round_seg lib hang hat
  rw [abs_le] at k2 k8 k9
  norm_num at k2 k8 k9
  have r0 : r ≠ 0 := by intro h; rw [h] at k2; norm_num at k2
  have rl : 81 / 10 ≤ r * |a2 - a1| := by nlinarith
  have ru : r * |a2 - a1| ≤ 33 := by nlinarith
  have p1 : FloatPoint double 100 ⟨20, 10⟩ := by
    intro i
    cases i
    · exact ⟨by norm_num [coord], by simpa [coord] using R.int 20 (by norm_num)⟩
    · exact ⟨by norm_num [coord], by simpa [coord] using R.int 10 (by norm_num)⟩
  have p3 : FloatPoint double 100 ⟨0, 20⟩ := by
    intro i
    cases i
    · exact ⟨by norm_num [coord], by simpa [coord] using R.int 0 (by norm_num)⟩
    · exact ⟨by norm_num [coord], by simpa [coord] using R.int 20 (by norm_num)⟩
  have z0 : double 0 = 0 := by simpa using R.int 0 (by norm_num)
  have fits : FloatFits double (fun _ => 80) 100 ((8 : ℕ) * v) (1 / 10 ^ 6) (1 / 10 ^ 6) (1 / 9) (v / 100) (fun _ => 5) ⟨20, 10⟩
        [.arc r r a1 a2 0, .lineTo ⟨0, 20⟩] (fun _ => 0) := by
    have rx : Draw.round (double (coord (⟨20, 10⟩ : Vec) .x * 80)) = 1600 := by
      rw [show coord (⟨20, 10⟩ : Vec) .x * 80 = ((1600 : ℤ) : ℝ) by norm_num [coord], R.int 1600 (by norm_num)]
      exact Draw.round_int 1600
    have far : ¬ ∀ i : Axis, Draw.round (double (coord (⟨20, 10⟩ : Vec) i * (fun _ => (80 : ℝ)) i)) = (fun _ => (0 : ℤ)) i := by
      intro h
      have := h .x
      simp only [rx] at this
      omega
    have far' : ¬ Beside double (fun _ => 80) (fun _ => 5) (fun _ => 0) [] ⟨20, 10⟩ := by
      rintro (h | ⟨q, hq, -⟩)
      · exact far h
      · simp at hq
    refine ⟨fun i => ?_, ⟨p1, ?_, fun h => absurd h far'⟩, fun _ _ => trivial, fun h => absurd h far⟩
    · cases i <;> simp [floatPlace, coord, z0]
    · simp only [TractablePath]
      refine ⟨⟨16, ⟨by norm_num; linarith, by norm_num; linarith, by norm_num, by norm_num, k3, k4⟩, by norm_num; linarith, by norm_num⟩, k5,
        by rw [sub_self, z0]; norm_num, by linarith, ?_, fun i => (p1 i).1, fun i => ?_, by push_cast; linarith, by linarith, ?_⟩
      · rw [div_le_div_iff₀ (by linarith) (by norm_num)]
        linarith
      · rw [arc_end r0]
        cases i
        · simp only [coord]
          have : |20 + r * (Real.cos a2 - Real.cos a1)| ≤ 99 := by rw [abs_le]; constructor <;> linarith
          norm_num
          linarith
        · simp only [coord]
          have : |10 + r * (Real.sin a2 - Real.sin a1)| ≤ 99 := by rw [abs_le]; constructor <;> linarith
          norm_num
          linarith
      · intro p hp hc
        rw [arc_end r0] at hc
        have cx := abs_le.1 (hc .x)
        have cy := abs_le.1 (hc .y)
        simp only [coord] at cx cy
        norm_num at cx cy
        have l1 : 9 ≤ ((⟨0, 20⟩ : Vec) - p).length := by
          refine Real.le_sqrt_of_sq_le ?_
          simp only [vec_sub]
          nlinarith
        have l2 : ((⟨0, 20⟩ : Vec) - p).length ≤ 20 := by
          refine (Real.sqrt_le_left (by norm_num)).2 ?_
          simp only [vec_sub]
          nlinarith
        exact ⟨p3, by push_cast; linarith, by linarith, trivial⟩
  refine ⟨v, hvd, hv, L, fun p0 rest h => ?_⟩
  rw [round_computed double R lib r a1 a2 k1] at h
  cases h
  refine ⟨by simp, fun P hP => ?_⟩
  have : P = fun _ => 0 := hP.elim funext fun h => absurd h.1 (by norm_num)
  rw [he, this]
  exact fits

/-- The document of C103, in `f64` arithmetic: the laser passes the middle of the arc within ten steps (an eighth of a millimetre). -/
example (pw : ℝ → ℝ → ℝ) (hpw : FloatPow pw) (lib : Lib) (hlib : FloatLib lib) (hang : FloatAngles lib)
    (hat : ∀ y x, double (lib.atan2 y x) = lib.atan2 y x) (e : Rounded.Env) (he : e.stepScale = fun _ => 80)
    (hf : Searches e) (hC : FloatCurves double pw lib.sin lib.cos e) :
    ∃ (es : List Event) (t T : ℕ), t < T ∧
      (∃ τ < t, (∀ w, weightAt w es τ = 254) ∧ ∃ τ', (τ' = τ ∨ τ' = τ + 1) ∧
        |posAt .x es τ' - 80 * (10 + 5 * √2)| ≤ 10 ∧ |posAt .y es τ' - 80 * (10 + 5 * √2)| ≤ 10) ∧
      (∀ i τ, T ≤ τ → velAt i es τ = 0 ∧ posAt i es τ = 0) ∧
      ∃ port port', svgProgramF double lib quickXy ⟨none, none, none, some 1, some 100⟩ none e roundDoc.events port = some (some port') := by
  have R := C90_double
  obtain ⟨v, hvd, hv, L, hfit⟩ := round_fits lib hang hat e he
  obtain ⟨v1, v2⟩ := abs_le.1 hv
  norm_num at v1 v2
  obtain ⟨ha, hb'⟩ := quick_limitsF
  obtain ⟨es, t, T, h1, h2, h3, -, -, h5, -, h6⟩ := C104_program double R C93_double_odd pw hpw lib hlib hang quickXy
    ⟨none, none, none, some 1, some 100⟩ none e (by rw [he]; rfl)
    (by rw [ha, hb']; exact ⟨by norm_num, by norm_num, by norm_num, by norm_num, by norm_num⟩) hf hC v hvd
    1 100 (1 / 10 ^ 6) (1 / 10 ^ 6) (1 / 9) 3 8 (by rw [ha, hb']; exact L) (fun i => by rw [he]; norm_num)
    (fun _ => 5) (fun i => by rw [he]; norm_num) 1 rfl le_rfl (by simp) (by decide)
    roundDoc (round_even _ _) [roundDrawing] (by simp) (by simpa using round_valid) round_paths _ round_sizes 2 20 10 _
    (.cons (.inr round_readable) .nil) hfit (fun _ => 525 / 1000) (fun i => by rw [he]; norm_num)
  have hw : weightOf (Option.getD (some 100) 5) = 254 := by decide
  simp only [hw, he] at h3
  obtain ⟨γ, hγ⟩ : ∃ γ, γ = fun u => roundDrawing.tr * (⟨10 + 5 * (Real.cos (0 + (Real.pi / 2 - 0) * u) - Real.cos 0),
    5 + 5 * (Real.sin (0 + (Real.pi / 2 - 0) * u) - Real.sin 0)⟩ : Vec) := ⟨_, rfl⟩
  have mem0 : γ ∈ picture [roundDrawing] := by
    simp only [picture, List.flatMap_cons, List.flatMap_nil, List.append_nil, moved]
    rw [hγ]
    exact List.mem_cons_self
  have g0 : γ 0 = ⟨20, 10⟩ := by rw [hγ, round_tr]; norm_num
  have g1 : γ 1 = ⟨10, 20⟩ := by rw [hγ, round_tr]; norm_num
  have c4 : Real.cos (Real.pi / 2 * (1 / 2)) = √2 / 2 := by rw [← Real.cos_pi_div_four]; congr 1; ring
  have s4 : Real.sin (Real.pi / 2 * (1 / 2)) = √2 / 2 := by rw [← Real.sin_pi_div_four]; congr 1; ring
  have g2 : γ (1 / 2) = ⟨10 + 5 * √2, 10 + 5 * √2⟩ := by
    rw [hγ, round_tr]
    ext
    · simp only [zero_add, sub_zero, c4, Real.cos_zero]
      simp
      ring
    · simp only [zero_add, sub_zero, s4, Real.sin_zero]
      simp
      ring
  refine ⟨es, t 1, T, h2, ?_, h5, ?_⟩
  · obtain ⟨τ, a1, a2, a3, τ', a4, a5⟩ := (h3 0 (by norm_num)).all _ mem0 (fun ht => by
      have := ht 0 1 le_rfl zero_le_one zero_le_one le_rfl .x
      rw [g0, g1] at this
      norm_num [coord] at this) (1 / 2) (by norm_num) (by norm_num)
    rw [g2] at a5
    refine ⟨τ, a2, a3, τ', a4, ?_, ?_⟩
    · have := a5 .x
      simp only [coord] at this
      rw [mul_comm]
      refine this.trans ?_
      push_cast
      linarith
    · have := a5 .y
      simp only [coord] at this
      rw [mul_comm]
      refine this.trans ?_
      push_cast
      linarith
  · refine ⟨quickPort (String.ofList ("17\n".toList ++ (List.replicate es.length 0).flatMap answers)), ?_⟩
    refine h6 _ ['1', '7'] 17 (List.replicate es.length 0) _ (by simp) (by decide) (by decide)
      (by decide) (delivers_quick _ _ 0 ?_) (fun _ => rfl)
    intro i hi
    simp only [quickPort, String.toList_ofList, Nat.zero_add]
    have : "17\n".toList ++ (List.replicate es.length 0).flatMap answers =
        ['1', '7'] ++ '\n' :: (List.replicate es.length 0).flatMap answers := rfl
    rw [this, List.getElem?_eq_getElem hi]

end StepperPaths.Props
