import Verif.Proof.CheckedSvg
import Verif.Props.RoundedArcProgram

/-! # C113: `svg_path` overflows nowhere -/

namespace StepperPaths.Props
open Coords Curves Context IntegerCurve Spec Draw Program Config Control StepperPaths.Svg Spec.Svg Rounded

/-- C113: whenever `svg_path` with checked integers does not panic, it does what the program with unbounded integers
does: all that is shown of the latter holds for the former. -/
theorem C113_sound (fl : ℝ → ℝ) (lib : Lib) (cfg : Xy) (o : Options) (layer : Option (List Char)) (e : Rounded.Env)
    (doc : List XmlEvent) (port : Port) (r : Option Port) (h : CheckedSvg.svgProgram fl lib cfg o layer e doc port = some r) :
    svgProgramF fl lib cfg o layer e doc port = some r :=
  CheckedSvg.svgProgram_le fl lib cfg o layer e doc port r h

/-- C113: for paths and machines as in C97, with speeds up to `2^24`, `draw_curves` overflows nowhere: it returns the
same motion and the same errors as with unbounded integers. -/
theorem C113_draw (fl : ℝ → ℝ) (R : FloatRounding fl) (odd : ∀ x, fl (-x) = -fl x) (pw : ℝ → ℝ → ℝ) (hpw : FloatPow pw)
    (sn cs : ℝ → ℝ) (T : FloatTrig sn cs) (aMax vMax : Axis → ℤ) (hM : Machine aMax vMax) (hb : ∀ i, vMax i ≤ 2 ^ 24)
    (e : Rounded.Env) (hf : Searches e) (he : FloatCurves fl pw sn cs e) (c : Ctx) (h : Sync aMax vMax c)
    (hc : ∀ i, |(c.channels i).v| ≤ vMax i) (hp : ∀ i, |(c.channels i).pos| ≤ 2 ^ 28) (v S M D ε κ : ℝ) (N m : ℕ)
    (L : CurveLimits e aMax vMax v S M D ε κ N m)
    (ρ : Axis → ℝ) (hρ : ∀ i, 387 / 100 * S + 1 / 2 + 3 * (N * (1 / 1000000 + 1 / 10 ^ 12) * e.stepScale i) ≤ ρ i)
    (segs : List Seg) (hN : segs.length ≤ N) (hs : ∀ i, |coord (floatStart fl e c) i| ≤ M)
    (hF : TractablePath fl e.stepScale M (m * v) D ε κ (v / 100) ρ (fun i => (c.channels i).pos) M [] (floatStart fl e c) segs) :
    ∃ r, CheckedSvg.drawCurves fl e c segs v = some r ∧ Rounded.drawCurves fl e c segs v = some r := by
  by_cases hne : segs = []
  · subst hne
    exact ⟨(c, fun _ => 0), rfl, rfl⟩
  have hM0 : 0 ≤ M := (abs_nonneg _).trans (hs .x)
  have ht := ticks_of_sync h
  have hF' := Acc.gentle_path R odd hpw T he (le_trans (by positivity) L.tol) segs _ _ _ hF
  obtain ⟨s, -, -, -, -, q1, -, -, -, -, q6, -, -, -, -, q11⟩ := path_done R hM hf h hc hp L hρ hN hs hF' ht
  obtain ⟨c', err, -, -, -, -, -, k1, -⟩ := C97_path fl R odd pw hpw sn cs T aMax vMax hM e hf he c h hc hp v S M D ε κ N m L ρ hρ
    segs hne hN hs hF _ ht
  refine ⟨(c', err), ?_, k1⟩
  have q2 : CheckedSvg.drawPen fl e c segs v = some s := CheckedSvg.finish_ge R hM hb L q11 q1 q6
  have q3 : Rounded.drawPen fl e c segs v = some s := q1
  unfold Rounded.drawCurves at k1
  unfold CheckedSvg.drawCurves
  rw [if_neg (by simpa using hne)] at k1 ⊢
  rw [q3] at k1
  rw [q2]
  exact k1

theorem times_checked {fl : ℝ → ℝ} (R : FloatRounding fl) (odd : ∀ x, fl (-x) = -fl x) {pw : ℝ → ℝ → ℝ} (hpw : FloatPow pw)
    {sn cs : ℝ → ℝ} (T : FloatTrig sn cs) {aMax vMax : Axis → ℤ} (hM : Machine aMax vMax) (hb : ∀ i, vMax i ≤ 2 ^ 24)
    {e : Rounded.Env} (hf : Searches e) (he : FloatCurves fl pw sn cs e)
    {v S M D ε κ : ℝ} {N m : ℕ} (L : CurveLimits e aMax vMax v S M D ε κ N m) (hr : ∀ i, M * e.stepScale i ≤ 2 ^ 26)
    {ρ : Axis → ℝ} (hρ : ∀ i, 387 / 100 * S + 1 / 2 + 3 * (N * (1 / 1000000 + 1 / 10 ^ 12) * e.stepScale i) ≤ ρ i)
    {p0 : Vec} {rest : List Seg} (hN : rest.length < N) (n : ℕ) :
    ∀ {c : Ctx}, Sync aMax vMax c → (∀ i, |(c.channels i).v| ≤ vMax i) →
    (∀ i, |((c.channels i).pos : ℝ)| ≤ 2 * M * e.stepScale i + 4 * S + 2) → c.curveWeight ≠ 0 →
    (1 ≤ n → FloatFits fl e.stepScale M (m * v) D ε κ (v / 100) ρ p0 rest (fun i => (c.channels i).pos)) →
    (2 ≤ n → ∀ P, AtEnd e.stepScale ρ p0 rest P → FloatFits fl e.stepScale M (m * v) D ε κ (v / 100) ρ p0 rest P) →
    ∃ c', CheckedSvg.drawTimes fl e (.goTo p0 :: rest) v n c = some c' ∧ drawTimesF fl e (.goTo p0 :: rest) v n c = some c' ∧
      Sync aMax vMax c' ∧ (∀ i, |(c'.channels i).v| ≤ vMax i) ∧
      ∀ i, |((c'.channels i).pos : ℝ)| ≤ 2 * M * e.stepScale i + 4 * S + 2 := by
  induction n with
  | zero =>
    intro c h1 h2 h3 _ _ _
    exact ⟨c, rfl, rfl, h1, h2, h3⟩
  | succ n ih =>
    intro c h1 h2 h3 h4 h5 h6
    have hp : ∀ i, |(c.channels i).pos| ≤ 2 ^ 28 := by
      intro i
      have g1 := h3 i
      have g2 := hr i
      have g3 := L.big
      have : |((c.channels i).pos : ℝ)| ≤ 2 ^ 28 := by
        norm_num at g2 ⊢
        linarith
      exact_mod_cast this
    have hF := h5 (by omega)
    obtain ⟨c1, err, q1, q2, q3, -, -, q5, q6, q7⟩ := Picture.passF_burnt R odd hpw T hM hf he h1 h2 hp h4 L hr hρ hN hF
      (δ' := fun _ => 0) (θ := fun _ => 101 / 200) (B := linesOf p0 rest)
      (List.forall₂_same.2 fun γ _ u _ _ i => by simp) (fun i => by simp)
    obtain ⟨r, d1, d2⟩ := C113_draw fl R odd pw hpw sn cs T aMax vMax hM hb e hf he c h1 h2 hp v S M D ε κ N m L ρ hρ
      (.goTo p0 :: rest) (by simpa using hN) hF.bounded hF.path
    rw [q1] at d2
    cases d2
    obtain ⟨c2, g1, g2, g3⟩ := ih q2 q5 q6 (by rw [q3.cw]; exact h4) (by
      intro hn
      rcases q7 with q7 | q7
      · have : (fun i => (c1.channels i).pos) = fun i => (c.channels i).pos := funext q7
        rw [this]
        exact hF
      · exact h6 (by omega) _ q7) (fun hn => h6 (by omega))
    refine ⟨c2, ?_, ?_, g3⟩
    · rw [CheckedSvg.drawTimes]
      simp only [d1, Option.bind_eq_bind, Option.bind_some, g1]
    · rw [drawTimesF]
      simp only [q1, Option.bind_eq_bind, Option.bind_some, g2]

/-- C113: for documents and machines as in C100 and C104, with speeds up to `2^24`, the program with checked integers does the
same as the one with unbounded integers. -/
theorem C113_same (fl : ℝ → ℝ) (R : FloatRounding fl) (odd : ∀ x, fl (-x) = -fl x) (pw : ℝ → ℝ → ℝ) (hpw : FloatPow pw)
    (lib : Lib) (hlib : FloatLib lib) (cfg : Xy) (o : Options) (layer : Option (List Char)) (e : Rounded.Env)
    (hes : e.stepScale = fun i => (cfg.stepper i).stepsPerMillimeter)
    (hM : Machine (svgALimitF fl cfg o.aMax) (vLimitF fl cfg o.vMax)) (hb : ∀ i, vLimitF fl cfg o.vMax i ≤ 2 ^ 24)
    (hf : Searches e) (he : FloatCurves fl pw lib.sin lib.cos e)
    (v : ℝ) (hvd : drawSpeedF fl cfg o.drawSpeed = v) (S M D ε κ : ℝ) (N m : ℕ)
    (L : CurveLimits e (svgALimitF fl cfg o.aMax) (vLimitF fl cfg o.vMax) v S M D ε κ N m)
    (hr : ∀ i, M * e.stepScale i ≤ 2 ^ 26)
    (ρ : Axis → ℝ) (hρ : ∀ i, 387 / 100 * S + 1 / 2 + 3 * (N * (1 / 1000000 + 1 / 10 ^ 12) * e.stepScale i) ≤ ρ i)
    (n : ℕ) (hn : o.repeats.getD 1 = n) (hn1 : 1 ≤ n) (hi : 1 ≤ o.intensity.getD 5 ∧ o.intensity.getD 5 ≤ 100)
    (htps : cfg.ticksPerSecond < 2 ^ 31) (doc : List XmlEvent) (p0 : Vec) (rest : List Seg)
    (hread : parseDocumentF fl lib (keepOf layer) .identity doc = some (.ok (.goTo p0 :: rest)))
    (hN : rest.length < N) (hfit : ∀ P : Axis → ℤ, ((∀ i, P i = 0) ∨ 2 ≤ n ∧ AtEnd e.stepScale ρ p0 rest P) →
        FloatFits fl e.stepScale M (m * v) D ε κ (v / 100) ρ p0 rest P) (port : Port) :
    CheckedSvg.svgProgram fl lib cfg o layer e doc port = svgProgramF fl lib cfg o layer e doc port := by
  subst hvd
  set aMax := svgALimitF fl cfg o.aMax with ea
  set vMax := vLimitF fl cfg o.vMax with ev
  have hw : weightOf (o.intensity.getD 5) ≠ 0 := by
    have := (C85_weight (o.intensity.getD 5) (by omega) hi.2).2.2.2.1
    omega
  have hs : ∀ i, 0 < e.stepScale i := fun i => lt_of_lt_of_le (by norm_num) (L.scale i)
  have hF := hfit (fun _ => 0) (.inl fun _ => rfl)
  have hM0 : 0 ≤ M := (abs_nonneg _).trans (hF.bounded .x)
  have hp0 : ∀ i, |(((((Ctx.new aMax vMax).setWeight (weightOf (o.intensity.getD 5))).channels i).pos : ℤ) : ℝ)| ≤
      2 * M * e.stepScale i + 4 * S + 2 := by
    intro i
    have := hs i
    have := L.one
    simp only [Ctx.setWeight, Ctx.new, Int.cast_zero, abs_zero]
    positivity
  obtain ⟨c1, k1, k2, k3, k4, k5⟩ := times_checked R odd hpw hlib.trig hM hb hf he L hr hρ hN n
    (c := (Ctx.new aMax vMax).setWeight (weightOf (o.intensity.getD 5))) (.step (op := .setWeight _) .new trivial rfl)
    (fun i => by simpa [Ctx.setWeight, Ctx.new] using (zero_le_one.trans (hM.v1 i))) hp0 hw (fun _ => hF)
    (fun h2 P hP => hfit P (.inr ⟨h2, hP⟩))
  have hpos : ∀ i, |(c1.channels i).pos| ≤ vMax i * 65535 := by
    intro i
    have h1 := k5 i
    have h2 : (3 : ℝ) * M * e.stepScale i + 5 * S + 5 ≤ vMax i * 65535 := L.reach i
    have h3 := mul_nonneg hM0 (hs i).le
    have h4 := L.one
    have : |((c1.channels i).pos : ℝ)| ≤ ((vMax i * 65535 : ℤ) : ℝ) := by
      push_cast
      linarith
    exact_mod_cast this
  obtain ⟨-, -, av⟩ := k3.reach.inv
  have fits : ∀ i, FitsI64 (c1.limits i 0 0) := by
    intro i
    have h1 := hb i
    refine ⟨?_, ?_, ?_, ?_, ?_, ?_, ?_⟩ <;> simp only [Ctx.limits, av.1, av.2.1]
    · exact hM.a1 i
    · have := hM.a2 i
      norm_num
      omega
    · exact hM.v1 i
    · norm_num at *
      omega
    · exact k4 i
    · simpa using zero_le_one.trans (hM.v1 i)
    · rw [zero_sub, abs_neg]
      refine (hpos i).trans ?_
      norm_num at *
      omega
  obtain ⟨c2, c', T, e1, e2, e3, -⟩ := Picture.home hM k3 k4 hpos
  have e1' : Checked.stepGotoSpeed c1 0 0 0 0 = some c2 := Checked.stepGotoSpeed_ge (fits .x) (fits .y) (by
    intro i
    refine (hpos i).trans ?_
    have := hb i
    norm_num at *
    omega) (by norm_num) (by norm_num) c2 e1
  have ee : ({ e with stepScale := fun i => (cfg.stepper i).stepsPerMillimeter } : Rounded.Env) = e := by
    rw [← hes]
  have nn : (o.repeats.getD 1).toNat = n := by omega
  have hwt : CheckedSvg.weight (o.intensity.getD 5) = some (weightOf (o.intensity.getD 5)) := by
    have : toI32 (o.intensity.getD 5 * 254) = some (o.intensity.getD 5 * 254) := by
      unfold toI32
      rw [if_pos (by constructor <;> omega)]
    unfold CheckedSvg.weight
    rw [this]
    rfl
  have hmul : Raster.mulU32 2 cfg.ticksPerSecond = some (2 * cfg.ticksPerSecond) := by
    unfold Raster.mulU32
    rw [if_pos (by norm_num at htps; omega)]
  have ev1 : CheckedSvg.svgEvents fl e aMax vMax (weightOf (o.intensity.getD 5)) (.goTo p0 :: rest) (drawSpeedF fl cfg o.drawSpeed) n = some c' := by
    unfold CheckedSvg.svgEvents
    simp only [k1, e1', e2, e3, Option.bind_eq_bind, Option.bind_some]
  have ev2 : svgEventsF fl e aMax vMax (weightOf (o.intensity.getD 5)) (.goTo p0 :: rest) (drawSpeedF fl cfg o.drawSpeed) n = some c' := by
    unfold svgEventsF
    simp only [k2, e1, e2, e3, Option.bind_eq_bind, Option.bind_some]
  unfold CheckedSvg.svgProgram svgProgramF
  simp only [hmul, Option.bind_eq_bind, Option.bind_some]
  rw [if_neg (by omega), if_neg (by omega), hread]
  simp only [hwt, ee, nn, ← ea, ← ev, ev1, ev2, Option.bind_some]
  rfl

/-- C113: so a document as in C104 is burnt by the program with checked integers too, which does not panic. -/
theorem C113_program (fl : ℝ → ℝ) (R : FloatRounding fl) (odd : ∀ x, fl (-x) = -fl x) (pw : ℝ → ℝ → ℝ) (hpw : FloatPow pw)
    (lib : Lib) (hlib : FloatLib lib) (hang : FloatAngles lib) (cfg : Xy) (o : Options) (layer : Option (List Char)) (e : Rounded.Env)
    (hes : e.stepScale = fun i => (cfg.stepper i).stepsPerMillimeter)
    (hM : Machine (svgALimitF fl cfg o.aMax) (vLimitF fl cfg o.vMax)) (hb : ∀ i, vLimitF fl cfg o.vMax i ≤ 2 ^ 24)
    (hf : Searches e) (he : FloatCurves fl pw lib.sin lib.cos e)
    (v : ℝ) (hvd : drawSpeedF fl cfg o.drawSpeed = v) (S M D ε κ : ℝ) (N m : ℕ)
    (L : CurveLimits e (svgALimitF fl cfg o.aMax) (vLimitF fl cfg o.vMax) v S M D ε κ N m)
    (hr : ∀ i, M * e.stepScale i ≤ 2 ^ 26)
    (ρ : Axis → ℝ) (hρ : ∀ i, 387 / 100 * S + 1 / 2 + 3 * (N * (1 / 1000000 + 1 / 10 ^ 12) * e.stepScale i) ≤ ρ i)
    (n : ℕ) (hn : o.repeats.getD 1 = n) (hn1 : 1 ≤ n) (hi : 1 ≤ o.intensity.getD 5 ∧ o.intensity.getD 5 ≤ 100)
    (htps : cfg.ticksPerSecond ≠ 0) (htps' : cfg.ticksPerSecond < 2 ^ 31)
    (f : Forest) (heven : f.Even fl lib (keepOf layer)) (l : List Drawing) (hl : l ≠ []) (hv : ∀ d ∈ l, d.Valid)
    (hp : f.paths (keepOf layer) .identity = some (l.map fun d => (d.tr, d.text)))
    (z : List Size) (hz : f.sizes (keepOf layer) ⟨.identity, 0⟩ = some z) (h q : ℕ) (B : ℝ) (δ : Axis → ℝ)
    (hread : List.Forall₂ (fun d s => Readable δ d s ∨ ArcsReadable h q B δ d s) l z)
    (hfit : ∀ p0 rest, parseDocumentF fl lib (keepOf layer) .identity f.events = some (.ok (.goTo p0 :: rest)) →
      rest.length < N ∧ ∀ P : Axis → ℤ, ((∀ i, P i = 0) ∨ 2 ≤ n ∧ AtEnd e.stepScale ρ p0 rest P) →
        FloatFits fl e.stepScale M (m * v) D ε κ (v / 100) ρ p0 rest P)
    (θ : Axis → ℝ) (hθ : ∀ i, 101 / 200 + δ i * e.stepScale i ≤ θ i) :
    ∃ (es : List Event) (t : ℕ → ℕ) (T : ℕ), t 0 = 0 ∧ t n < T ∧
      (∀ k < n, Burnt e.stepScale (weightOf (o.intensity.getD 5)) (svgALimitF fl cfg o.aMax) (vLimitF fl cfg o.vMax) es (t k) (t (k + 1))
        (picture l) (fun i => 2 * θ i + e.stepScale i / 1000000)
        (fun i => 386 / 100 * S + θ i + (N * (1 / 1000000 + 1 / 10 ^ 12) + N * D) * e.stepScale i)
        (fun i => 386 / 100 * S + θ i + (N * (1 / 1000000 + 1 / 10 ^ 12) + N * D + 13 / 10 * v) * e.stepScale i)) ∧
      (∀ w0 τ, t n ≤ τ → weightAt w0 es τ = 0) ∧
      (∀ i τ, t n ≤ τ → |accAt i es τ| ≤ svgALimitF fl cfg o.aMax i ∧ |velAt i es (τ + 1)| ≤ vLimitF fl cfg o.vMax i) ∧
      (∀ i τ, T ≤ τ → velAt i es τ = 0 ∧ posAt i es τ = 0) ∧
      (∀ port port', CheckedSvg.svgProgram fl lib cfg o layer e f.events port = some (some port') →
        ∃ (r0 : List Char) (t0 : ℤ) (rs : List Round), readInt r0 = some t0 ∧
          (accepted rs).map decodeLine = (Spec.absolute (t0 + 128) es).map some ∧
          port'.log = port.log ++ ((['T'], r0) :: rs).flatMap Round.acts) ∧
      ∀ (port : Port) (r0 : List Char) (t0 : ℤ) (full : List ℕ) (d : ℕ), full.length = es.length → '\n' ∉ r0 →
        readInt r0 = some t0 → i64Min ≤ t0 ∧ t0 ≤ i64Max →
        Delivers port.input port.reads (r0 ++ '\n' :: full.flatMap answers) d → (∀ n, port.writeOk n = true) →
        ∃ port', CheckedSvg.svgProgram fl lib cfg o layer e f.events port = some (some port') := by
  obtain ⟨p0, rest, d1, d2⟩ := C103_document fl R lib hlib hang (keepOf layer) f heven l hl hv hp z hz h q B δ hread
  obtain ⟨hN, hF⟩ := hfit p0 rest d1
  simp only [C113_same fl R odd pw hpw lib hlib cfg o layer e hes hM hb hf he v hvd S M D ε κ N m L hr ρ hρ n hn hn1 hi htps' f.events
    p0 rest d1 hN hF]
  exact C104_program fl R odd pw hpw lib hlib hang cfg o layer e hes hM hf he v hvd S M D ε κ N m L hr ρ hρ n hn hn1 hi htps f heven l
    hl hv hp z hz h q B δ hread hfit θ hθ

/-- C113: a configuration with `2^31` or more ticks per second panics, whatever else is given. -/
theorem C113_ticks (fl : ℝ → ℝ) (lib : Lib) (cfg : Xy) (o : Options) (layer : Option (List Char)) (e : Rounded.Env)
    (doc : List XmlEvent) (port : Port) (h : 2 ^ 31 ≤ cfg.ticksPerSecond) :
    CheckedSvg.svgProgram fl lib cfg o layer e doc port = none := by
  unfold CheckedSvg.svgProgram
  have : Raster.mulU32 2 cfg.ticksPerSecond = none := by
    unfold Raster.mulU32
    rw [if_neg (by norm_num at h; omega)]
  rw [this]
  rfl

/-- The document of C103, in `f64` arithmetic and with checked integers: the program ends normally. -/
theorem round_runs (pw : ℝ → ℝ → ℝ) (hpw : FloatPow pw) (lib : Lib) (hlib : FloatLib lib) (hang : FloatAngles lib)
    (hat : ∀ y x, double (lib.atan2 y x) = lib.atan2 y x) (e : Rounded.Env) (he : e.stepScale = fun _ => 80)
    (hf : Searches e) (hC : FloatCurves double pw lib.sin lib.cos e) :
    ∃ port port', CheckedSvg.svgProgram double lib quickXy ⟨none, none, none, some 1, some 100⟩ none e roundDoc.events port =
      some (some port') := by
  have R := C90_double
  obtain ⟨v, hvd, hv, L, hfit⟩ := round_fits lib hang hat e he
  obtain ⟨ha, hb'⟩ := quick_limitsF
  obtain ⟨es, -, -, -, -, -, -, -, -, -, h6⟩ := C113_program double R C93_double_odd pw hpw lib hlib hang quickXy
    ⟨none, none, none, some 1, some 100⟩ none e (by rw [he]; rfl)
    (by rw [ha, hb']; exact ⟨by norm_num, by norm_num, by norm_num, by norm_num, by norm_num⟩) (by rw [hb']; norm_num) hf hC v hvd
    1 100 (1 / 10 ^ 6) (1 / 10 ^ 6) (1 / 9) 3 8 (by rw [ha, hb']; exact L) (fun i => by rw [he]; norm_num)
    (fun _ => 5) (fun i => by rw [he]; norm_num) 1 rfl le_rfl (by simp) (by decide) (by decide)
    roundDoc (round_even _ _) [roundDrawing] (by simp) (by simpa using round_valid) round_paths _ round_sizes 2 20 10 _
    (.cons (.inr round_readable) .nil) hfit (fun _ => 525 / 1000) (fun i => by rw [he]; norm_num)
  refine ⟨quickPort (String.ofList ("17\n".toList ++ (List.replicate es.length 0).flatMap answers)), ?_⟩
  refine h6 _ ['1', '7'] 17 (List.replicate es.length 0) _ (by simp) (by decide) (by decide)
    (by decide) (delivers_quick _ _ 0 ?_) (fun _ => rfl)
  intro i hi
  simp only [quickPort, String.toList_ofList, Nat.zero_add]
  have : "17\n".toList ++ (List.replicate es.length 0).flatMap answers =
      ['1', '7'] ++ '\n' :: (List.replicate es.length 0).flatMap answers := rfl
  rw [this, List.getElem?_eq_getElem hi]

end StepperPaths.Props
