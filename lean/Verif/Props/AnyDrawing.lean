import Verif.Proof.AnyDraw
import Verif.Props.DrawSpeed
import Verif.Props.Home

/-!
C128: whatever `svg_path` is given, a run that ends normally has burnt the segments of the path in their order, each repetition once,
and nothing else.
-/

namespace StepperPaths.Props
open Coords Curves Context Control Spec Proof IntegerCurve Rounded Config StepperPaths.Cli
open Draw (Seg Past coord)
open Special (Num)

theorem draws_mono {fl : ℝ → ℝ} {e : Rounded.Env} {v : Num} {w : ℤ} {es es' : List Event} {err : Axis → ℤ} {t T : ℕ} {p0 : Vec} {path : List Seg}
    (h : DrawsPath fl e v w es err t T p0 path) (hacc : ∀ i, ∀ τ < T, accAt i es' τ = accAt i es τ)
    (hw : ∀ w0, ∀ τ < T, weightAt w0 es' τ = weightAt w0 es τ) : DrawsPath fl e v w es' err t T p0 path := by
  obtain ⟨segs, n, l, G, D, h1, h2, h3, h4, h5⟩ := h
  refine ⟨segs, n, l, G, D, ?_, h2, h3, h4, h5.mono hacc hw⟩
  have vis : ∀ p, FloatVisited fl e es t T p → FloatVisited fl e es' t T p := by
    rintro p ⟨τ, k1, k2, k3⟩
    exact ⟨τ, k1, k2, fun i => (Raster.posAt_congr (hacc i) k2).trans (k3 i)⟩
  clear h2
  induction h1 with
  | nil => exact .nil
  | keep s _ ih => exact .keep s ih
  | skip hp _ ih => exact .skip (vis _ hp) ih

theorem DrawsPath.le {fl : ℝ → ℝ} {e : Rounded.Env} {v : Num} {w : ℤ} {es : List Event} {err : Axis → ℤ} {t T : ℕ} {p0 : Vec} {path : List Seg}
    (h : DrawsPath fl e v w es err t T p0 path) : t ≤ T := by
  obtain ⟨_, _, _, _, _, -, -, -, -, h⟩ := h
  exact h.le

theorem DrawsTimes.le {fl : ℝ → ℝ} {e : Rounded.Env} {v : Num} {w : ℤ} {es : List Event} {path : List Seg} {n t T : ℕ}
    (h : DrawsTimes fl e v w es path n t T) : t ≤ T := by
  induction h with
  | none => exact le_rfl
  | again _ h _ ih => exact (DrawsPath.le h).trans ih

theorem times_mono {fl : ℝ → ℝ} {e : Rounded.Env} {v : Num} {w : ℤ} {es es' : List Event} {path : List Seg} {n t T : ℕ}
    (h : DrawsTimes fl e v w es path n t T) (hacc : ∀ i, ∀ τ < T, accAt i es' τ = accAt i es τ)
    (hw : ∀ w0, ∀ τ < T, weightAt w0 es' τ = weightAt w0 es τ) : DrawsTimes fl e v w es' path n t T := by
  induction h with
  | none t => exact .none t
  | @again n t t1 T p0 err h1 h2 h3 ih =>
    have l2 := DrawsPath.le h2
    have l3 := DrawsTimes.le h3
    refine .again (fun i => ?_) (draws_mono h2 (fun i τ hτ => hacc i τ (by omega)) fun w0 τ hτ => hw w0 τ (by omega)) (ih hacc hw)
    rw [h1 i, Raster.posAt_congr (hacc i) (l2.trans l3)]

/-- C128: a call of `draw_curves` that returns, from speeds that are not above the limits, has drawn the path up to the error that it
returns, and has switched off the laser. -/
theorem C128_draw (fl : ℝ → ℝ) (R : FloatRounding fl) (e : Rounded.Env) (aMax vMax : Axis → ℤ)
    (L : ∀ i, 1 ≤ aMax i ∧ 1 ≤ vMax i ∧ vMax i < 2 ^ 31) (c c' : Ctx) (S : Sync aMax vMax c)
    (hv : ∀ i, (c.channels i).v ≤ vMax i ∧ |(c.channels i).v| ≤ 2 ^ 31) (path : List Seg) (hne : path ≠ []) (v : Num) (err : Axis → ℤ)
    (h : Special.drawCurves fl e c path v = some (c', err)) (t t' : ℕ) (ht : c.ticks = some t) (ht' : c'.ticks = some t') :
    DrawsPath fl e v c.curveWeight c'.events err t t' (floatStart fl e c) path ∧
    (∀ w0, ∀ τ ≥ t', weightAt w0 c'.events τ = 0) ∧
    (∀ i, ∀ τ < t, accAt i c'.events τ = accAt i c.events τ) ∧ ∀ w0, ∀ τ < t, weightAt w0 c'.events τ = weightAt w0 c.events τ := by
  have L' : Limits aMax vMax := ⟨fun i => (L i).1, fun i => (L i).2.1, fun i => (L i).2.2⟩
  have A : AnyDraw.Along aMax vMax c.curveWeight c := ⟨S, rfl, hv⟩
  rw [Draw.ticks_of_sync S, Option.some.injEq] at ht
  unfold Special.drawCurves at h
  rw [if_neg (by simpa using hne)] at h
  obtain ⟨s, hs, h⟩ := Option.bind_eq_some_iff.1 h
  obtain ⟨c1, h1, h⟩ := Option.bind_eq_some_iff.1 h
  cases h
  have hf : AnyDraw.finish fl e v path (Rounded.init fl e c) = some s := hs
  have K := AnyDraw.finish_kept L' R (s := Rounded.init fl e c) A hf
  obtain ⟨D, d1, d2⟩ := AnyDraw.finish_strokes L' R (s := Rounded.init fl e c) A hf
  obtain ⟨segs', n, l, G, D', g1, g2, g3, g4, g5⟩ := AnyDraw.finish_groups (k := 0) (g := []) L' R
    (s := Rounded.init fl e c) A le_rfl hf ⟨.nil, by simp⟩ (fun _ => Draw.within_refl (by simp) _)
  rw [d1, List.append_cancel_left_eq] at g3
  subst g3
  simp only [Nat.zero_add, List.nil_append] at g4 g5
  obtain ⟨S1, q1, P1, -, -, q5, q6⟩ := Draw.weight_now K.along.sync h1
  rw [Draw.ticks_of_sync S1, Option.some.injEq, q1] at ht'
  have P := AnyDraw.past_trans S K.along.sync K.past P1
  have ci : (Rounded.init fl e c).ctx = c := rfl
  rw [ci, ht, ht'] at d2 g1
  refine ⟨draws_mono ⟨segs', n, l, G, D, g1, g2, g4, g5, d2⟩ (fun i τ _ => q5 i τ) fun w0 τ hτ => ?_, fun w0 τ hτ => ?_, fun i τ hτ => ?_, ?_⟩
  · rw [q6, if_pos (by omega)]
  · rw [q6, if_neg (by omega), K.along.mw]
  · exact P.acc i τ (by rw [Raster.same_ticks S i, ht]; exact hτ)
  · rw [← ht]
    exact P.weight

theorem times_draw {fl : ℝ → ℝ} (R : FloatRounding fl) {e : Rounded.Env} {aMax vMax : Axis → ℤ} (L : Limits aMax vMax) {w : ℤ}
    {path : List Seg} {v : Num} {n : ℕ} : ∀ {c c' : Ctx}, AnyDraw.Along aMax vMax w c → Special.drawTimes fl e path v n c = some c' →
      AnyDraw.Along aMax vMax w c' ∧ Past c c' ∧ DrawsTimes fl e v w c'.events path n (c.channels .x).ticks (c'.channels .x).ticks := by
  induction n with
  | zero =>
    intro c c' A h
    cases h
    exact ⟨A, .refl _, .none _⟩
  | succ n ih =>
    intro c c' A h
    obtain ⟨⟨c1, err⟩, h1, h⟩ := Option.bind_eq_some_iff.1 h
    have A1 : AnyDraw.Along aMax vMax w c1 := (AnyDraw.Along.draws L w).curves A h1
    obtain ⟨A', P', D'⟩ := ih A1 h
    have key : Past c c1 ∧ DrawsPath fl e v w c1.events err (c.channels .x).ticks (c1.channels .x).ticks (floatStart fl e c) path := by
      by_cases hne : path = []
      · subst hne
        simp only [Special.drawCurves, List.isEmpty_nil, if_true, Option.some.injEq, Prod.mk.injEq] at h1
        obtain ⟨rfl, rfl⟩ := h1
        exact ⟨.refl _, [], 0, [], [], [], .nil, .nil _, rfl, .nil, .nil _⟩
      · obtain ⟨k1, k2, k3, k4⟩ := C128_draw fl R e aMax vMax (fun i => ⟨L.acc i, L.one i, L.big i⟩) c c1 A.sync A.now path hne v err h1 _ _
          (Draw.ticks_of_sync A.sync) (Draw.ticks_of_sync A1.sync)
        refine ⟨⟨DrawsPath.le k1, fun i τ hτ => k3 i τ ?_, k4, by rw [A1.cw, A.cw]⟩, by rw [A.cw] at k1; exact k1⟩
        rw [← Raster.same_ticks A.sync i]
        exact hτ
    obtain ⟨P, D⟩ := key
    have P2 := AnyDraw.past_trans A.sync A1.sync P P'
    refine ⟨A', P2, .again (p0 := floatStart fl e c) (err := err) (fun i => ?_) (draws_mono D (fun i τ hτ => ?_) P'.weight) D'⟩
    · rw [AnyDraw.past_pos A.sync P2 i le_rfl, AnyDraw.pos_now A.sync i]
      cases i <;> rfl
    · exact P'.acc i τ (by rw [Raster.same_ticks A1.sync i]; exact hτ)

/-- The path is drawn `n` times from the first tick on, and after that the laser is off. -/
def DrawsOnly (fl : ℝ → ℝ) (e : Rounded.Env) (v : Num) (w : ℤ) (path : List Seg) (n : ℕ) (es : List Event) : Prop :=
  ∃ T, DrawsTimes fl e v w es path n 0 T ∧ ∀ w0, ∀ τ ≥ T, weightAt w0 es τ = 0

/-- C128: whatever `svg_path` draws, a run that gets as far as having events burns the path `n` times and nothing else. -/
theorem C128_svg_events (fl : ℝ → ℝ) (R : FloatRounding fl) (e : Rounded.Env) (aMax vMax : Axis → ℤ) (ha : ∀ i, 0 ≤ aMax i)
    (hv : ∀ i, vMax i < 2 ^ 31) (w : ℤ) (path : List Seg) (v : Num) (n : ℕ) (c : Ctx)
    (h : Special.svgEvents fl e aMax vMax w path v n = some c) : DrawsOnly fl e v w path n c.events := by
  have L := Limits.of_svg ha hv h
  obtain ⟨c1, c2, h1, h2, h3⟩ := svg_last h
  obtain ⟨A, -, D⟩ := times_draw R L (AnyDraw.Along.new L w) h1
  have h2' := Checked.stepGotoSpeed_le _ _ _ _ _ _ h2
  obtain ⟨S2, P2⟩ := Raster.goto_past A.sync h2'
  obtain ⟨-, -, -, -, -, -, -, -, w2⟩ := goto_spec A.sync.inv.1 h2'
  obtain ⟨-, -, -, -, -, -, -, -, -, -, -, w3, -⟩ := readEvents_spec S2.inv.1 h3
  have P := AnyDraw.past_trans A.sync S2 P2 (read_past S2 h3).2
  refine ⟨(c1.channels .x).ticks, times_mono D (fun i τ hτ => P.acc i τ ?_) P.weight, fun w0 τ hτ => ?_⟩
  · rw [Raster.same_ticks A.sync i]
    exact hτ
  · rw [w3, w2, if_neg (not_lt.2 hτ), S2.reach.inv.2.2.2.2, A.mw, ite_self]

/-- C128: `svg_path` with a device. -/
theorem C128_svg (fl : ℝ → ℝ) (R : FloatRounding fl) (lib : Lib) (e : Rounded.Env) (cfg : Xy) (o : SvgNumbers) (layer : Option Cli.Arg)
    (doc : List Svg.XmlEvent) (p p' : Port) (h : Special.svgAny fl lib e cfg o layer doc (some p) = some (some p')) :
    ∃ es path, Sent es p p' ∧ Rounded.parseDocumentF fl lib (Program.keepOf layer) .identity doc = some (.ok path) ∧
      DrawsOnly fl { e with stepScale := fun i => (cfg.stepper i).stepsPerMillimeter }
        (Special.drawSpeed fl cfg (o.drawSpeed.map (.ofF64 fl))) (Program.weightOf (o.intensity.getD 5)) path (o.repeats.getD 1).toNat es := by
  unfold Special.svgAny at h
  obtain ⟨w, hw, h⟩ := Option.bind_eq_some_iff.1 h
  obtain rfl : w = Program.weightOf (o.intensity.getD 5) := by
    obtain ⟨a, ha, hw⟩ := Option.bind_eq_some_iff.1 hw
    cases hw
    rw [(toI32_eq ha).1]
    rfl
  split at h
  · rename_i path hp
    obtain ⟨c, hc, h⟩ := Option.bind_eq_some_iff.1 h
    obtain ⟨_, -, h⟩ := Option.bind_eq_some_iff.1 h
    simp only at h
    obtain ⟨⟨r, q⟩, hr, h⟩ := Option.bind_eq_some_iff.1 h
    have key := C128_svg_events fl R _ _ _ (svgALimit_nonneg _ _ _) (vLimit_lt _ _ _) _ _ _ _ _ hc
    cases r with
    | error err => cases h
    | ok u =>
      cases h
      exact ⟨c.events, path, C35_accepted _ _ _ hr, hp, key⟩
  · cases h

/-- A run of `svg_path` that ends normally with a device, and what it has used. -/
theorem svgCommand_used {run : Xy → SvgNumbers → Option Cli.Arg → List Svg.XmlEvent → Option Port → Option (Option Port)}
    {w : World (List Svg.XmlEvent)} {args : List Cli.Arg} {p' : Port} (h : (svgCommand run w args).out = .done (some p'))
    (hn : ∀ cfg o layer doc q, run cfg o layer doc none ≠ some (some q)) :
    ∃ m name file dev p cfg o doc, getopts svgOpts args = some m ∧ m.str "config" = some name ∧ m.free.head? = some file ∧
      m.str "device" = some dev ∧ w.config name = some cfg ∧ w.picture file = some doc ∧ w.device dev = some p ∧ svgNumbers m = .ok o ∧
      run cfg o (m.str "layer") doc (some p) = some (some p') := by
  unfold svgCommand at h
  cases hg : getopts svgOpts args with
  | none => simp [hg] at h
  | some m =>
    simp only [hg] at h
    by_cases hh : m.present "h" = true
    · simp [hh] at h
    rw [if_neg hh] at h
    cases hf : m.free with
    | nil => simp [hf] at h
    | cons file rest =>
      cases hc : m.str "config" with
      | none => simp [hf, hc] at h
      | some name =>
        simp only [hf, hc] at h
        cases hcfg : w.config name with
        | none => simp [hcfg] at h
        | some cfg =>
          simp only [hcfg] at h
          by_cases ht : 2 * cfg.ticksPerSecond > 4294967295
          · simp [ht] at h
          rw [if_neg ht] at h
          cases ho : svgNumbers m with
          | error msg => simp [ho] at h
          | ok o =>
            simp only [ho] at h
            cases hd : m.str "device" with
            | none =>
              simp only [hd, Option.map_none, Option.bind_none] at h
              cases hdoc : w.picture file with
              | none => simp [hdoc] at h
              | some doc =>
                simp only [hdoc] at h
                cases hr : run cfg o (m.str "layer") doc none with
                | none => simp [hr] at h
                | some q =>
                  simp only [hr] at h
                  injection h with h
                  subst h
                  exact absurd hr (hn _ _ _ _ _)
            | some dev =>
              simp only [hd, Option.map_some] at h
              cases hp : w.device dev with
              | none => simp [hp] at h
              | some p =>
                simp only [hp, Option.bind_some, id] at h
                cases hdoc : w.picture file with
                | none => simp [hdoc] at h
                | some doc =>
                  simp only [hdoc] at h
                  cases hr : run cfg o (m.str "layer") doc (some p) with
                  | none => simp [hr] at h
                  | some q =>
                    simp only [hr] at h
                    injection h with h
                    subst h
                    exact ⟨m, name, file, dev, p, cfg, o, doc, rfl, hc, by rw [hf]; rfl, hd, hcfg, hdoc, hp, ho, hr⟩

/-- C128: `svg_path` with any arguments and any files: what is drawn is the document in the file that is named, with the options that are
given, and the configuration that is named. -/
theorem C128_svg_command (fl : ℝ → ℝ) (R : FloatRounding fl) (lib : Lib) (e : Rounded.Env) (w : World (List Svg.XmlEvent)) (args : List Cli.Arg)
    (p' : Port) (h : (svgCommand (Special.svgAny fl lib e) w args).out = .done (some p')) :
    ∃ m name file dev p cfg o doc es path, getopts svgOpts args = some m ∧ m.str "config" = some name ∧ m.free.head? = some file ∧
      m.str "device" = some dev ∧ w.config name = some cfg ∧ w.picture file = some doc ∧ w.device dev = some p ∧ svgNumbers m = .ok o ∧
      Sent es p p' ∧ Rounded.parseDocumentF fl lib (Program.keepOf (m.str "layer")) .identity doc = some (.ok path) ∧
      DrawsOnly fl { e with stepScale := fun i => (cfg.stepper i).stepsPerMillimeter }
        (Special.drawSpeed fl cfg (o.drawSpeed.map (.ofF64 fl))) (Program.weightOf (o.intensity.getD 5)) path (o.repeats.getD 1).toNat es := by
  obtain ⟨m, name, file, dev, p, cfg, o, doc, h1, h2, h3, h4, h5, h6, h7, h8, h9⟩ := svgCommand_used h svgAny_none
  obtain ⟨es, path, k1, k2, k3⟩ := C128_svg fl R lib e cfg o (m.str "layer") doc p p' h9
  exact ⟨m, name, file, dev, p, cfg, o, doc, es, path, h1, h2, h3, h4, h5, h6, h7, h8, k1, k2, k3⟩

/-! ### What follows -/

theorem strokes_at {fl : ℝ → ℝ} {e : Rounded.Env} {v : Num} {w : ℤ} {es : List Event} {err : Axis → ℤ} {t T : ℕ} {l : List (Vec × Curve)}
    (h : AnyStrokes fl e v w es err t l T) (w0 : ℤ) (τ : ℕ) (h1 : t ≤ τ) (h2 : τ < T) :
    weightAt w0 es τ = 0 ∨ weightAt w0 es τ = w ∧ ∃ s ∈ l, ∃ t1 a b, AnyStroke fl e v w es t1 a b s.1 s.2 err ∧ a ≤ τ ∧ τ < b := by
  induction h with
  | nil => omega
  | @cons t a b T p k l S _ ih =>
    by_cases hb : b ≤ τ
    · refine (ih hb h2).imp id ?_
      rintro ⟨q, s, hs, r⟩
      exact ⟨q, s, .tail _ hs, r⟩
    · by_cases ha : τ < a
      · exact .inl (S.off w0 τ h1 ha)
      · exact .inr ⟨S.on w0 τ (by omega) (by omega), _, .head _, t, a, b, S, by omega, by omega⟩

/-- C128: whenever the laser is on, it has the power that was asked for, and the head is on its way to the next point of one of the
strokes, up to the error. -/
theorem C128_on (fl : ℝ → ℝ) (e : Rounded.Env) (v : Num) (w : ℤ) (path : List Seg) (n : ℕ) (es : List Event)
    (h : DrawsOnly fl e v w path n es) (w0 : ℤ) (τ : ℕ) (hτ : weightAt w0 es τ ≠ 0) :
    weightAt w0 es τ = w ∧ ∃ t T p0 err, DrawsPath fl e v w es err t T p0 path ∧ t ≤ τ ∧ τ < T ∧
      ∃ start curve k, k < burnTicks fl curve.length v ∧ ∀ i, |posAt i es (τ + 1) - burnPlace fl e start curve v i (k + 1)| ≤ err i := by
  obtain ⟨T, h, off⟩ := h
  have hT : τ < T := by
    by_contra hc
    exact hτ (off w0 τ (by omega))
  have key : ∀ {n t T : ℕ}, DrawsTimes fl e v w es path n t T → t ≤ τ → τ < T →
      ∃ t T p0 err, DrawsPath fl e v w es err t T p0 path ∧ t ≤ τ ∧ τ < T := by
    intro n t T h
    induction h with
    | none => intro h1 h2; omega
    | @again n t t1 T p0 err _ h2 h3 ih =>
      intro k1 k2
      by_cases hc : τ < t1
      · exact ⟨t, t1, p0, err, h2, k1, hc⟩
      · exact ih (by omega) k2
  obtain ⟨t, T, p0, err, D, k1, k2⟩ := key h (by omega) hT
  have D' := D
  obtain ⟨_, _, _, _, S, -, -, -, -, hS⟩ := D'
  obtain ⟨q, s, -, t1, a, b, hs, ha, hb⟩ := (strokes_at hS w0 τ k1 k2).resolve_left hτ
  refine ⟨q, t, T, p0, err, D, k1, k2, s.1, s.2, τ - a, by have := hs.len; omega, fun i => ?_⟩
  have := hs.follows i (τ - a) (by have := hs.len; omega)
  rwa [show a + (τ - a + 1) = τ + 1 by omega] at this

/-- C128: the number of ticks that the laser is on while strokes are played is the sum of their numbers of ticks. -/
theorem C128_exposure (fl : ℝ → ℝ) (e : Rounded.Env) (v : Num) (w : ℤ) (hw : w ≠ 0) (es : List Event) (err : Axis → ℤ) (t T : ℕ)
    (l : List (Vec × Curve)) (h : AnyStrokes fl e v w es err t l T) (w0 : ℤ) :
    ((Finset.Ico t T).filter fun τ => weightAt w0 es τ ≠ 0).card = (l.map fun s => burnTicks fl s.2.length v).sum := by
  induction h with
  | nil => simp
  | @cons t a b T p k l S R ih =>
    have h1 := S.move
    have h2 := S.len
    have h3 := R.le
    rw [List.map_cons, List.sum_cons, ← ih, Finset.card_filter, Finset.card_filter,
      ← Finset.sum_Ico_consecutive _ (show t ≤ b by omega) h3, ← Finset.sum_Ico_consecutive _ h1.le (show a ≤ b by omega),
      Finset.sum_eq_zero, Finset.sum_congr rfl (g := fun _ => 1)]
    · simp [h2]
    · intro τ hτ
      rw [Finset.mem_Ico] at hτ
      rw [if_pos]
      rw [S.on w0 τ hτ.1 hτ.2]
      exact hw
    · intro τ hτ
      rw [Finset.mem_Ico] at hτ
      rw [if_neg]
      rw [S.off w0 τ hτ.1 hτ.2]
      simp

/-- C128: a stroke that is shorter than nearly half the way of one tick is not burnt. -/
theorem C128_short (fl : ℝ → ℝ) (R : FloatRounding fl) (length v : ℝ) (h0 : 0 ≤ length) (hv : length ≤ 49 / 100 * v) (hp : 0 < v) :
    burnTicks fl length (.fin v) = 0 := by
  have q0 : 0 ≤ length / v := by positivity
  have q1 : length / v ≤ 49 / 100 := by rw [div_le_iff₀ hp]; exact hv
  have tiny : (2⁻¹ : ℝ) ^ 1075 ≤ 2⁻¹ ^ 10 := pow_le_pow_of_le_one (by norm_num) (by norm_num) (by norm_num)
  have near := R.near (length / v)
  rw [abs_of_nonneg q0] at near
  have hr : Draw.round (fl (length / v)) = 0 := by
    generalize fl (length / v) = x at *
    generalize length / v = q at *
    generalize (2⁻¹ : ℝ) ^ 1075 = η at *
    rw [abs_le] at near
    norm_num at near tiny
    unfold Draw.round
    split
    · rw [Int.floor_eq_zero_iff]
      exact ⟨by linarith, by linarith⟩
    · rw [neg_eq_zero, Int.floor_eq_zero_iff]
      exact ⟨by linarith, by linarith⟩
  have ht := Special.trunc_int 0
  push_cast at ht
  simp [burnTicks, Num.div, hp.ne', Num.round, hr, Num.asI32, ht, Draw.satI32]

/-! ### Examples -/

/-- The quarter circle and the line of C103: they are drawn once, with full power. -/
example (pw : ℝ → ℝ → ℝ) (hpw : FloatPow pw) (lib : Lib) (hlib : FloatLib lib) (hang : FloatAngles lib)
    (hat : ∀ y x, double (lib.atan2 y x) = lib.atan2 y x) (e : Rounded.Env) (he : e.stepScale = fun _ => 80)
    (hf : Searches e) (hC : FloatCurves double pw lib.sin lib.cos e) :
    ∃ p p', Special.svgAny double lib e quickXy ⟨none, none, none, some 1, some 100⟩ none roundDoc.events (some p) = some (some p') ∧
      ∃ es path v, Sent es p p' ∧ DrawsOnly double { e with stepScale := fun _ => 80 } v 254 path 1 es := by
  obtain ⟨p, p', -, h, -⟩ := round_burns pw hpw lib hlib hang hat e he hf hC
  obtain ⟨es, path, h1, h2, h3⟩ := C128_svg double C90_double lib e quickXy _ none _ p p' h
  have he' : (fun i => (quickXy.stepper i).stepsPerMillimeter) = fun _ => (80 : ℝ) := by funext i; cases i <;> norm_num [quickXy]
  rw [he', show Program.weightOf ((some 100 : Option ℤ).getD 5) = 254 by decide] at h3
  exact ⟨p, p', h, es, path, _, h1, h3⟩

/-- The run of C122: the line of 5 mm is drawn with 20 mm for each tick, so it is a stroke, but it is not burnt. -/
example : ∃ c, Special.svgEvents double tenSteps (fun _ => 20) (fun _ => 50) 12 [.goTo ⟨-100, 0⟩, .lineTo ⟨-105, 0⟩] (.fin 20) 1 = some c ∧
    DrawsOnly double tenSteps (.fin 20) 12 [.goTo ⟨-100, 0⟩, .lineTo ⟨-105, 0⟩] 1 c.events ∧ burnTicks double 5 (.fin 20) = 0 :=
  let ⟨c, h, _⟩ := fast_runs.1
  ⟨c, h, C128_svg_events double C90_double tenSteps _ _ (fun _ => by norm_num) (fun _ => by norm_num) _ _ _ _ c h,
    C128_short double C90_double 5 20 (by norm_num) (by norm_num) (by norm_num)⟩

/-- Two strokes of 10 mm and of 5 mm at 2 mm for each tick are burnt in 5 and in 3 ticks. -/
example : burnTicks double 10 (.fin 2) = 5 ∧ burnTicks double 5 (.fin 2) = 3 := by
  have i : ∀ n : ℤ, |n| ≤ 2 ^ 53 → double n = n := C90_double.int
  have n5 : double 5 = 5 := by simpa using i 5 (by norm_num)
  have h := double_exact (k := 5) (j := -1) (by norm_num) (by norm_num)
  norm_num at h
  have r5 := Draw.round_int 5
  have t5 := Special.trunc_int 5
  have t3 := Special.trunc_int 3
  have r : Draw.round (5 / 2) = 3 := by
    unfold Draw.round
    norm_num
  push_cast at r5 t5 t3
  constructor
  · norm_num [burnTicks, Num.div, Num.round, Num.asI32, n5, r5, t5, Draw.satI32]
    rfl
  · norm_num [burnTicks, Num.div, Num.round, Num.asI32, h, r, t3, Draw.satI32]
    rfl

end StepperPaths.Props
