import Verif.Props.AnySpeed
import Verif.Props.Backwards

/-!
C124: whatever the two programs are given, the machine ends exactly where it has started.

A place is counted in half steps, and it is even exactly if the speed is.  So a move that ends at rest cannot miss an even place by
only one half step.
-/

namespace StepperPaths.Props
open Context Control Spec Proof IntegerCurve Rounded Config Raster StepperPaths.Cli
open Draw (Seg)
open Special (Num)
open Program (weightOf)

/-- From the end of the events on the machine is where it was before them. -/
def EndsAtStart (es : List Event) : Prop := ∀ i, ∀ τ ≥ duration es, posAt i es τ = 0

/-- C124: played from rest, the place and the speed are both even or both odd, whatever the events. -/
theorem C124_parity (i : Axis) (es : List Event) (τ : ℕ) : 2 ∣ posAt i es τ - velAt i es τ := by
  have := dist_even 0 (played i es τ)
  simpa [posAt, velAt] using this

example : posAt .x [⟨0, .acc .x 3⟩] 2 = 12 ∧ velAt .x [⟨0, .acc .x 3⟩] 2 = 6 ∧ 2 ∣ posAt .x [⟨0, .acc .x 3⟩] 2 - velAt .x [⟨0, .acc .x 3⟩] 2 :=
  ⟨by decide, by decide, C124_parity _ _ _⟩

/-- C124: a move that returns, from speeds that are not above the limits, ends exactly at its target if target and speed at the
end are both even or both odd, and else one half step beside it. -/
theorem C124_move (aMax vMax : Axis → ℤ) (L : ∀ i, 1 ≤ aMax i ∧ 1 ≤ vMax i ∧ vMax i < 2 ^ 31) (c c' : Ctx) (S : Sync aMax vMax c)
    (hv : ∀ i, (c.channels i).v ≤ vMax i ∧ |(c.channels i).v| ≤ 2 ^ 31) (x y vx vy : ℤ)
    (h : Checked.stepGotoSpeed c x y vx vy = some c') (t' : ℕ) (ht' : c'.ticks = some t') (i : Axis) :
    (2 ∣ both x y i - both vx vy i → posAt i c'.events t' = both x y i) ∧
    (¬ 2 ∣ both x y i - both vx vy i → |posAt i c'.events t' - both x y i| = 1) := by
  obtain ⟨-, g⟩ := C123_move aMax vMax L c c' S hv x y vx vy h _ t' (Draw.ticks_of_sync S) ht'
  obtain ⟨g1, g2, -⟩ := g i
  have e := C124_parity i c'.events t'
  rw [g2] at e
  have g1' := abs_le.1 g1
  constructor <;> intro hd
  · omega
  · have : posAt i c'.events t' - both x y i = 1 ∨ posAt i c'.events t' - both x y i = -1 := by omega
    rcases this with h | h <;> rw [h] <;> rfl

/-- The move of C122 to -1000 with the speed -100 ends exactly there. -/
example : ∃ c c' t', Checked.stepGotoSpeed c (-1000) 0 (-100) 0 = some c' ∧ c'.ticks = some t' ∧ posAt .x c'.events t' = -1000 := by
  obtain ⟨c1, c3, -, -, -, -, h1, h3, -⟩ := Checked.Fast.run_eval
  have S0 : Sync (fun _ => 20) (fun _ => 50) Checked.Fast.p0 := .step (op := .setWeight 12) .new trivial rfl
  obtain ⟨S, q, -⟩ := Draw.weight_now S0 h1
  have S' := (Sync.keeps _ _).cgoto S h3
  have z : ∀ i, (c1.channels i).v = 0 := fun i => by rw [q]; rfl
  exact ⟨c1, c3, _, h3, Draw.ticks_of_sync S', (C124_move (fun _ => 20) (fun _ => 50) (fun _ => by norm_num) c1 c3 S
    (fun i => by rw [z]; norm_num) _ _ _ _ h3 _ (Draw.ticks_of_sync S') .x).1 (by norm_num [both])⟩

theorem ends_at_start {aMax vMax : Axis → ℤ} {c : Ctx} (S : Sync aMax vMax c) (hr : EndsAtRest c.events)
    (h : ∀ i, posAt i c.events (c.channels i).ticks = 0) : EndsAtStart c.events := by
  intro i τ hτ
  rw [((hr τ hτ).2 i).2.2, ← ((hr _ (duration_of_sync S i)).2 i).2.2, h i]

/-- C124: whatever `svg_path` draws, in a run that gets as far as having events the machine ends exactly where it has started. -/
theorem C124_svg_events (fl : ℝ → ℝ) (e : Rounded.Env) (aMax vMax : Axis → ℤ) (ha : ∀ i, 0 ≤ aMax i) (hv : ∀ i, vMax i < 2 ^ 31)
    (w : ℤ) (path : List Seg) (v : Num) (n : ℕ) (c : Ctx) (h : Special.svgEvents fl e aMax vMax w path v n = some c) :
    EndsAtStart c.events := by
  have L := Limits.of_svg ha hv h
  obtain ⟨S, rest, -⟩ := C121_svg_events fl e aMax vMax w path v n c h
  obtain ⟨c1, c2, h1, h2, h3⟩ := svg_last h
  have A := (Along.draws L w 0).times (Along.new L w 0) h1
  exact ends_at_start S rest fun i => home L A.sync A.now h2 h3 i

example : ∃ c, Special.svgEvents double tenSteps (fun _ => 20) (fun _ => 50) 12 [.goTo ⟨-100, 0⟩, .lineTo ⟨-105, 0⟩] (.fin 20) 1 = some c ∧
    (∃ τ, velAt .x c.events τ = -100) ∧ EndsAtStart c.events :=
  let ⟨c, h, hτ⟩ := fast_runs.1
  ⟨c, h, hτ, C124_svg_events double tenSteps (fun _ => 20) (fun _ => 50) (fun _ => by norm_num) (fun _ => by norm_num) _ _ _ _ c h⟩

/-- C124: whatever the picture and the options of `image_raster` are, if the limits of the acceleration are not negative. -/
theorem C124_raster_events (fl : ℝ → ℝ) (cfg : Xy) (o : RasterNumbers) (img : Image) (hi : ∀ x y, img.pixel x y ≤ 255) (c : Ctx)
    (hw : 0 ≤ weightOf (o.intensity.getD 5)) (ha : ∀ i, 0 ≤ Special.rasterALimit fl cfg (o.aMax.map (.ofF64 fl)) i)
    (h : Special.rasterEvents fl cfg o img = some c) : EndsAtStart c.events := by
  obtain ⟨-, rest, -⟩ := C121_raster_events fl cfg o img hi c hw h
  unfold Special.rasterEvents at h
  simp only at h
  obtain ⟨_, -, h⟩ := Option.bind_eq_some_iff.1 h
  have L := Limits.of_raster ha (vLimit_lt _ _ _) h
  have hv := asI32_lt (Num.div fl (Special.width fl cfg (Special.ask fl o img.width img.height))
    (.fin (2 * (img.width * Special.resX fl cfg (Special.ask fl o img.width img.height) img.width) : ℕ))).round
  obtain ⟨k, hN, b, c1, c2, e1, e2, e3⟩ := raster_last h
  have hv0 := (k hv.2).resolve_right (not_lt.2 hv.1)
  have A : Across _ _ c1 := (Across.scans L).rows (Across.turns L hv0) hN (s := (true, _)) (Across.new L _) (by simp) e1
  have S := (Sync.keeps _ _).read ((Sync.keeps _ _).cgoto A.sync e2) e3
  refine ends_at_start S rest fun i => home L A.sync (fun i => ?_) e2 e3 i
  have := A.now i
  have := L.big i
  refine ⟨by omega, ?_⟩
  rw [abs_le]
  norm_num at *
  omega

/-! ### With a device -/

/-- C124: `svg_path` with a device. -/
theorem C124_svg (fl : ℝ → ℝ) (lib : Lib) (e : Rounded.Env) (cfg : Xy) (o : SvgNumbers) (layer : Option Cli.Arg) (doc : List Svg.XmlEvent)
    (p p' : Port) (h : Special.svgAny fl lib e cfg o layer doc (some p) = some (some p')) : ∃ es, Sent es p p' ∧ EndsAtStart es := by
  unfold Special.svgAny at h
  obtain ⟨w, -, h⟩ := Option.bind_eq_some_iff.1 h
  split at h
  · obtain ⟨c, hc, h⟩ := Option.bind_eq_some_iff.1 h
    obtain ⟨_, -, h⟩ := Option.bind_eq_some_iff.1 h
    simp only at h
    obtain ⟨⟨r, q⟩, hr, h⟩ := Option.bind_eq_some_iff.1 h
    have key := C124_svg_events _ _ _ _ (svgALimit_nonneg _ _ _) (vLimit_lt _ _ _) _ _ _ _ _ hc
    cases r with
    | error err => cases h
    | ok u =>
      cases h
      exact ⟨c.events, C35_accepted _ _ _ hr, key⟩
  · cases h

/-- C124: `image_raster` with a device. -/
theorem C124_raster (fl : ℝ → ℝ) (cfg : Xy) (o : RasterNumbers) (img : Image) (hi : ∀ x y, img.pixel x y ≤ 255)
    (hw : 0 ≤ weightOf (o.intensity.getD 5)) (p p' : Port) (ha : ∀ i, 0 ≤ Special.rasterALimit fl cfg (o.aMax.map (.ofF64 fl)) i)
    (h : Special.rasterAny fl cfg o img (some p) = some (some p')) : ∃ es, Sent es p p' ∧ EndsAtStart es := by
  unfold Special.rasterAny at h
  obtain ⟨c, hc, h⟩ := Option.bind_eq_some_iff.1 h
  obtain ⟨_, -, h⟩ := Option.bind_eq_some_iff.1 h
  simp only at h
  obtain ⟨⟨r, q⟩, hr, h⟩ := Option.bind_eq_some_iff.1 h
  have key := C124_raster_events fl cfg o img hi c hw ha hc
  cases r with
  | error err => cases h
  | ok u =>
    cases h
    exact ⟨c.events, C35_accepted _ _ _ hr, key⟩

/-- A limit of the acceleration that `image_raster` computes from a configuration whose limit is not negative is not negative. -/
theorem rasterALimit_nonneg (fl : ℝ → ℝ) (hpos : ∀ x, 0 ≤ x → 0 ≤ fl x) (cfg : Xy) (o : Option Num) (i : Axis)
    (h : 0 ≤ (cfg.stepper i).maxAcceleration) : 0 ≤ Special.rasterALimit fl cfg o i := by
  unfold Special.rasterALimit
  cases o with
  | some v => exact abs_asI32 _
  | none =>
    have : ∃ y : Num, Num.mul fl (Special.rasterAScale fl cfg).abs (.fin (cfg.stepper i).maxAcceleration) = y.abs := by
      cases Special.rasterAScale fl cfg with
      | fin x => exact ⟨.fin (fl (|x| * (cfg.stepper i).maxAcceleration)), by
          simp only [Num.abs, Num.mul]
          rw [abs_of_nonneg (hpos _ (mul_nonneg (abs_nonneg x) h))]⟩
      | inf b =>
        rcases eq_or_lt_of_le h with h | h
        · exact ⟨.nan, by simp [Num.abs, Num.mul, ← h]⟩
        · exact ⟨.inf false, by simp [Num.abs, Num.mul, h.ne', not_lt.2 h.le]⟩
      | nan => exact ⟨.nan, by simp [Num.abs, Num.mul]⟩
    obtain ⟨y, hy⟩ := this
    simp only [hy]
    exact abs_round_asI32 y

/-- C124: `svg_path` with any arguments and any files. -/
theorem C124_svg_command (fl : ℝ → ℝ) (lib : Lib) (e : Rounded.Env) (w : World (List Svg.XmlEvent)) (args : List Cli.Arg) (p' : Port)
    (h : (svgCommand (Special.svgAny fl lib e) w args).out = .done (some p')) :
    ∃ dev p es, .device dev ∈ (svgCommand (Special.svgAny fl lib e) w args).acts ∧ w.device dev = some p ∧ Sent es p p' ∧ EndsAtStart es := by
  obtain ⟨dev, p, cfg, o, layer, doc, h1, h2, -, -, h4⟩ := svgCommand_done h svgAny_none
  obtain ⟨es, k1, k2⟩ := C124_svg fl lib e cfg o layer doc p p' h4
  exact ⟨dev, p, es, h1, h2, k1, k2⟩

/-- C124: `image_raster` with any arguments and any files, if no configuration has a negative limit of the acceleration. -/
theorem C124_raster_command (fl : ℝ → ℝ) (hpos : ∀ x, 0 ≤ x → 0 ≤ fl x) (w : World (Option Image))
    (hi : ∀ file img, w.picture file = some (some img) → ∀ x y, img.pixel x y ≤ 255)
    (ha : ∀ name cfg, w.config name = some cfg → ∀ i, 0 ≤ (cfg.stepper i).maxAcceleration)
    (args : List Cli.Arg) (p' : Port) (h : (rasterCommand (Special.rasterAny fl) w args).out = .done (some p')) :
    ∃ dev p es, .device dev ∈ (rasterCommand (Special.rasterAny fl) w args).acts ∧ w.device dev = some p ∧ Sent es p p' ∧ EndsAtStart es := by
  obtain ⟨dev, p, cfg, o, file, img, h1, h2, h5, ⟨name, h6⟩, h3, h4⟩ := rasterCommand_done h rasterAny_none
  obtain ⟨es, k1, k2⟩ := C124_raster fl cfg o img (hi file img h5) (weightOf_range h3).1 p p'
    (fun i => rasterALimit_nonneg fl hpos cfg _ i (ha name cfg h6 i)) h4
  exact ⟨dev, p, es, h1, h2, k1, k2⟩

/-- The picture of C107 with the default options. -/
example : ∃ p p', Special.rasterAny double (sampleConfig 1) ⟨none, none, none, none, none, none, none⟩ samplePicture (some p) = some (some p') ∧
    ∃ es, Sent es p p' ∧ EndsAtStart es := by
  obtain ⟨p, p', -, h, -⟩ := sample_burns
  exact ⟨p, p', h, C124_raster double (sampleConfig 1) _ samplePicture sample_pixels (by decide) p p'
    (fun i => rasterALimit_nonneg double double_nonneg _ _ i (by cases i <;> norm_num [sampleConfig])) h⟩

/-- The document of C103 with full power. -/
example (pw : ℝ → ℝ → ℝ) (hpw : FloatPow pw) (lib : Lib) (hlib : FloatLib lib) (hang : FloatAngles lib)
    (hat : ∀ y x, double (lib.atan2 y x) = lib.atan2 y x) (e : Rounded.Env) (he : e.stepScale = fun _ => 80)
    (hf : Searches e) (hC : FloatCurves double pw lib.sin lib.cos e) :
    ∃ p p', Special.svgAny double lib e quickXy ⟨none, none, none, some 1, some 100⟩ none roundDoc.events (some p) = some (some p') ∧
      ∃ es, Sent es p p' ∧ EndsAtStart es := by
  obtain ⟨p, p', -, h, -⟩ := round_burns pw hpw lib hlib hang hat e he hf hC
  exact ⟨p, p', h, C124_svg double lib e quickXy _ none _ p p' h⟩

end StepperPaths.Props
