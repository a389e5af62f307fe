import Verif.Proof.AnySpeed
import Verif.Props.OneSided

/-!
C123: which limits hold whatever the input is.

The test of `step_goto_speed` is one sided (C122), so the speed limit may be exceeded to the left and down.  To the right and up it
never is, in no run of `svg_path` that ends normally.  While the laser is off the acceleration limit holds too.  `image_raster` uses
the same speed in both directions and tries the right one first, so there everything holds.
-/

namespace StepperPaths.Props
open Context Control Spec Proof IntegerCurve Rounded Config Raster Cli
open Coords (Vec)
open Draw (Seg)
open Special (Num)
open Program (weightOf)

/-- No axis is ever faster than its limit to the right or up. -/
def NeverAbove (vMax : Axis → ℤ) (es : List Event) : Prop := ∀ i τ, velAt i es τ ≤ vMax i

/-- As long as the laser is off, no axis is accelerated more than its limit. -/
def GentleWhenOff (aMax : Axis → ℤ) (es : List Event) : Prop := ∀ w0 i τ, weightAt w0 es τ = 0 → |accAt i es τ| ≤ aMax i

/-- All limits are kept all the time. -/
def KeepsLimits (aMax vMax : Axis → ℤ) (es : List Event) : Prop := ∀ i τ, |accAt i es τ| ≤ aMax i ∧ |velAt i es τ| ≤ vMax i

/-- C123: a move that returns, from speeds that are not above the limits, wherever it goes and with whatever speeds it shall end:
it takes at least a tick, ends with these speeds at most half a step away from where it shall go (positions are in half steps), never exceeds the
acceleration limit, never exceeds the speed limit to the right or up, and is to the left or down not faster than the limit, or than
it was at the start, or than it shall be at the end. -/
theorem C123_move (aMax vMax : Axis → ℤ) (L : ∀ i, 1 ≤ aMax i ∧ 1 ≤ vMax i ∧ vMax i < 2 ^ 31) (c c' : Ctx) (S : Sync aMax vMax c)
    (hv : ∀ i, (c.channels i).v ≤ vMax i ∧ |(c.channels i).v| ≤ 2 ^ 31) (x y vx vy : ℤ)
    (h : Checked.stepGotoSpeed c x y vx vy = some c') (t t' : ℕ) (ht : c.ticks = some t) (ht' : c'.ticks = some t') :
    t < t' ∧ ∀ i, |posAt i c'.events t' - both x y i| ≤ 1 ∧ velAt i c'.events t' = both vx vy i ∧
      ∀ τ, t ≤ τ → τ < t' → |accAt i c'.events τ| ≤ aMax i ∧
        min (-vMax i) (min (velAt i c'.events t) (both vx vy i)) ≤ velAt i c'.events (τ + 1) ∧ velAt i c'.events (τ + 1) ≤ vMax i := by
  obtain ⟨l, M, hl⟩ := goto_any ⟨fun i => (L i).1, fun i => (L i).2.1, fun i => (L i).2.2⟩ S hv h
  have tr := S.reach.inv.2.1
  have tr' := M.tracks tr
  have et : ∀ i, (c.channels i).ticks = t := fun i => by
    cases i
    · exact (ticks_some.1 ht).1
    · exact (ticks_some.1 ht).2
  have et' : ∀ i, (c'.channels i).ticks = t' := fun i => by
    cases i
    · exact (ticks_some.1 ht').1
    · exact (ticks_some.1 ht').2
  have len : ∀ i, t' = t + (l i).length := fun i => by
    have := et' i
    rw [M.ch i] at this
    simp only [et] at this
    exact this.symm
  refine ⟨by have := len .x; have := (hl .x).2.2.1; omega, fun i => ?_⟩
  obtain ⟨-, h1, -, W⟩ := hl i
  have v0 : velAt i c'.events t = (c.channels i).v := by
    have := M.velAt tr i (k := 0) (Nat.zero_le _)
    rw [et i] at this
    simpa [endVel] using this
  refine ⟨?_, ?_, fun τ h2 h3 => ?_⟩
  · have := tr'.pos i
    rw [et' i, M.ch i] at this
    simp only at this
    rw [← this]
    convert h1 using 2
    ring
  · have := tr'.vel i
    rw [et' i, M.ch i] at this
    simp only at this
    rw [← this, W.endv]
  · have hlen := len i
    obtain ⟨k, rfl⟩ : ∃ k, τ = t + k := ⟨τ - t, by omega⟩
    have a := M.accAt i (k := k) (by omega)
    have b := M.velAt tr i (k := k + 1) (by omega)
    rw [et i] at a b
    rw [a, v0, show t + k + 1 = t + (k + 1) by omega, b]
    exact ⟨W.acc _ (List.getElem_mem _), W.vel _ (endVel_take_mem _ _ (by omega) (by omega))⟩

/-- The move of C122, that ends with twice the speed limit to the left: also on this way the other limits are kept. -/
example : ∃ c c', (∃ t t', c.ticks = some t ∧ c'.ticks = some t' ∧ t < t' ∧ velAt .x c'.events t' = -100 ∧
    ∀ τ, t ≤ τ → τ < t' → |accAt .x c'.events τ| ≤ 20 ∧ -100 ≤ velAt .x c'.events (τ + 1) ∧ velAt .x c'.events (τ + 1) ≤ 50) ∧
    Checked.stepGotoSpeed c (-1000) 0 (-100) 0 = some c' := by
  obtain ⟨c1, c3, -, -, -, -, h1, h3, -⟩ := Checked.Fast.run_eval
  have S0 : Sync (fun _ => 20) (fun _ => 50) Checked.Fast.p0 := .step (op := .setWeight 12) .new trivial rfl
  obtain ⟨S, q, -⟩ := Draw.weight_now S0 h1
  have S' := (Sync.keeps _ _).cgoto S h3
  have z : ∀ i, (c1.channels i).v = 0 := fun i => by rw [q]; rfl
  obtain ⟨g1, g2⟩ := C123_move (fun _ => 20) (fun _ => 50) (fun _ => by norm_num) c1 c3 S (fun i => by rw [z]; norm_num) _ _ _ _ h3 _ _
    (Draw.ticks_of_sync S) (Draw.ticks_of_sync S')
  obtain ⟨-, k2, k3⟩ := g2 .x
  have v0 : velAt .x c3.events (c1.channels .x).ticks = 0 := by
    rw [Raster.velAt_congr ((Props.goto_past S.inv.1 (Checked.stepGotoSpeed_le _ _ _ _ _ _ h3)).acc .x) le_rfl, ← S.reach.inv.2.1.vel .x, z]
  refine ⟨c1, c3, ⟨_, _, Draw.ticks_of_sync S, Draw.ticks_of_sync S', g1, k2, fun τ t1 t2 => ?_⟩, h3⟩
  obtain ⟨a1, a2, a3⟩ := k3 τ t1 t2
  rw [v0] at a2
  exact ⟨a1, by simpa [both] using a2, a3⟩

theorem duration_of_sync {aMax vMax : Axis → ℤ} {c : Ctx} (S : Sync aMax vMax c) (i : Axis) : duration c.events ≤ (c.channels i).ticks := by
  have h1 := S.inv.1.timed
  have h2 := S.inv.2
  unfold Context.Timed at h1
  cases i <;> omega

/-- C123: whatever `svg_path` draws, in a run that gets as far as having events the speed limit is kept to the right and up, and the
acceleration limit while the laser is off. -/
theorem C123_svg_events (fl : ℝ → ℝ) (e : Rounded.Env) (aMax vMax : Axis → ℤ) (ha : ∀ i, 0 ≤ aMax i) (hv : ∀ i, vMax i < 2 ^ 31)
    (w : ℤ) (path : List Seg) (v : Num) (n : ℕ) (c : Ctx) (h : Special.svgEvents fl e aMax vMax w path v n = some c) :
    NeverAbove vMax c.events ∧ (w ≠ 0 → GentleWhenOff aMax c.events) := by
  have L := Limits.of_svg ha hv h
  have key := fun w0 => (Along.draws L w w0).svg (Along.new L w w0) h
  obtain ⟨-, rest, -⟩ := C121_svg_events fl e aMax vMax w path v n c h
  have dur := duration_of_sync (key 0).sync
  refine ⟨fun i τ => ?_, fun hw w0 i τ h0 => ?_⟩
  · by_cases ht : τ ≤ (c.channels i).ticks
    · exact (key 0).speeds i τ ht
    · rw [((rest τ (by have := dur i; omega)).2 i).2.1]
      have := L.one i
      omega
  · by_cases ht : τ < (c.channels i).ticks
    · exact (key w0).pulls hw i τ ht h0
    · rw [((rest τ (by have := dur i; omega)).2 i).1]
      have := L.acc i
      simp
      omega

/-- The run of C122, in which the machine has twice its speed limit to the left. -/
example : ∃ c, Special.svgEvents double tenSteps (fun _ => 20) (fun _ => 50) 12 [.goTo ⟨-100, 0⟩, .lineTo ⟨-105, 0⟩] (.fin 20) 1 = some c ∧
    (∃ τ, velAt .x c.events τ = -100) ∧ NeverAbove (fun _ => 50) c.events ∧ GentleWhenOff (fun _ => 20) c.events := by
  obtain ⟨c, h, hτ⟩ := fast_runs.1
  obtain ⟨h1, h2⟩ := C123_svg_events double tenSteps (fun _ => 20) (fun _ => 50) (fun _ => by norm_num) (fun _ => by norm_num) _ _ _ _ c h
  exact ⟨c, h, hτ, h1, h2 (by norm_num)⟩

/-- The scan of `image_raster`, with any parameters. -/
theorem scan_limits (aMax vMax : Axis → ℤ) (ha : ∀ i, 0 ≤ aMax i) (hv : ∀ i, vMax i < 2 ^ 31) (p : Params)
    (hp : -2 ^ 31 ≤ p.vX ∧ p.vX < 2 ^ 31) (img : Image) (c : Ctx) (h : Checked.raster p img (Ctx.new aMax vMax) = some c)
    (hr : EndsAtRest c.events) : KeepsLimits aMax vMax c.events := by
  have L := Limits.of_raster ha hv h
  have key := (Across.scans L).raster (Across.turns L) hp (Across.new L p.weight) h
  have dur := duration_of_sync key.sync
  intro i τ
  constructor
  · by_cases ht : τ < (c.channels i).ticks
    · exact key.pulls i τ ht trivial
    · rw [((hr τ (by have := dur i; omega)).2 i).1]
      have := L.acc i
      simp
      omega
  · by_cases ht : τ ≤ (c.channels i).ticks
    · exact key.speeds i τ ht
    · rw [((hr τ (by have := dur i; omega)).2 i).2.1]
      have := L.one i
      simp
      omega

theorem asI32_lt (x : Num) : -2 ^ 31 ≤ x.asI32 ∧ x.asI32 < 2 ^ 31 := by
  unfold Num.asI32
  split
  · unfold Draw.satI32
    norm_num
    split_ifs
    · norm_num
    · norm_num
    · omega
  all_goals norm_num

theorem vLimit_lt (fl : ℝ → ℝ) (cfg : Xy) (o : Option Num) (i : Axis) : Special.vLimit fl cfg o i < 2 ^ 31 := by
  unfold Special.vLimit
  cases o <;> exact (asI32_lt _).2

theorem abs_asI32 (x : Num) : 0 ≤ x.abs.asI32 := by
  cases x with
  | fin x =>
    have : 0 ≤ Draw.trunc |x| := by
      unfold Draw.trunc
      rw [if_pos (abs_nonneg x)]
      exact Int.floor_nonneg.2 (abs_nonneg x)
    simp only [Num.abs, Num.asI32, Draw.satI32]
    split_ifs <;> omega
  | inf b => simp [Num.abs, Num.asI32]
  | nan => simp [Num.abs, Num.asI32]

theorem abs_round_asI32 (x : Num) : 0 ≤ x.abs.round.asI32 := by
  have : x.abs.round = x.abs.round.abs := by
    cases x with
    | fin x =>
      have : (0 : ℝ) ≤ Draw.round |x| := by
        have := round_nonneg (abs_nonneg x)
        exact_mod_cast this
      simp [Num.abs, Num.round, abs_of_nonneg this]
    | inf b => rfl
    | nan => rfl
  rw [this]
  exact abs_asI32 _

theorem svgALimit_nonneg (fl : ℝ → ℝ) (cfg : Xy) (o : Option Num) (i : Axis) : 0 ≤ Special.svgALimit fl cfg o i := by
  unfold Special.svgALimit
  cases o
  · exact abs_round_asI32 _
  · exact abs_asI32 _

/-- C123: `image_raster` with any picture and options and any configuration with limits of the acceleration that are not negative: in a run that gets as far as having
events, all limits are kept all the time. -/
theorem C123_raster_events (fl : ℝ → ℝ) (cfg : Xy) (o : RasterNumbers) (img : Image) (hi : ∀ x y, img.pixel x y ≤ 255) (c : Ctx)
    (hw : 0 ≤ weightOf (o.intensity.getD 5))
    (ha : ∀ i, 0 ≤ Special.rasterALimit fl cfg (o.aMax.map (.ofF64 fl)) i)
    (h : Special.rasterEvents fl cfg o img = some c) :
    KeepsLimits (Special.rasterALimit fl cfg (o.aMax.map (.ofF64 fl))) (Special.vLimit fl cfg (o.vMax.map (.ofF64 fl))) c.events := by
  obtain ⟨-, rest, -⟩ := C121_raster_events fl cfg o img hi c hw h
  unfold Special.rasterEvents at h
  simp only at h
  obtain ⟨_, -, h⟩ := Option.bind_eq_some_iff.1 h
  exact scan_limits _ _ ha (fun i => vLimit_lt _ _ _ _) _ (asI32_lt _) img c h rest

/-! ### With a device -/

/-- C123: if `svg_path` succeeds with a device, the device has accepted events that never exceed the speed limit to the right or up,
nor the acceleration limit while the laser is off. -/
theorem C123_svg (fl : ℝ → ℝ) (lib : Lib) (e : Rounded.Env) (cfg : Xy) (o : SvgNumbers) (layer : Option Cli.Arg) (doc : List Svg.XmlEvent)
    (p p' : Port) (h : Special.svgAny fl lib e cfg o layer doc (some p) = some (some p')) :
    ∃ es, Sent es p p' ∧ NeverAbove (Special.vLimit fl cfg (o.vMax.map (.ofF64 fl))) es ∧
      (weightOf (o.intensity.getD 5) ≠ 0 → GentleWhenOff (Special.svgALimit fl cfg (o.aMax.map (.ofF64 fl))) es) := by
  unfold Special.svgAny at h
  obtain ⟨w, hw, h⟩ := Option.bind_eq_some_iff.1 h
  obtain rfl : w = weightOf (o.intensity.getD 5) := by
    obtain ⟨a, ha, hw⟩ := Option.bind_eq_some_iff.1 hw
    cases hw
    rw [(toI32_eq ha).1]
    rfl
  split at h
  · obtain ⟨c, hc, h⟩ := Option.bind_eq_some_iff.1 h
    obtain ⟨_, -, h⟩ := Option.bind_eq_some_iff.1 h
    simp only at h
    obtain ⟨⟨r, q⟩, hr, h⟩ := Option.bind_eq_some_iff.1 h
    have key := C123_svg_events _ _ _ _ (svgALimit_nonneg _ _ _) (vLimit_lt _ _ _) _ _ _ _ _ hc
    cases r with
    | error err => cases h
    | ok u =>
      cases h
      exact ⟨c.events, C35_accepted _ _ _ hr, key⟩
  · cases h

/-- C123: if `image_raster` succeeds with a device, the device has accepted events that keep all limits. -/
theorem C123_raster (fl : ℝ → ℝ) (cfg : Xy) (o : RasterNumbers) (img : Image) (hi : ∀ x y, img.pixel x y ≤ 255)
    (hw : 0 ≤ weightOf (o.intensity.getD 5)) (p p' : Port)
    (ha : ∀ i, 0 ≤ Special.rasterALimit fl cfg (o.aMax.map (.ofF64 fl)) i)
    (h : Special.rasterAny fl cfg o img (some p) = some (some p')) :
    ∃ es, Sent es p p' ∧
      KeepsLimits (Special.rasterALimit fl cfg (o.aMax.map (.ofF64 fl))) (Special.vLimit fl cfg (o.vMax.map (.ofF64 fl))) es := by
  unfold Special.rasterAny at h
  obtain ⟨c, hc, h⟩ := Option.bind_eq_some_iff.1 h
  obtain ⟨_, -, h⟩ := Option.bind_eq_some_iff.1 h
  simp only at h
  obtain ⟨⟨r, q⟩, hr, h⟩ := Option.bind_eq_some_iff.1 h
  have key := C123_raster_events fl cfg o img hi c hw ha hc
  cases r with
  | error err => cases h
  | ok u =>
    cases h
    exact ⟨c.events, C35_accepted _ _ _ hr, key⟩

theorem sample_pixels (x y : ℕ) : samplePicture.pixel x y ≤ 255 := by
  unfold samplePicture
  simp only
  repeat' split
  all_goals omega

/-- The picture of C107 with the default options. -/
example : ∃ p p', Special.rasterAny double (sampleConfig 1) ⟨none, none, none, none, none, none, none⟩ samplePicture (some p) = some (some p') ∧
    ∃ es, Sent es p p' ∧ KeepsLimits sampleA sampleV es := by
  obtain ⟨p, p', -, h, -⟩ := sample_burns
  have hT : (sampleConfig 1).ticksPerSecond ≠ 0 := by norm_num [sampleConfig]
  have ea : Special.rasterALimit double (sampleConfig 1) none = sampleA :=
    (funext fun i => by simpa using Special.rasterALimit_fin (fl := double) hT none i).trans sample_limitsF.1
  have ev : Special.vLimit double (sampleConfig 1) none = sampleV :=
    (funext fun i => by simpa using Special.vLimit_fin (fl := double) hT none i).trans sample_limitsF.2
  obtain ⟨es, h1, h2⟩ := C123_raster double (sampleConfig 1) ⟨none, none, none, none, none, none, none⟩ samplePicture sample_pixels (by decide) p p'
    (fun i => by simp only [Option.map_none, ea]; norm_num [sampleA]) h
  simp only [Option.map_none, ea, ev] at h2
  exact ⟨p, p', h, es, h1, h2⟩

/-- The document of C103 with full power. -/
example (pw : ℝ → ℝ → ℝ) (hpw : FloatPow pw) (lib : Lib) (hlib : FloatLib lib) (hang : FloatAngles lib)
    (hat : ∀ y x, double (lib.atan2 y x) = lib.atan2 y x) (e : Rounded.Env) (he : e.stepScale = fun _ => 80)
    (hf : Searches e) (hC : FloatCurves double pw lib.sin lib.cos e) :
    ∃ p p', Special.svgAny double lib e quickXy ⟨none, none, none, some 1, some 100⟩ none roundDoc.events (some p) = some (some p') ∧
      ∃ es, Sent es p p' ∧ NeverAbove (fun _ => 100) es ∧ GentleWhenOff (fun _ => 10) es := by
  obtain ⟨p, p', -, h, -⟩ := round_burns pw hpw lib hlib hang hat e he hf hC
  have hT : quickXy.ticksPerSecond ≠ 0 := by norm_num [quickXy]
  have ea : Special.svgALimit double quickXy none = fun _ => 10 :=
    (funext fun i => by simpa using Special.svgALimit_fin (fl := double) hT none i).trans quick_limitsF.1
  have ev : Special.vLimit double quickXy none = fun _ => 100 :=
    (funext fun i => by simpa using Special.vLimit_fin (fl := double) hT none i).trans quick_limitsF.2
  obtain ⟨es, h1, h2, h3⟩ := C123_svg double lib e quickXy ⟨none, none, none, some 1, some 100⟩ none _ p p' h
  simp only [Option.map_none, ea, ev] at h2 h3
  exact ⟨p, p', h, es, h1, h2, h3 (by decide)⟩

end StepperPaths.Props
