import Verif.Proof.NegAcc
import Verif.Props.Home

/-!
C126: what `image_raster` does if the configuration has a negative limit of the acceleration.

No run ends (each panics or is endless).  So what C123 and C124 say about `image_raster` holds for all configurations.
-/

namespace StepperPaths.Props
open Context Control Spec Proof IntegerCurve Rounded Config Raster StepperPaths.Cli
open Program (weightOf)
open Special (Num)

/-- C126: with a negative limit of the acceleration of an axis, a move that returns makes this axis faster in the positive direction, or
does nothing: all axes are where they were, with the same speeds, and these are the speeds that were asked for. -/
theorem C126_move (aMax vMax : Axis → ℤ) (c c' : Ctx) (S : Sync aMax vMax c) (i : Axis) (ha : aMax i < 0) (x y vx vy : ℤ)
    (h : c.stepGotoSpeed x y vx vy = some c') :
    (c.channels i).v < both vx vy i ∨ ∀ j, c'.channels j = c.channels j ∧ (c.channels j).v = both vx vy j := by
  obtain ⟨h1, h2⟩ := goto_neg S ha h
  refine h2.imp_right fun h2 j => ⟨h2.1 j, ?_⟩
  rw [← h1 j, h2.1 j]

/-- A move by 196 steps that returns without having moved. -/
example : ∃ c, (Ctx.new (fun _ => -100) (fun _ => 102)).stepGotoSpeed 196 196 0 0 = some c ∧ ∀ i, (c.channels i).pos = 0 := by
  have e : ((Ctx.new (fun _ => -100) (fun _ => 102)).stepGotoSpeed 196 196 0 0).map
      (fun c => ((c.channels .x).pos, (c.channels .y).pos)) = some (0, 0) := by decide +kernel
  obtain ⟨c, h, k⟩ := Option.map_eq_some_iff.1 e
  refine ⟨c, h, fun i => ?_⟩
  cases i
  · exact congrArg Prod.fst k
  · exact congrArg Prod.snd k

/-- C126: with a negative limit of the acceleration no scan ends, whatever the picture and the parameters. -/
theorem C126_scan (aMax vMax : Axis → ℤ) (i : Axis) (ha : aMax i < 0) (p : Params) (img : Image) :
    Checked.raster p img (Ctx.new aMax vMax) = none := neg_raster ha p img

/-- C126: so no run of `image_raster` ends normally if a limit of the acceleration that it has computed is negative. -/
theorem C126_fails (fl : ℝ → ℝ) (cfg : Xy) (o : RasterNumbers) (img : Image) (port : Option Port) (i : Axis)
    (h : Special.rasterALimit fl cfg (o.aMax.map (.ofF64 fl)) i < 0) :
    Special.rasterEvents fl cfg o img = none ∧ Special.rasterAny fl cfg o img port = none := by
  have e : Special.rasterEvents fl cfg o img = none := by
    unfold Special.rasterEvents
    simp only [C126_scan _ _ i h]
    cases realHeight _ img <;> rfl
  exact ⟨e, by simp [Special.rasterAny, e]⟩

theorem raster_limits_nonneg {fl : ℝ → ℝ} {cfg : Xy} {o : RasterNumbers} {img : Image} {c : Ctx} (h : Special.rasterEvents fl cfg o img = some c) (i : Axis) :
    0 ≤ Special.rasterALimit fl cfg (o.aMax.map (.ofF64 fl)) i := by
  by_contra hc
  rw [(C126_fails fl cfg o img none i (not_le.1 hc)).1] at h
  cases h

/-- C126: whatever the picture, the options and the configuration of `image_raster` are, in a run that gets as far as having events all
limits are kept all the time, and the machine ends exactly where it has started. -/
theorem C126_raster_events (fl : ℝ → ℝ) (cfg : Xy) (o : RasterNumbers) (img : Image) (hi : ∀ x y, img.pixel x y ≤ 255) (c : Ctx)
    (hw : 0 ≤ weightOf (o.intensity.getD 5)) (h : Special.rasterEvents fl cfg o img = some c) :
    KeepsLimits (Special.rasterALimit fl cfg (o.aMax.map (.ofF64 fl))) (Special.vLimit fl cfg (o.vMax.map (.ofF64 fl))) c.events ∧
      EndsAtStart c.events :=
  ⟨C123_raster_events fl cfg o img hi c hw (raster_limits_nonneg h) h, C124_raster_events fl cfg o img hi c hw (raster_limits_nonneg h) h⟩

/-- C126: `image_raster` with a device. -/
theorem C126_raster (fl : ℝ → ℝ) (cfg : Xy) (o : RasterNumbers) (img : Image) (hi : ∀ x y, img.pixel x y ≤ 255)
    (hw : 0 ≤ weightOf (o.intensity.getD 5)) (p p' : Port) (h : Special.rasterAny fl cfg o img (some p) = some (some p')) :
    ∃ es, Sent es p p' ∧ EndsAtStart es ∧
      KeepsLimits (Special.rasterALimit fl cfg (o.aMax.map (.ofF64 fl))) (Special.vLimit fl cfg (o.vMax.map (.ofF64 fl))) es := by
  unfold Special.rasterAny at h
  obtain ⟨c, hc, h⟩ := Option.bind_eq_some_iff.1 h
  obtain ⟨_, -, h⟩ := Option.bind_eq_some_iff.1 h
  simp only at h
  obtain ⟨⟨r, q⟩, hr, h⟩ := Option.bind_eq_some_iff.1 h
  obtain ⟨k1, k2⟩ := C126_raster_events fl cfg o img hi c hw hc
  cases r with
  | error err => cases h
  | ok u =>
    cases h
    exact ⟨c.events, C35_accepted _ _ _ hr, k2, k1⟩

/-- C126: `image_raster` with any arguments and any files: if it ends normally after it has used a device, the device has accepted
events during which all limits are kept, and from whose end on the machine is exactly where it was before them. -/
theorem C126_raster_command (fl : ℝ → ℝ) (w : World (Option Image))
    (hi : ∀ file img, w.picture file = some (some img) → ∀ x y, img.pixel x y ≤ 255)
    (args : List Cli.Arg) (p' : Port) (h : (rasterCommand (Special.rasterAny fl) w args).out = .done (some p')) :
    ∃ dev p es cfg o file img, .device dev ∈ (rasterCommand (Special.rasterAny fl) w args).acts ∧ w.device dev = some p ∧
      (∃ name, w.config name = some cfg) ∧ w.picture file = some (some img) ∧ Special.rasterAny fl cfg o img (some p) = some (some p') ∧
      Sent es p p' ∧ EndsAtStart es ∧
      KeepsLimits (Special.rasterALimit fl cfg (o.aMax.map (.ofF64 fl))) (Special.vLimit fl cfg (o.vMax.map (.ofF64 fl))) es := by
  obtain ⟨dev, p, cfg, o, file, img, h1, h2, h5, h6, h3, h4⟩ := rasterCommand_done h rasterAny_none
  obtain ⟨es, k1, k2, k3⟩ := C126_raster fl cfg o img (hi file img h5) (weightOf_range h3).1 p p' h4
  exact ⟨dev, p, es, cfg, o, file, img, h1, h2, h6, h5, h4, k1, k2, k3⟩

/-- The sample configuration, with a sign before the acceleration of the x axis. -/
noncomputable def backwardsConfig : Xy := ⟨128, fun
  | .x => ⟨1966080, 50, -500⟩
  | .y => ⟨1966080, 50, 500⟩⟩

theorem backwards_limit : rasterALimitF double backwardsConfig none .x = -30000 := by
  have d (n : ℤ) (h : |n| ≤ 2 ^ 53) : double (n : ℝ) = n := C90_double.int n h
  have e1 : cfgVScale double backwardsConfig .x = 7680 := by
    have := d 7680 (by norm_num)
    norm_num at this
    simp only [cfgVScale, backwardsConfig]
    norm_num [this]
  have e2 : rasterAScaleF double backwardsConfig = 60 := by
    have := d 60 (by norm_num)
    norm_num at this
    have t : ((backwardsConfig.ticksPerSecond : ℕ) : ℝ) = 128 := by norm_num [backwardsConfig]
    rw [rasterAScaleF, e1, t]
    norm_num [this]
  have e3 : double (-30000) = -30000 := by exact_mod_cast d (-30000) (by norm_num)
  have e4 : ⌊(30000 : ℝ) + 1 / 2⌋ = 30000 := by norm_num [Int.floor_eq_iff]
  have e5 : |(60 : ℝ)| * -500 = -30000 := by norm_num
  have e6 : ¬ (0 : ℝ) ≤ -30000 := by norm_num
  have e7 : (backwardsConfig.stepper .x).maxAcceleration = -500 := rfl
  simp only [rasterALimitF]
  rw [e2, e7, e5, e3, Draw.round, if_neg e6, neg_neg, e4]
  decide

/-- With it no picture at all is burnt. -/
example (img : Image) (port : Option Port) : Special.rasterAny double backwardsConfig ⟨none, none, none, none, none, none, none⟩ img port = none := by
  refine (C126_fails double backwardsConfig _ img port .x ?_).2
  have := Special.rasterALimit_fin (fl := double) (c := backwardsConfig) (by norm_num [backwardsConfig]) none .x
  rw [Option.map_none] at this
  rw [Option.map_none, this, backwards_limit]
  decide

/-- With the right sign the picture of C121 is. -/
example : ∃ p p' es, Special.rasterAny double (sampleConfig 1) ⟨none, none, none, none, none, none, none⟩ samplePicture (some p) = some (some p') ∧
    Sent es p p' ∧ EndsAtStart es ∧
      KeepsLimits (Special.rasterALimit double (sampleConfig 1) none) (Special.vLimit double (sampleConfig 1) none) es := by
  obtain ⟨p, p', -, h, -⟩ := sample_burns
  obtain ⟨es, k⟩ := C126_raster double _ _ samplePicture sample_pixels (by decide) p p' h
  exact ⟨p, p', es, h, k⟩

end StepperPaths.Props
