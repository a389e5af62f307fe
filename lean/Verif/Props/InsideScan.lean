import Verif.Proof.InsideScan
import Verif.Spec.Moves
import Verif.Props.AnyPicture

/-!
C137: whatever `image_raster` is given, in a run that ends normally the head stays within the height of the picture, and leaves its
width by no more than it needs to turn around.
-/

namespace StepperPaths.Props
open Context Control Spec Proof IntegerCurve Rounded Config Raster StepperPaths.Cli
open Special (Num)

/-- At all times the head is between the left and the right edge of the picture, or at most `turnRoom` (and a half step) beside it, and
between the first and the last line, with a half step to spare. -/
def StaysNear (p : Params) (img : Image) (a : ℤ) (es : List Event) : Prop :=
  ∀ τ, (-1 - turnRoom a p.vX ≤ posAt .x es τ ∧ posAt .x es τ ≤ 2 * p.vX * (p.resX * img.width : ℕ) + 1 + turnRoom a p.vX) ∧
    min 0 ((p.resY * img.height - 1 : ℕ) * p.stepY) - 1 ≤ posAt .y es τ ∧
    posAt .y es τ ≤ max 0 ((p.resY * img.height - 1 : ℕ) * p.stepY) + 1

/-- C137: a move that returns. Each axis stays between start and target, except for what it needs to stop if it has a speed at the start or
shall have one at the end. -/
theorem C137_move (aMax vMax : Axis → ℤ) (L : Limits aMax vMax) (c c' : Ctx) (S : Sync aMax vMax c)
    (hv : ∀ i, (c.channels i).v ≤ vMax i ∧ |(c.channels i).v| ≤ 2 ^ 31) (x y vx vy : ℤ)
    (h : Checked.stepGotoSpeed c x y vx vy = some c') (i : Axis) (τ : ℕ) (h1 : (c.channels .x).ticks ≤ τ) (h2 : τ ≤ (c'.channels .x).ticks) :
    let R := max (turnRoom (aMax i) (c.channels i).v) (turnRoom (aMax i) (both vx vy i))
    min (c.channels i).pos (both x y i) - 1 - R ≤ posAt i c'.events τ ∧
      posAt i c'.events τ ≤ max (c.channels i).pos (both x y i) + 1 + R := by
  intro R
  obtain ⟨k1, -, k2⟩ := InsideScan.goto_inside L S hv h i
  have k := k2 τ h1 h2 R (le_max_left _ _) (le_max_right _ _)
  have := abs_le.1 k1
  omega

/-- C137: the scan, with any parameters, limits and pictures. -/
theorem C137_scan (p : Params) (img : Image) (aMax vMax : Axis → ℤ) (hv : ∀ i, vMax i < 2 ^ 31) (res : 0 < p.resX)
    (hp : -2 ^ 31 ≤ p.vX ∧ p.vX < 2 ^ 31) (c : Ctx) (h : Checked.raster p img (Ctx.new aMax vMax) = some c) :
    StaysNear p img (aMax .x) c.events := by
  have ha : ∀ i, 0 ≤ aMax i := fun i => by
    by_contra hc
    rw [C126_scan aMax vMax i (not_le.1 hc)] at h
    cases h
  intro τ
  exact (InsideScan.raster_inside (.of_raster ha hv h) res hp.1 hp.2 h τ).2

/-- C137: `image_raster` with any picture, options and configuration. -/
theorem C137_raster_events (fl : ℝ → ℝ) (cfg : Xy) (o : RasterNumbers) (img : Image) (c : Ctx) (h : Special.rasterEvents fl cfg o img = some c) :
    StaysNear (Special.params fl cfg (Special.ask fl o img.width img.height) img.width img.height) img
      (Special.rasterALimit fl cfg (o.aMax.map (.ofF64 fl)) .x) c.events := by
  unfold Special.rasterEvents at h
  simp only at h
  obtain ⟨_, -, h⟩ := Option.bind_eq_some_iff.1 h
  exact C137_scan _ img _ _ (vLimit_lt fl cfg _) (resX_pos _ _ _ _ _) (asI32_lt _) c h

/-- C137: with a device. -/
theorem C137_raster (fl : ℝ → ℝ) (cfg : Xy) (o : RasterNumbers) (img : Image) (pt pt' : Port)
    (h : Special.rasterAny fl cfg o img (some pt) = some (some pt')) :
    ∃ es, Sent es pt pt' ∧ StaysNear (Special.params fl cfg (Special.ask fl o img.width img.height) img.width img.height) img
      (Special.rasterALimit fl cfg (o.aMax.map (.ofF64 fl)) .x) es := by
  unfold Special.rasterAny at h
  obtain ⟨c, hc, h⟩ := Option.bind_eq_some_iff.1 h
  obtain ⟨_, -, h⟩ := Option.bind_eq_some_iff.1 h
  simp only at h
  obtain ⟨⟨r, q⟩, hr, h⟩ := Option.bind_eq_some_iff.1 h
  cases r with
  | error err => cases h
  | ok u =>
    cases h
    exact ⟨c.events, C35_accepted _ _ _ hr, C137_raster_events fl cfg o img c hc⟩

/-- C137: with any arguments and any files. -/
theorem C137_raster_command (fl : ℝ → ℝ) (w : World (Option Image)) (args : List Cli.Arg) (pt' : Port)
    (h : (rasterCommand (Special.rasterAny fl) w args).out = .done (some pt')) :
    ∃ dev pt es cfg o file img, .device dev ∈ (rasterCommand (Special.rasterAny fl) w args).acts ∧ w.device dev = some pt ∧
      (∃ name, w.config name = some cfg) ∧ w.picture file = some (some img) ∧ Special.rasterAny fl cfg o img (some pt) = some (some pt') ∧
      Sent es pt pt' ∧ StaysNear (Special.params fl cfg (Special.ask fl o img.width img.height) img.width img.height) img
        (Special.rasterALimit fl cfg (o.aMax.map (.ofF64 fl)) .x) es := by
  obtain ⟨dev, pt, cfg, o, file, img, h1, h2, h5, h6, h3, h4⟩ := rasterCommand_done h rasterAny_none
  obtain ⟨es, k1, k2⟩ := C137_raster fl cfg o img pt pt' h4
  exact ⟨dev, pt, es, cfg, o, file, img, h1, h2, h6, h5, h4, k1, k2⟩

/-! ### Examples -/

/-- The sample picture with the width 0: the head never leaves the left edge. -/
example : ∃ c, Special.rasterEvents double (sampleConfig 1) flatNumbers samplePicture = some c ∧ ∀ τ, |posAt .x c.events τ| ≤ 1 ∧
    -1 ≤ posAt .y c.events τ ∧ posAt .y c.events τ ≤ 9830401 := by
  obtain ⟨c, hc⟩ := flat_events
  refine ⟨c, hc, fun τ => ?_⟩
  have h := C137_raster_events double (sampleConfig 1) flatNumbers samplePicture c hc τ
  rw [show samplePicture.width = 4 from rfl, show samplePicture.height = 2 from rfl, flat_params] at h
  norm_num [turnRoom] at h
  exact ⟨abs_le.2 ⟨h.1.1, h.1.2⟩, h.2⟩

/-- The sample picture without options. -/
example : ∃ pt pt' es, Special.rasterAny double (sampleConfig 1) ⟨none, none, none, none, none, none, none⟩ samplePicture (some pt) =
    some (some pt') ∧ Sent es pt pt' ∧
    StaysNear (Special.params double (sampleConfig 1) (Special.ask double ⟨none, none, none, none, none, none, none⟩ 4 2) 4 2) samplePicture
      (Special.rasterALimit double (sampleConfig 1) none .x) es := by
  obtain ⟨pt, pt', -, h, -⟩ := sample_burns
  obtain ⟨es, k⟩ := C137_raster double _ _ samplePicture pt pt' h
  exact ⟨pt, pt', es, h, k⟩

end StepperPaths.Props
