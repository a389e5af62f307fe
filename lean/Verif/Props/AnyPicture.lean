import Verif.Proof.AnyScan
import Verif.Props.NegAcc

/-!
C127: whatever `image_raster` is given, a run that ends normally has burnt the picture and nothing else, at the scanning speed.

The scanning speed may be zero: then the laser burns while the machine stands still.
-/

namespace StepperPaths.Props
open Context Control Spec Proof IntegerCurve Rounded Config Raster StepperPaths.Cli
open Program (weightOf)
open Special (Num)

/-- Whenever the laser is on, there is a pixel whose power it has, and the head crosses the `q`-th of the `resX` parts of this pixel in one
of its lines. -/
def BurnsOnly (p : Params) (img : Image) (es : List Event) : Prop :=
  ∀ w0 τ, weightAt w0 es τ ≠ 0 → ∃ x y rep q : ℕ, x < img.width ∧ y < img.height ∧ rep < p.resY ∧ q < p.resX ∧
    weightAt w0 es τ = Int.tdiv ((255 - (img.pixel x y : ℤ)) * p.weight) 256 ∧
    (∀ σ, σ = τ ∨ σ = τ + 1 → |posAt .y es σ - (y * p.resY + rep) * p.stepY| ≤ 1) ∧
    ((|posAt .x es τ - 2 * p.vX * (p.resX * x + q)| ≤ 1 ∧ |posAt .x es (τ + 1) - 2 * p.vX * (p.resX * x + q + 1)| ≤ 1) ∨
      (|posAt .x es τ - 2 * p.vX * (p.resX * x + q + 1)| ≤ 1 ∧ |posAt .x es (τ + 1) - 2 * p.vX * (p.resX * x + q)| ≤ 1))

/-- For each pixel that is not white and each of its `resY` lines there are `resX` successive ticks in which the head crosses the pixel
from one edge to the other in this line with the power of the pixel. -/
def BurnsAll (p : Params) (img : Image) (es : List Event) : Prop :=
  ∀ x y rep : ℕ, x < img.width → y < img.height → rep < p.resY → img.pixel x y < 255 → ∃ (u : ℕ) (ltr : Bool), ∀ q ≤ p.resX,
    (∀ w0, q < p.resX → weightAt w0 es (u + q) = Int.tdiv ((255 - (img.pixel x y : ℤ)) * p.weight) 256) ∧
    |posAt .y es (u + q) - (y * p.resY + rep) * p.stepY| ≤ 1 ∧
    |posAt .x es (u + q) - 2 * p.vX * (if ltr then (p.resX * x + q : ℤ) else (p.resX * (x + 1) - q : ℤ))| ≤ 1

/-- Whenever the laser is on, the machine moves with the speed `v` along the x axis, and not along the y axis. -/
def BurnsAtSpeed (v : ℤ) (es : List Event) : Prop :=
  ∀ w0 τ, weightAt w0 es τ ≠ 0 → ∀ σ, σ = τ ∨ σ = τ + 1 → (velAt .x es σ = v ∨ velAt .x es σ = -v) ∧ velAt .y es σ = 0

theorem scan_speed {p : Params} {img : Image} {aMax vMax : Axis → ℤ} {es : List Event} {t T : ℕ}
    {ls : List ScanLine} (h : Scan p img aMax vMax es t ls T) (w0 : ℤ) (τ : ℕ)
    (h1 : t ≤ τ) (h2 : τ < T) (hw : weightAt w0 es τ ≠ 0) (σ : ℕ) (hσ : σ = τ ∨ σ = τ + 1) :
    (velAt .x es σ = p.vX ∨ velAt .x es σ = -p.vX) ∧ velAt .y es σ = 0 := by
  induction h with
  | nil => omega
  | @cons t a b T l ls L _ ih =>
    by_cases hb : b ≤ τ
    · exact ih hb h2
    · by_cases ha : τ < a
      · exact absurd (L.off w0 τ h1 ha) hw
      · refine ⟨?_, L.yvel σ (by omega) (by omega)⟩
        rw [L.xvel σ (by omega) (by omega)]
        split
        · exact .inl rfl
        · exact .inr rfl

/-- C127: the scan, with any parameters, limits and pictures. -/
theorem C127_scan (p : Params) (img : Image) (aMax vMax : Axis → ℤ) (hv : ∀ i, vMax i < 2 ^ 31) (res : 0 < p.resX)
    (hp : -2 ^ 31 ≤ p.vX ∧ p.vX < 2 ^ 31) (c : Ctx) (h : Checked.raster p img (Ctx.new aMax vMax) = some c) :
    BurnsOnly p img c.events ∧ BurnsAll p img c.events ∧ BurnsAtSpeed p.vX c.events := by
  have ha : ∀ i, 0 ≤ aMax i := fun i => by
    by_contra hc
    rw [C126_scan aMax vMax i (not_le.1 hc)] at h
    cases h
  obtain ⟨ls, T, E, S, P, R, -, -, W, -, -⟩ := AnyScan.raster_spec (.of_raster ha hv h) res hp.1 hp.2 h
  have on : ∀ w0 τ, weightAt w0 c.events τ ≠ 0 → τ < T := fun w0 τ hw => by
    by_contra hc
    exact hw (W w0 τ (by omega))
  refine ⟨fun w0 τ hw => ?_, fun x y rep hx hy hrep hpix => ?_, fun w0 τ hw => scan_speed S w0 τ (Nat.zero_le _) (on w0 τ hw) hw⟩
  · obtain ⟨l, hl, x, k1, k2, k3, k4, q, k5, k6⟩ := scan_over S res w0 τ (Nat.zero_le _) (on w0 τ hw) hw
    obtain ⟨r1, r2⟩ := R l hl
    have hm : (l.y, l.rep) ∈ rowPlan p img 0 img.height := P ▸ List.mem_map_of_mem hl
    unfold rowPlan at hm
    simp only [List.mem_flatMap, List.mem_filter, List.mem_range'_1, List.mem_map, List.mem_range, Prod.mk.injEq] at hm
    obtain ⟨y, ⟨⟨-, h1⟩, -⟩, r, h2, h3, h4⟩ := hm
    have := (r2.2 r1).1
    exact ⟨x, l.y, l.rep, q, by omega, by omega, by omega, k5, k3, k4, k6⟩
  · have hm : (y, rep) ∈ rowPlan p img 0 img.height := by
      unfold rowPlan
      simp only [List.mem_flatMap, List.mem_filter, List.mem_range'_1, List.mem_map, List.mem_range,
        Prod.mk.injEq, List.any_eq_true, decide_eq_true_eq]
      exact ⟨y, ⟨⟨by omega, by omega⟩, x, hx, hpix⟩, rep, hrep, rfl, rfl⟩
    rw [← P, List.mem_map] at hm
    obtain ⟨l, hl, e⟩ := hm
    simp only [Prod.mk.injEq] at e
    obtain ⟨rfl, rfl⟩ := e
    obtain ⟨k1, k2⟩ := (R l hl).2.1 x hx hpix
    obtain ⟨u, -, -, k⟩ := scan_pixel S l hl x k1 k2
    exact ⟨u, l.ltr, k⟩

theorem resX_pos (fl : ℝ → ℝ) (cfg : Xy) (r : Special.Ask) (n m : ℕ) : 0 < (Special.params fl cfg r n m).resX :=
  lt_of_lt_of_le Nat.zero_lt_one (le_max_left _ _)

/-- C127: `image_raster` with any picture, options and configuration. -/
theorem C127_raster_events (fl : ℝ → ℝ) (cfg : Xy) (o : RasterNumbers) (img : Image) (c : Ctx) (h : Special.rasterEvents fl cfg o img = some c) :
    let p := Special.params fl cfg (Special.ask fl o img.width img.height) img.width img.height
    BurnsOnly p img c.events ∧ BurnsAll p img c.events ∧ BurnsAtSpeed p.vX c.events := by
  unfold Special.rasterEvents at h
  simp only at h
  obtain ⟨_, -, h⟩ := Option.bind_eq_some_iff.1 h
  exact C127_scan _ img _ _ (vLimit_lt fl cfg _) (resX_pos _ _ _ _ _) (asI32_lt _) c h

/-- C127: with a device. -/
theorem C127_raster (fl : ℝ → ℝ) (cfg : Xy) (o : RasterNumbers) (img : Image) (pt pt' : Port)
    (h : Special.rasterAny fl cfg o img (some pt) = some (some pt')) :
    let p := Special.params fl cfg (Special.ask fl o img.width img.height) img.width img.height
    ∃ es, Sent es pt pt' ∧ BurnsOnly p img es ∧ BurnsAll p img es ∧ BurnsAtSpeed p.vX es := by
  intro p
  unfold Special.rasterAny at h
  obtain ⟨c, hc, h⟩ := Option.bind_eq_some_iff.1 h
  obtain ⟨_, -, h⟩ := Option.bind_eq_some_iff.1 h
  simp only at h
  obtain ⟨⟨r, q⟩, hr, h⟩ := Option.bind_eq_some_iff.1 h
  cases r with
  | error err => cases h
  | ok u =>
    cases h
    exact ⟨c.events, C35_accepted _ _ _ hr, C127_raster_events fl cfg o img c hc⟩

/-- C127: with any arguments and any files. -/
theorem C127_raster_command (fl : ℝ → ℝ) (w : World (Option Image)) (args : List Cli.Arg) (pt' : Port)
    (h : (rasterCommand (Special.rasterAny fl) w args).out = .done (some pt')) :
    ∃ dev pt es cfg o file img, .device dev ∈ (rasterCommand (Special.rasterAny fl) w args).acts ∧ w.device dev = some pt ∧
      (∃ name, w.config name = some cfg) ∧ w.picture file = some (some img) ∧ Special.rasterAny fl cfg o img (some pt) = some (some pt') ∧
      Sent es pt pt' ∧
      let p := Special.params fl cfg (Special.ask fl o img.width img.height) img.width img.height
      BurnsOnly p img es ∧ BurnsAll p img es ∧ BurnsAtSpeed p.vX es := by
  obtain ⟨dev, pt, cfg, o, file, img, h1, h2, h5, h6, h3, h4⟩ := rasterCommand_done h rasterAny_none
  obtain ⟨es, k1, k2⟩ := C127_raster fl cfg o img pt pt' h4
  exact ⟨dev, pt, es, cfg, o, file, img, h1, h2, h6, h5, h4, k1, k2⟩

/-- C127 (finding): if the scanning speed is rounded to zero, the laser burns only while the machine stands still, and at most one half step
from the left edge; and there it burns each pixel that is not white for `resX` ticks. -/
theorem C127_stands (fl : ℝ → ℝ) (cfg : Xy) (o : RasterNumbers) (img : Image) (c : Ctx) (h : Special.rasterEvents fl cfg o img = some c)
    (hv : (Special.params fl cfg (Special.ask fl o img.width img.height) img.width img.height).vX = 0) :
    (∀ w0 τ, weightAt w0 c.events τ ≠ 0 → ∀ σ, σ = τ ∨ σ = τ + 1 →
      |posAt .x c.events σ| ≤ 1 ∧ velAt .x c.events σ = 0 ∧ velAt .y c.events σ = 0) ∧
    ∀ x y rep : ℕ, x < img.width → y < img.height → rep < Special.resY fl (Special.ask fl o img.width img.height) img.height →
      img.pixel x y < 255 → ∃ u, ∀ q < Special.resX fl cfg (Special.ask fl o img.width img.height) img.width, ∀ w0,
        weightAt w0 c.events (u + q) = Int.tdiv ((255 - (img.pixel x y : ℤ)) * weightOf (o.intensity.getD 5)) 256 ∧
        |posAt .x c.events (u + q)| ≤ 1 := by
  obtain ⟨h1, h2, h3⟩ := C127_raster_events fl cfg o img c h
  constructor
  · intro w0 τ hw σ hσ
    obtain ⟨x, y, rep, q, -, -, -, -, -, -, k⟩ := h1 w0 τ hw
    have s := h3 w0 τ hw σ hσ
    rw [hv] at k s
    simp only [mul_zero, zero_mul, sub_zero, neg_zero, or_self] at k s
    refine ⟨?_, s⟩
    rcases hσ with rfl | rfl
    · exact k.1
    · exact k.2
  · intro x y rep hx hy hr hpix
    obtain ⟨u, ltr, k⟩ := h2 x y rep hx hy hr hpix
    refine ⟨u, fun q hq w0 => ?_⟩
    obtain ⟨k1, -, k3⟩ := k q hq.le
    rw [hv] at k3
    exact ⟨k1 w0 hq, by simpa using k3⟩

/-- C127 (finding): this is so if the width is zero (and the height is not taken from it). -/
theorem C127_zero_width (fl : ℝ → ℝ) (h0 : fl 0 = 0) (cfg : Xy) (o : RasterNumbers) (img : Image) (hgt : F64)
    (hw : o.width = some (.finite 0)) (hh : o.height = some hgt) :
    (Special.params fl cfg (Special.ask fl o img.width img.height) img.width img.height).vX = 0 := by
  have e1 : (Special.ask fl o img.width img.height).width = .fin 0 := by
    simp [Special.ask, Special.pictureSize, hw, hh, Num.ofF64, h0]
  have e2 : Special.width fl cfg (Special.ask fl o img.width img.height) = .fin 0 := by
    rw [Special.width, e1]
    simp [Num.mul, h0]
  show Special.vX fl cfg (Special.ask fl o img.width img.height) img.width = 0
  rw [Special.vX, e2, Num.div]
  split
  · rw [if_pos rfl]
    rfl
  · have r0 : Draw.round 0 = 0 := by norm_num [Draw.round]
    have t0 : Draw.trunc ((0 : ℤ) : ℝ) = 0 := by simp [Draw.trunc]
    rw [zero_div, h0, Num.round, Num.asI32, r0, t0]
    rfl

/-! ### Examples -/

/-- `--width 0 --height 10 --spot-diam 5`. -/
def flatNumbers : RasterNumbers := ⟨none, none, none, none, some (.finite 0), some (.finite 10), some (.finite 5)⟩

theorem flat_params : Special.params double (sampleConfig 1) (Special.ask double flatNumbers 4 2) 4 2 = ⟨1, 0, 1, 9830400, 12⟩ := by
  have d (n : ℤ) (h : |n| ≤ 2 ^ 53) : double (n : ℝ) = n := C90_double.int n h
  have d0 : double 0 = 0 := by simpa using d 0 (by norm_num)
  have d1 : double 1 = 1 := by simpa using d 1 (by norm_num)
  have d10 : double 10 = 10 := by simpa using d 10 (by norm_num)
  have d5 : double 5 = 5 := by simpa using d 5 (by norm_num)
  have d6 : double 19660800 = 19660800 := by exact_mod_cast d 19660800 (by norm_num)
  have d7 : double 9830400 = 9830400 := by exact_mod_cast d 9830400 (by norm_num)
  have d8 : double 39321600 = 39321600 := by exact_mod_cast d 39321600 (by norm_num)
  have d9 : double 157286400 = 157286400 := by exact_mod_cast d 157286400 (by norm_num)
  have ea : Special.ask double flatNumbers 4 2 = ⟨.fin 0, .fin 10, .fin 5, .fin 20, 12⟩ := by
    simp only [Special.ask, flatNumbers, Special.pictureSize, Option.map_some, Option.map_none, Option.getD_some, Option.getD_none, Num.ofF64]
    norm_num [d0, d5, d10]
    decide
  have r0 : Draw.round 0 = 0 := by exact_mod_cast Draw.round_int 0
  have r1 : Draw.round 1 = 1 := by exact_mod_cast Draw.round_int 1
  have r2 : Draw.round 9830400 = 9830400 := by exact_mod_cast Draw.round_int 9830400
  have hx : Special.resX double (sampleConfig 1) (Special.ask double flatNumbers 4 2) 4 = 1 := by
    rw [ea]
    simp only [Special.resX, Special.width, Num.mul, sampleConfig]
    norm_num [d0, d8, d9, Num.div]
    rw [r0]
    decide
  have hv := C127_zero_width double d0 (sampleConfig 1) flatNumbers samplePicture (.finite 10) rfl rfl
  have hy : Special.resY double (Special.ask double flatNumbers 4 2) 2 = 1 := by
    rw [ea]
    simp only [Special.resY, Num.mul]
    norm_num [d10, Num.div, d1]
    rw [r1]
    decide
  have hs : Special.stepY double (sampleConfig 1) (Special.ask double flatNumbers 4 2) 2 = 9830400 := by
    rw [Special.stepY, hy, ea]
    simp only [Num.mul, sampleConfig]
    norm_num [d6, Num.div, d7]
    rw [r2]
    decide
  have hw : (Special.ask double flatNumbers 4 2).weight = 12 := by rw [ea]
  have hv' : Special.vX double (sampleConfig 1) (Special.ask double flatNumbers 4 2) 4 = 0 := hv
  rw [Special.params, hx, hv', hy, hs, hw]

theorem flat_events : ∃ c, Special.rasterEvents double (sampleConfig 1) flatNumbers samplePicture = some c := by
  have hp : Special.params double (sampleConfig 1) (Special.ask double flatNumbers samplePicture.width samplePicture.height) samplePicture.width
    samplePicture.height = ⟨1, 0, 1, 9830400, 12⟩ := flat_params
  have t : (sampleConfig 1).ticksPerSecond ≠ 0 := by norm_num [sampleConfig]
  have ha : Special.rasterALimit double (sampleConfig 1) (flatNumbers.aMax.map (.ofF64 double)) = sampleA := by
    funext i
    rw [← sample_limitsF.1]
    exact Special.rasterALimit_fin t none i
  have hv : Special.vLimit double (sampleConfig 1) (flatNumbers.vMax.map (.ofF64 double)) = sampleV := by
    funext i
    rw [← sample_limitsF.2]
    exact Special.vLimit_fin t none i
  unfold Special.rasterEvents
  simp only
  rw [hp, ha, hv]
  have S : Raster.Small ⟨1, 0, 1, 9830400, 12⟩ samplePicture sampleV := ⟨by norm_num [samplePicture, sampleV], by norm_num [samplePicture, sampleV],
    by norm_num [samplePicture]⟩
  have M : Checked.Mild ⟨1, 0, 1, 9830400, 12⟩ samplePicture sampleV := ⟨fun _ => by norm_num [sampleV], by norm_num, sample_pixels⟩
  rw [Checked.raster_eq sample_machine S M (by norm_num) (by norm_num [samplePicture]) (by norm_num) (by norm_num) (by norm_num [sampleV])
    (by norm_num [samplePicture])]
  obtain ⟨c, hc⟩ := C57_returns ⟨1, 0, 1, 9830400, 12⟩ samplePicture sampleA sampleV sample_machine
    (by norm_num [samplePicture, sampleV]) (by norm_num [samplePicture, sampleV]) (by norm_num [samplePicture]) (by norm_num)
    (by norm_num [samplePicture]) (by norm_num) (by norm_num) (by norm_num [sampleV]) (by norm_num [samplePicture])
  rw [hc]
  exact ⟨c, rfl⟩

/-- With the sample configuration: the black pixel of the second row is burnt, with the power of a black pixel, while the machine stands still at
the left edge of the picture. -/
example : ∃ c u, Special.rasterEvents double (sampleConfig 1) flatNumbers samplePicture = some c ∧ weightAt 0 c.events u = 11 ∧
    |posAt .x c.events u| ≤ 1 ∧ velAt .x c.events u = 0 ∧ velAt .y c.events u = 0 := by
  obtain ⟨c, hc⟩ := flat_events
  have hv : (Special.params double (sampleConfig 1) (Special.ask double flatNumbers 4 2) 4 2).vX = 0 := by rw [flat_params]
  have hy : 0 < Special.resY double (Special.ask double flatNumbers 4 2) 2 := by
    have : (Special.params double (sampleConfig 1) (Special.ask double flatNumbers 4 2) 4 2).resY = 1 := by rw [flat_params]
    exact lt_of_lt_of_eq Nat.zero_lt_one this.symm
  obtain ⟨h1, h2⟩ := C127_stands double (sampleConfig 1) flatNumbers samplePicture c hc hv
  obtain ⟨u, hu⟩ := h2 1 1 0 (by decide) (by decide) hy (by decide)
  have h3 := hu 0 (resX_pos double (sampleConfig 1) (Special.ask double flatNumbers 4 2) 4 2) 0
  have hw : Int.tdiv ((255 - (samplePicture.pixel 1 1 : ℤ)) * weightOf (flatNumbers.intensity.getD 5)) 256 = 11 := by decide
  rw [hw, Nat.add_zero] at h3
  have h4 := h1 0 u (by rw [h3.1]; decide) u (.inl rfl)
  exact ⟨c, u, hc, h3.1, h4⟩

/-- The sample picture without options: all of it is burnt, and nothing else. -/
example : ∃ pt pt' es, Special.rasterAny double (sampleConfig 1) ⟨none, none, none, none, none, none, none⟩ samplePicture (some pt) =
    some (some pt') ∧ Sent es pt pt' ∧
    let p := Special.params double (sampleConfig 1) (Special.ask double ⟨none, none, none, none, none, none, none⟩ 4 2) 4 2
    BurnsOnly p samplePicture es ∧ BurnsAll p samplePicture es ∧ BurnsAtSpeed p.vX es := by
  obtain ⟨pt, pt', -, h, -⟩ := sample_burns
  obtain ⟨es, k⟩ := C127_raster double _ _ samplePicture pt pt' h
  exact ⟨pt, pt', es, h, k⟩

end StepperPaths.Props
