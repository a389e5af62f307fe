import Verif.Proof.OutlineRuns
import Verif.Props.AnyPicture

/-!
C140: where the head of `image_raster` is at what time depends only on the size and the outline of the picture, not on the shades within it nor on
the intensity.
-/

namespace StepperPaths.Props
open Context Control Spec Proof IntegerCurve Rounded Config Raster StepperPaths.Cli
open Special (Num)

/-- Two runs with the same motion, at the same pixels. -/
structure SameMotion (p p' : Params) (img img' : Image) (es es' : List Event) : Prop where
  acc : ∀ i τ, accAt i es τ = accAt i es' τ
  vel : ∀ i τ, velAt i es τ = velAt i es' τ
  pos : ∀ i τ, posAt i es τ = posAt i es' τ
  pixel : ∀ τ, SamePixel p p' img img' es es' τ

/-- C140: the scan, with any parameters that differ only in the power. -/
theorem C140_scan (p p' : Params) (img img' : Image) (O : SameOutline img img') (P : SameScan p p') (aMax vMax : Axis → ℤ)
    (hv : ∀ i, vMax i < 2 ^ 31) (res : 0 < p.resX) (hp : -2 ^ 31 ≤ p.vX ∧ p.vX < 2 ^ 31) (c c' : Ctx)
    (h : Checked.raster p img (Ctx.new aMax vMax) = some c) (h' : Checked.raster p' img' (Ctx.new aMax vMax) = some c') :
    SameMotion p p' img img' c.events c'.events := by
  have ha : ∀ i, 0 ≤ aMax i := fun i => by
    by_contra hc
    rw [C126_scan aMax vMax i (not_le.1 hc)] at h
    cases h
  obtain ⟨k1, k2⟩ := Outline.raster_same O P (.of_raster ha hv h) res hp.1 hp.2 h h'
  exact ⟨k1, fun i τ => velAt_congr (fun σ _ => k1 i σ) le_rfl, fun i τ => posAt_congr (fun σ _ => k1 i σ) le_rfl, k2⟩

/-- C140: `image_raster` with any two pictures with the same outline and any two intensities. -/
theorem C140_raster_events (fl : ℝ → ℝ) (cfg : Xy) (o : RasterNumbers) (k : Option ℤ) (img img' : Image) (O : SameOutline img img') (c c' : Ctx)
    (h : Special.rasterEvents fl cfg o img = some c) (h' : Special.rasterEvents fl cfg { o with intensity := k } img' = some c') :
    SameMotion (Special.params fl cfg (Special.ask fl o img.width img.height) img.width img.height)
      (Special.params fl cfg (Special.ask fl { o with intensity := k } img'.width img'.height) img'.width img'.height) img img'
      c.events c'.events := by
  unfold Special.rasterEvents at h h'
  simp only at h h'
  obtain ⟨_, -, h⟩ := Option.bind_eq_some_iff.1 h
  obtain ⟨_, -, h'⟩ := Option.bind_eq_some_iff.1 h'
  refine C140_scan _ _ img img' O ⟨?_, ?_, ?_, ?_⟩ _ _ (vLimit_lt fl cfg _) (resX_pos _ _ _ _ _) (asI32_lt _) c c' h h' <;>
    rw [← O.width, ← O.height] <;> rfl

/-- C140: with devices. -/
theorem C140_raster (fl : ℝ → ℝ) (cfg : Xy) (o : RasterNumbers) (k : Option ℤ) (img img' : Image) (O : SameOutline img img') (p q p' q' : Port)
    (h : Special.rasterAny fl cfg o img (some p) = some (some q))
    (h' : Special.rasterAny fl cfg { o with intensity := k } img' (some p') = some (some q')) :
    ∃ es es', Sent es p q ∧ Sent es' p' q' ∧
      SameMotion (Special.params fl cfg (Special.ask fl o img.width img.height) img.width img.height)
        (Special.params fl cfg (Special.ask fl { o with intensity := k } img'.width img'.height) img'.width img'.height) img img' es es' := by
  have one : ∀ {o : RasterNumbers} {img : Image} {p q : Port}, Special.rasterAny fl cfg o img (some p) = some (some q) →
      ∃ c, Special.rasterEvents fl cfg o img = some c ∧ Sent c.events p q := by
    intro o img p q h
    unfold Special.rasterAny at h
    obtain ⟨c, hc, h⟩ := Option.bind_eq_some_iff.1 h
    obtain ⟨_, -, h⟩ := Option.bind_eq_some_iff.1 h
    simp only at h
    obtain ⟨⟨r, q⟩, hr, h⟩ := Option.bind_eq_some_iff.1 h
    cases r with
    | error err => cases h
    | ok u =>
      cases h
      exact ⟨c, hc, C35_accepted _ _ _ hr⟩
  obtain ⟨c, hc, s⟩ := one h
  obtain ⟨c', hc', s'⟩ := one h'
  exact ⟨_, _, s, s', C140_raster_events fl cfg o k img img' O c c' hc hc'⟩

/-- C140: if one picture is scanned, so is every other one with the same outline and shades that are bytes. -/
theorem C140_scan_returns (p p' : Params) (img img' : Image) (O : SameOutline img img') (P : SameScan p p') (aMax vMax : Axis → ℤ)
    (hv : ∀ i, vMax i < 2 ^ 31) (res : 0 < p.resX) (hp : -2 ^ 31 ≤ p.vX ∧ p.vX < 2 ^ 31) (grey : ∀ x y, img'.pixel x y ≤ 255)
    (hw : |p'.weight| ≤ 2 ^ 22) (c : Ctx) (h : Checked.raster p img (Ctx.new aMax vMax) = some c) :
    ∃ c', Checked.raster p' img' (Ctx.new aMax vMax) = some c' := by
  have ha : ∀ i, 0 ≤ aMax i := fun i => by
    by_contra hc
    rw [C126_scan aMax vMax i (not_le.1 hc)] at h
    cases h
  exact Outline.raster_ok O P grey hw (.of_raster ha hv h) res hp.1 hp.2 h

/-- C140: the same of `image_raster`. -/
theorem C140_raster_returns (fl : ℝ → ℝ) (cfg : Xy) (o : RasterNumbers) (k : Option ℤ) (img img' : Image) (O : SameOutline img img')
    (grey : ∀ x y, img'.pixel x y ≤ 255) (hk : 0 ≤ k.getD 5 ∧ k.getD 5 ≤ 100) (c : Ctx) (h : Special.rasterEvents fl cfg o img = some c) :
    ∃ c', Special.rasterEvents fl cfg { o with intensity := k } img' = some c' := by
  unfold Special.rasterEvents at h ⊢
  simp only at h ⊢
  obtain ⟨_, h0, h⟩ := Option.bind_eq_some_iff.1 h
  have P : SameScan (Special.params fl cfg (Special.ask fl o img.width img.height) img.width img.height)
      (Special.params fl cfg (Special.ask fl { o with intensity := k } img'.width img'.height) img'.width img'.height) := by
    refine ⟨?_, ?_, ?_, ?_⟩ <;> rw [← O.width, ← O.height] <;> rfl
  obtain ⟨c', h'⟩ := C140_scan_returns _ _ img img' O P _ _ (vLimit_lt fl cfg _) (resX_pos _ _ _ _ _) (asI32_lt _) grey
    (by
      show |Program.weightOf (k.getD 5)| ≤ _
      unfold Program.weightOf
      rw [Int.tdiv_eq_ediv_of_nonneg (by omega), abs_le]
      norm_num
      omega) c h
  refine ⟨c', ?_⟩
  rw [show realHeight _ img' = realHeight (Special.params fl cfg (Special.ask fl o img.width img.height) img.width img.height) img by
    unfold realHeight
    rw [P.resY, P.stepY, O.height], h0]
  exact h'

/-- C140: a run without a device ends the same way for both pictures. -/
theorem C140_dry (fl : ℝ → ℝ) (cfg : Xy) (o : RasterNumbers) (k : Option ℤ) (img img' : Image) (O : SameOutline img img')
    (grey : ∀ x y, img.pixel x y ≤ 255) (grey' : ∀ x y, img'.pixel x y ≤ 255) (ho : 0 ≤ o.intensity.getD 5 ∧ o.intensity.getD 5 ≤ 100)
    (hk : 0 ≤ k.getD 5 ∧ k.getD 5 ≤ 100) :
    Special.rasterAny fl cfg o img none = Special.rasterAny fl cfg { o with intensity := k } img' none := by
  unfold Special.rasterAny
  cases h : Special.rasterEvents fl cfg o img with
  | some c =>
    obtain ⟨c', h'⟩ := C140_raster_returns fl cfg o k img img' O grey' hk c h
    rw [h']
    rfl
  | none =>
    cases h' : Special.rasterEvents fl cfg { o with intensity := k } img' with
    | none => rfl
    | some c' =>
      obtain ⟨c, hc⟩ := C140_raster_returns fl cfg { o with intensity := k } o.intensity img' img O.symm grey ho c' h'
      have e : Special.rasterEvents fl cfg o img = some c := hc
      rw [h] at e
      cases e

/-! ### Examples -/

/-- The sample picture with other shades, and a dark pixel where there was a white one between dark ones. -/
def shadedPicture : Image := ⟨4, 2, fun x y => if y = 0 then 255 else if x = 1 then 200 else if x = 2 then 7 else if x = 3 then 0 else 255⟩

theorem sample_dark (x y : ℕ) : samplePicture.pixel x y < 255 ↔ y ≠ 0 ∧ (x = 1 ∨ x = 3) := by
  simp only [samplePicture]
  repeat' split
  all_goals omega

theorem shaded_dark (x y : ℕ) : shadedPicture.pixel x y < 255 ↔ y ≠ 0 ∧ (x = 1 ∨ x = 2 ∨ x = 3) := by
  simp only [shadedPicture]
  repeat' split
  all_goals omega

theorem shaded_pixels (x y : ℕ) : shadedPicture.pixel x y ≤ 255 := by
  simp only [shadedPicture]
  repeat' split
  all_goals omega

theorem shaded_outline : SameOutline samplePicture shadedPicture := by
  refine ⟨rfl, rfl, ?_, ?_⟩ <;> intro y hy x hx <;> simp only [sample_dark, shaded_dark] <;> replace hx : x < 4 := hx <;>
    (try rw [show samplePicture.width = 4 from rfl]) <;> constructor
  · rintro ⟨z, h1, h2⟩
    exact ⟨z, h1, by omega⟩
  · rintro ⟨z, h1, h2⟩
    exact ⟨1, by omega, by omega⟩
  · rintro ⟨z, h1, h2, h3⟩
    exact ⟨z, h1, h2, by omega⟩
  · rintro ⟨z, h1, h2, h3⟩
    exact ⟨3, by omega, by omega, by omega⟩

theorem sample_scans (w : ℤ) (img : Image) (hw : |w| ≤ 100) (e1 : img.width = 4) (e2 : img.height = 2) (hpx : ∀ x y, img.pixel x y ≤ 255) :
    ∃ c, Checked.raster ⟨2, 150000, 1, 400000, w⟩ img (Ctx.new sampleA sampleV) = some c := by
  have S : Raster.Small ⟨2, 150000, 1, 400000, w⟩ img sampleV := ⟨by norm_num [e1, sampleV], by norm_num [e2, sampleV], by norm_num [e2]⟩
  have M : Checked.Mild ⟨2, 150000, 1, 400000, w⟩ img sampleV := ⟨fun _ => by norm_num [sampleV], by
    show |w| ≤ _
    norm_num
    omega, hpx⟩
  rw [Checked.raster_eq sample_machine S M (by norm_num) (by norm_num [e1]) (by norm_num) (by norm_num) (by norm_num [sampleV]) (by norm_num [e1])]
  exact C57_returns _ img sampleA sampleV sample_machine (by norm_num [e1, sampleV]) (by norm_num [e2, sampleV])
    (by norm_num [e2]) (by norm_num) (by norm_num [e1]) (by norm_num) (by norm_num) (by norm_num [sampleV]) (by norm_num [e1])

/-- That the one picture is scanned tells that the other one is. -/
example : ∃ c', Checked.raster ⟨2, 150000, 1, 400000, 30⟩ shadedPicture (Ctx.new sampleA sampleV) = some c' := by
  obtain ⟨c, hc⟩ := sample_scans 100 samplePicture (by norm_num) rfl rfl sample_pixels
  have P : SameScan ⟨2, 150000, 1, 400000, 100⟩ ⟨2, 150000, 1, 400000, 30⟩ := ⟨rfl, rfl, rfl, rfl⟩
  exact C140_scan_returns _ _ _ _ shaded_outline P _ _ (fun i => by norm_num [sampleV]) (by norm_num) (by norm_num) shaded_pixels (by norm_num) c hc

/-- Both pictures are scanned with two powers. -/
example : ∃ c c', Checked.raster ⟨2, 150000, 1, 400000, 100⟩ samplePicture (Ctx.new sampleA sampleV) = some c ∧
    Checked.raster ⟨2, 150000, 1, 400000, 30⟩ shadedPicture (Ctx.new sampleA sampleV) = some c' ∧
    SameMotion ⟨2, 150000, 1, 400000, 100⟩ ⟨2, 150000, 1, 400000, 30⟩ samplePicture shadedPicture c.events c'.events := by
  obtain ⟨c, hc⟩ := sample_scans 100 samplePicture (by norm_num) rfl rfl sample_pixels
  obtain ⟨c', hc'⟩ := sample_scans 30 shadedPicture (by norm_num) rfl rfl shaded_pixels
  have P : SameScan ⟨2, 150000, 1, 400000, 100⟩ ⟨2, 150000, 1, 400000, 30⟩ := ⟨rfl, rfl, rfl, rfl⟩
  exact ⟨c, c', hc, hc', C140_scan _ _ _ _ shaded_outline P _ _ (fun i => by norm_num [sampleV]) (by norm_num) (by norm_num) c c' hc hc'⟩

end StepperPaths.Props
