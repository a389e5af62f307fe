import Verif.Proof.CheckedRaster
import Verif.Props.RoundedRaster

/-! # C107: `image_raster` overflows nowhere -/

namespace StepperPaths.Props
open Context IntegerCurve Spec Raster Draw Program Config Control Rounded

/-- C107: whenever the scan with checked arithmetic returns, it returns what the scan with unbounded arithmetic does: all
that is shown of the latter holds for the former. -/
theorem C107_sound (p : Params) (img : Image) (c c' : Ctx) (h : Checked.raster p img c = some c') : Raster.raster p img c = some c' :=
  Checked.raster_le p img c c' h

/-- C107: the same for the whole program. -/
theorem C107_program_sound (fl : ℝ → ℝ) (cfg : Xy) (o : RasterOptions) (img : Image) (port : Port) (r : Option Port)
    (h : Checked.rasterMain fl cfg o img port = some r) : rasterMainF fl cfg o img port = some r := by
  refine Checked.Le.bind (Checked.Le.refl _) (fun _ => Checked.Le.ite (Checked.Le.refl _) (Checked.Le.bind (Checked.Le.refl _) fun _ => ?_)) r h
  exact Checked.Le.bind (Checked.raster_le _ _ _) fun _ => Checked.Le.refl _

/-- C107: a picture that is scanned as in C57, by a machine with speeds up to `2^24`, overflows nowhere. -/
theorem C107_no_overflow (p : Params) (img : Image) (aMax vMax : Axis → ℤ) (hM : Machine aMax vMax) (hb : ∀ i, vMax i ≤ 2 ^ 24)
    (wx : 2 * p.vX * (img.width * p.resX : ℕ) + 1 ≤ vMax .x * 65535)
    (wy : |p.stepY| * (img.height * p.resY : ℕ) + 1 ≤ vMax .y * 65535)
    (lines : img.height * p.resY < 2 ^ 32) (res : 0 < p.resX) (ticks : img.width * p.resX < 2 ^ 31)
    (step : |p.stepY| ≤ 2 ^ 28) (vx0 : 0 ≤ p.vX) (vxm : p.vX ≤ vMax .x)
    (wide : 2 * p.vX * (img.width * p.resX : ℕ) < 2 ^ 32) (weight : |p.weight| ≤ 2 ^ 22)
    (grey : ∀ x y, img.pixel x y ≤ 255) :
    ∃ c', Checked.raster p img (Ctx.new aMax vMax) = some c' ∧ Raster.raster p img (Ctx.new aMax vMax) = some c' := by
  obtain ⟨c', h⟩ := C57_returns p img aMax vMax hM wx wy lines res ticks step vx0 vxm wide
  refine ⟨c', ?_, h⟩
  rw [← h]
  exact Checked.raster_eq hM ⟨wx, wy, by norm_num at lines; exact lines⟩ ⟨hb, weight, grey⟩ res ticks step vx0 vxm wide

/-- C107: for pictures and machines as in C105, with speeds up to `2^24`, the program with checked arithmetic does the same as
the one without. -/
theorem C107_same (fl : ℝ → ℝ) (R : FloatRounding fl) (cfg : Xy) (o : RasterOptions) (img : Image) (w h d v : ℝ)
    (S : Scannable fl cfg o img w h d v) (hb : ∀ i, vLimitF fl cfg o.vMax i ≤ 2 ^ 24) (port : Port) :
    Checked.rasterMain fl cfg o img port = rasterMainF fl cfg o img port := by
  set r := requestF fl o img.width img.height with hr
  have hM := S.machine
  have wx := S.way_x R
  have wy := S.way_y R
  have hl := S.all_lines_lt R
  rw [← hr] at wx wy hl
  have cx : 2 * vXF fl cfg r img.width * (img.width * resXF fl cfg r img.width : ℕ) + 1 ≤ vLimitF fl cfg o.vMax .x * 65535 := by
    have := wx.trans ((by linarith : _ ≤ _).trans S.reachX)
    exact_mod_cast this
  have cy : |stepYF fl cfg r img.height| * (img.height * resYF fl r img.height : ℕ) + 1 ≤ vLimitF fl cfg o.vMax .y * 65535 := by
    have := wy.trans S.reachY
    exact_mod_cast this
  have cw : 2 * vXF fl cfg r img.width * (img.width * resXF fl cfg r img.width : ℕ) < 2 ^ 32 := by
    have h1 := wx.trans ((by linarith : _ ≤ _).trans S.wide)
    have h2 : 2 * vXF fl cfg r img.width * (img.width * resXF fl cfg r img.width : ℕ) + 1 ≤ 2 ^ 32 := by exact_mod_cast h1
    omega
  have hw : |r.weight| ≤ 2 ^ 22 := by
    have hi := S.intensity
    have e : r.weight = (o.intensity.getD 5 * 254).tdiv 100 := rfl
    rw [e, Int.tdiv_eq_ediv_of_nonneg (by omega), abs_le]
    norm_num
    omega
  have key := Checked.raster_eq (p := paramsF fl cfg r img.width img.height) (img := img) hM
    ⟨cx, cy, by have := hl; rw [Nat.mul_comm] at this; norm_num at this; exact this⟩ ⟨hb, hw, S.grey⟩ (S.ticks_near R rfl).1
    (S.interval_lt R) (S.step_le R) (S.v_nonneg R).1 (S.v_nonneg R).2 cw
  unfold Checked.rasterMain rasterMainF
  rw [← hr]
  simp only [key]
  rfl

/-- C107: so such a picture is burnt as in C105 by the program with checked arithmetic too, which does not panic. -/
theorem C107_program (fl : ℝ → ℝ) (R : FloatRounding fl) (cfg : Xy) (o : RasterOptions) (img : Image) (w h d v : ℝ)
    (S : Scannable fl cfg o img w h d v) (hb : ∀ i, vLimitF fl cfg o.vMax i ≤ 2 ^ 24) :
    ∃ (es : List Event) (lines : ℕ), |(lines : ℝ) - h / (img.height * d)| ≤ 501 / 1000 ∧
      Burns (cfg.stepper .x).stepsPerMillimeter (cfg.stepper .y).stepsPerMillimeter w h
        ((w * cfg.ticksPerSecond / v + img.width + 2) / |(cfg.stepper .x).stepsPerMillimeter|)
        (((h / d + img.height) / 2 + 2) / |(cfg.stepper .y).stepsPerMillimeter|)
        (weightOf (o.intensity.getD 5)) lines img es ∧
      (∀ port port', Checked.rasterMain fl cfg o img port = some (some port') →
        ∃ (r0 : List Char) (t0 : ℤ) (rs : List Round), readInt r0 = some t0 ∧
          (accepted rs).map decodeLine = (Spec.absolute (t0 + 128) es).map some ∧
          port'.log = port.log ++ ((['T'], r0) :: rs).flatMap Round.acts) ∧
      ∀ (port : Port) (r0 : List Char) (t0 : ℤ) (full : List ℕ) (m : ℕ), full.length = es.length → '\n' ∉ r0 →
        readInt r0 = some t0 → i64Min ≤ t0 ∧ t0 ≤ i64Max →
        Delivers port.input port.reads (r0 ++ '\n' :: full.flatMap answers) m → (∀ n, port.writeOk n = true) →
        ∃ port', Checked.rasterMain fl cfg o img port = some (some port') := by
  simp only [C107_same fl R cfg o img w h d v S hb]
  exact C105_program fl R cfg o img w h d v S

-- the sample picture
example : ∃ c', Checked.raster sampleParams samplePicture (Ctx.new sampleA sampleV) = some c' := by
  obtain ⟨c', h, -⟩ := C107_no_overflow sampleParams samplePicture sampleA sampleV sample_machine (fun _ => by norm_num [sampleV])
    (by norm_num [sampleParams, samplePicture, sampleV]) (by norm_num [sampleParams, samplePicture, sampleV])
    (by norm_num [sampleParams, samplePicture]) (by norm_num [sampleParams])
    (by norm_num [sampleParams, samplePicture]) (by norm_num [sampleParams]) (by norm_num [sampleParams])
    (by norm_num [sampleParams, sampleV]) (by norm_num [sampleParams, samplePicture]) (by norm_num [sampleParams]) (by
      intro x y
      unfold samplePicture
      simp only
      split_ifs <;> norm_num)
  exact ⟨c', h⟩

example (port : Port) : Checked.rasterMain double (sampleConfig 1) ⟨none, none, none, none, none, none, none⟩ samplePicture port =
    rasterMainF double (sampleConfig 1) ⟨none, none, none, none, none, none, none⟩ samplePicture port :=
  C107_same double C90_double _ _ _ _ _ _ _ sample_scannable (fun i => by rw [sample_limitsF.2]; norm_num [sampleV]) port

end StepperPaths.Props
