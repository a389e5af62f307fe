import Verif.Proof.RoundedRaster
import Verif.Props.RoundedProgram
import Verif.Props.RasterProgram

/-! # C105: the program `image_raster` with rounding, from the options to what is burnt -/

namespace StepperPaths.Props
open Context IntegerCurve Spec Raster Draw Program Config Control Rounded

/-- C105: without rounding, the model with rounding is the exact model, as long as the two products that only it
checks do not overflow. -/
theorem C105_exact (cfg : Xy) (o : RasterOptions) (img : Image) (port : Port) (ht : cfg.ticksPerSecond < 2 ^ 31)
    (hh : |resY (o.request img.width img.height) img.height * stepY cfg (o.request img.width img.height) img.height| < 2 ^ 63)
    (hh' : |resY (o.request img.width img.height) img.height * stepY cfg (o.request img.width img.height) img.height *
      img.height| < 2 ^ 63) :
    rasterMainF id cfg o img port = rasterMain cfg o img port := by
  have hq : requestF id o img.width img.height = o.request img.width img.height := by
    unfold requestF RasterOptions.request
    have : pictureSizeF id o.width o.height img.width img.height = pictureSize o.width o.height img.width img.height := by
      unfold pictureSizeF pictureSize
      cases o.width <;> cases o.height <;> rfl
    rw [this]
    rfl
  have hp : paramsF id cfg (o.request img.width img.height) img.width img.height =
      params cfg (o.request img.width img.height) img.width img.height := by
    unfold paramsF params
    have h1 : resXF id cfg (o.request img.width img.height) img.width = resX cfg (o.request img.width img.height) img.width := rfl
    have h2 : resYF id (o.request img.width img.height) img.height = resY (o.request img.width img.height) img.height := rfl
    unfold vXF vX stepYF stepY
    rw [h1, h2]
    simp [widthF]
  have hv : vLimitF id cfg o.vMax = vLimit cfg o.vMax := by
    funext i
    cases h : o.vMax <;> simp [vLimitF, vLimit, cfgVScale, Config.vScale]
  have ha : rasterALimitF id cfg o.aMax = rasterALimit cfg o.aMax := by
    funext i
    cases h : o.aMax <;> simp [rasterALimitF, rasterALimit, rasterAScaleF, rasterAScale, cfgVScale, Config.vScale]
  unfold rasterMainF rasterMain
  norm_num at ht
  have h2 : mulU32 2 cfg.ticksPerSecond = some (2 * cfg.ticksPerSecond) := if_pos (by omega)
  have h3 : realHeight (params cfg (o.request img.width img.height) img.width img.height) img =
      some (resY (o.request img.width img.height) img.height * stepY cfg (o.request img.width img.height) img.height * img.height) := by
    rw [abs_lt] at hh hh'
    norm_num at hh hh'
    unfold realHeight params
    simp only [cassert]
    rw [if_pos (by omega), Option.bind_eq_bind, Option.bind_some, if_pos (by omega)]
    rfl
  simp only [h2, hq, hp, h3, hv, ha, Option.bind_eq_bind, Option.bind_some]
  rfl

/-- C105: the largest acceleration, in steps per two square ticks: as in the exact model, also the one of the y axis
is computed with the scale of the x axis. -/
theorem C105_acceleration (fl : ℝ → ℝ) (R : FloatRounding fl) (c : Xy) (i : Axis) (opt : Option ℝ) (ht : 1 ≤ c.ticksPerSecond)
    (hm : |opt.getD (c.stepper i).maxAcceleration| ≤ 2 ^ 40) (h0 : 0 ≤ opt.getD (c.stepper i).maxAcceleration)
    (hx : |(c.stepper .x).stepsPerMillimeter / (2 * c.ticksPerSecond) / c.ticksPerSecond * opt.getD (c.stepper i).maxAcceleration| ≤ 2 ^ 31 - 3) :
    |(rasterALimitF fl c opt i : ℝ) -
        (|(c.stepper .x).stepsPerMillimeter / (2 * c.ticksPerSecond) / c.ticksPerSecond * opt.getD (c.stepper i).maxAcceleration|)| ≤
      (if opt = none then 1 / 2 else 1) + 1 / 1000 := by
  have key : |rasterAScaleF fl c - (c.stepper .x).stepsPerMillimeter / (2 * c.ticksPerSecond) / c.ticksPerSecond| ≤ _ :=
    aScale_near R c .x ht
  have hx' : |(|(c.stepper .x).stepsPerMillimeter / (2 * c.ticksPerSecond) / c.ticksPerSecond * opt.getD (c.stepper i).maxAcceleration|)| ≤ 2 ^ 31 - 3 := by
    rw [abs_abs]
    exact hx
  cases opt with
  | none =>
    rw [abs_mul, abs_of_nonneg h0] at hx' ⊢
    have key' : |(|rasterAScaleF fl c|) - (|(c.stepper .x).stepsPerMillimeter / (2 * c.ticksPerSecond) / c.ticksPerSecond|)| ≤
        3 * (1 / 2 ^ 53 * |(|(c.stepper .x).stepsPerMillimeter / (2 * c.ticksPerSecond) / c.ticksPerSecond|)| + 1 / 2 ^ 100) := by
      rw [abs_abs]
      exact (abs_abs_sub_abs_le _ _).trans key
    have hp := product_near R key' hm (hx'.trans (by norm_num))
    exact satI32_near hp hx' (Picture.round_half _) (by norm_num)
  | some value =>
    have hp' := (abs_abs_sub_abs_le _ _).trans (product_near R key hm (hx.trans (by norm_num)))
    rw [mul_comm] at hp'
    exact satI32_near hp' hx' (Tracking.trunc_near _) le_rfl

/-- What is asked of the configuration and the options.  `w` and `h` are the size of the picture in mm, `d` the spot
in mm, `v` the drawing speed in mm/s; none of them is tiny.
The speed limit is at least one and a half times the drawing speed, and a move over the whole picture takes less than 65535
ticks with full speed. -/
structure Scannable (fl : ℝ → ℝ) (cfg : Xy) (o : RasterOptions) (img : Image) (w h d v : ℝ) : Prop where
  machine : Machine (rasterALimitF fl cfg o.aMax) (vLimitF fl cfg o.vMax)
  ticks : 1 ≤ cfg.ticksPerSecond ∧ cfg.ticksPerSecond < 2 ^ 31
  pixels : (1 ≤ img.width ∧ img.width < 2 ^ 32) ∧ 1 ≤ img.height ∧ img.height < 2 ^ 32
  grey : ∀ x y, img.pixel x y ≤ 255
  intensity : 0 ≤ o.intensity.getD 5 ∧ o.intensity.getD 5 ≤ 100
  size : pictureSize o.width o.height img.width img.height = (w, h)
  spot : o.spot.getD (1 / 5) = d
  drawSpeed : o.drawSpeed.getD 20 = v
  scaleX : 1 / 2 ^ 20 ≤ (cfg.stepper .x).stepsPerMillimeter
  scaleY : 1 / 2 ^ 20 ≤ |(cfg.stepper .y).stepsPerMillimeter|
  bigW : 1 / 2 ^ 20 ≤ w
  bigH : 1 / 2 ^ 20 ≤ h
  bigD : 1 / 2 ^ 20 ≤ d ∧ d ≤ 2 ^ 31
  bigV : 1 / 2 ^ 20 ≤ v ∧ v ≤ 2 ^ 31
  fast : 151 / 100 * (v * (cfg.stepper .x).stepsPerMillimeter / (2 * cfg.ticksPerSecond)) + 1 ≤ vLimitF fl cfg o.vMax .x
  wide : w * (cfg.stepper .x).stepsPerMillimeter + 2 * (w * cfg.ticksPerSecond / v + img.width) + 2 ≤ 2 ^ 32
  reachX : w * (cfg.stepper .x).stepsPerMillimeter + 2 * (w * cfg.ticksPerSecond / v + img.width) + 2 ≤
    vLimitF fl cfg o.vMax .x * 65535
  reachY : h * |(cfg.stepper .y).stepsPerMillimeter| + (h / d + img.height) + 2 ≤ vLimitF fl cfg o.vMax .y * 65535
  lines : h / d + img.height ≤ 2 ^ 31
  small : |(cfg.stepper .y).stepsPerMillimeter| * d ≤ 2 ^ 27

namespace Scannable

variable {fl : ℝ → ℝ} {cfg : Xy} {o : RasterOptions} {img : Image} {w h d v : ℝ}

theorem width_rel (S : Scannable fl cfg o img w h d v) (R : FloatRounding fl) : Rel 4 (requestF fl o img.width img.height).width w :=
  (pictureSize_rel R (by have := S.pixels.1.1; omega) (by have := S.pixels.2.1; omega) S.bigW S.bigH S.size).1

theorem height_rel (S : Scannable fl cfg o img w h d v) (R : FloatRounding fl) : Rel 4 (requestF fl o img.width img.height).height h :=
  (pictureSize_rel R (by have := S.pixels.1.1; omega) (by have := S.pixels.2.1; omega) S.bigW S.bigH S.size).2

theorem spot_rel (S : Scannable fl cfg o img w h d v) (R : FloatRounding fl) : Rel 2 (requestF fl o img.width img.height).spot d := by
  rw [← S.spot]
  unfold requestF
  simp only
  cases o.spot with
  | none =>
    show Rel 2 (fl (1 / 5)) (1 / 5)
    exact (Rel.refl (1 / 5)).fl R (by norm_num) (by rw [abs_of_pos (by norm_num)]; norm_num)
  | some x => exact (Rel.refl _).mono (by norm_num)

theorem speed_eq (S : Scannable fl cfg o img w h d v) : (requestF fl o img.width img.height).speed = v := S.drawSpeed

/-- The ticks of a pixel. -/
theorem ticks_near (S : Scannable fl cfg o img w h d v) (R : FloatRounding fl) {n : ℕ}
    (hn : resXF fl cfg (requestF fl o img.width img.height) img.width = n) :
    1 ≤ n ∧ (n : ℝ) ≤ w * cfg.ticksPerSecond / (img.width * v) + 1 ∧ w * cfg.ticksPerSecond / (img.width * v) ≤ 1501 / 1000 * n ∧
      (51 / 100 ≤ w * cfg.ticksPerSecond / (img.width * v) → |(n : ℝ) - w * cfg.ticksPerSecond / (img.width * v)| ≤ 501 / 1000) := by
  have hx : (1 : ℝ) ≤ img.width := by exact_mod_cast S.pixels.1.1
  have hw0 : 0 < w := lt_of_lt_of_le (by norm_num) S.bigW
  have hv0 : 0 < v := lt_of_lt_of_le (by norm_num) S.bigV.1
  have hs0 : 0 < (cfg.stepper .x).stepsPerMillimeter := lt_of_lt_of_le (by norm_num) S.scaleX
  have h1 := ticks_rel R (x := img.width) (S.width_rel R) S.bigW (big_pos S.scaleX) (by rw [S.speed_eq]; exact S.bigV.1) S.ticks.1 S.pixels.1.1
    S.pixels.1.2 (by rw [S.speed_eq]; exact S.bigV.2)
  rw [S.speed_eq] at h1
  have hq : w * cfg.ticksPerSecond / (img.width * v) = w * cfg.ticksPerSecond / v / img.width := by field_simp
  have hwide := S.wide
  have hq0 : 0 ≤ w * cfg.ticksPerSecond / v := by positivity
  have hq1 : w * cfg.ticksPerSecond / v / img.width ≤ w * cfg.ticksPerSecond / v := div_le_self hq0 hx
  have hws : 0 < w * (cfg.stepper .x).stepsPerMillimeter := by positivity
  have h2 := satU32_near h1 (by norm_num) (by positivity) (by rw [hq]; norm_num at hwide ⊢; linarith)
  set q := w * cfg.ticksPerSecond / (img.width * v) with hqd
  have q0 : 0 ≤ q := by positivity
  unfold resXF at hn
  rw [S.speed_eq] at hn
  generalize satU32 _ = k at hn h2
  subst hn
  have h3 := abs_le.1 h2
  rcases Nat.eq_zero_or_pos k with rfl | hk
  · norm_num at h3 ⊢
    refine ⟨q0, by linarith, fun h51 => ?_⟩
    linarith
  · rw [max_eq_right (by omega)]
    have : (1 : ℝ) ≤ k := by exact_mod_cast hk
    norm_num at h3 h2
    refine ⟨hk, by linarith, by linarith, fun _ => h2.trans (by norm_num)⟩

/-- The lines of a row. -/
theorem lines_near (S : Scannable fl cfg o img w h d v) (R : FloatRounding fl) :
    |(resYF fl (requestF fl o img.width img.height) img.height : ℝ) - h / (img.height * d)| ≤ 501 / 1000 := by
  have hy : (1 : ℝ) ≤ img.height := by exact_mod_cast S.pixels.2.1
  have hh0 : 0 < h := lt_of_lt_of_le (by norm_num) S.bigH
  have hd0 : 0 < d := lt_of_lt_of_le (by norm_num) S.bigD.1
  have h1 := lines_rel R (y := img.height) (S.height_rel R) (S.spot_rel R) S.bigH S.bigD.1 S.bigD.2 S.pixels.2.1 S.pixels.2.2
  have hq : h / (img.height * d) = h / d / img.height := by field_simp
  have hl := S.lines
  have hq1 : h / d / img.height ≤ h / d := div_le_self (by positivity) hy
  have h2 := satU32_near h1 (by norm_num) (by positivity) (by rw [hq]; norm_num at hl ⊢; linarith)
  exact h2.trans (by norm_num)

/-- The ticks of a line. -/
theorem interval_le (S : Scannable fl cfg o img w h d v) (R : FloatRounding fl) :
    ((img.width * resXF fl cfg (requestF fl o img.width img.height) img.width : ℕ) : ℝ) ≤ w * cfg.ticksPerSecond / v + img.width := by
  have hx : (1 : ℝ) ≤ img.width := by exact_mod_cast S.pixels.1.1
  have hv0 : 0 < v := lt_of_lt_of_le (by norm_num) S.bigV.1
  obtain ⟨-, h1, -⟩ := S.ticks_near R rfl
  push_cast
  refine (mul_le_mul_of_nonneg_left h1 (by linarith)).trans (le_of_eq ?_)
  field_simp

theorem interval_lt (S : Scannable fl cfg o img w h d v) (R : FloatRounding fl) :
    img.width * resXF fl cfg (requestF fl o img.width img.height) img.width < 2 ^ 31 := by
  have hw0 : 0 < w := lt_of_lt_of_le (by norm_num) S.bigW
  have hs0 : 0 < (cfg.stepper .x).stepsPerMillimeter := lt_of_lt_of_le (by norm_num) S.scaleX
  have h1 := S.interval_le R
  have h2 := S.wide
  have h3 : 0 < w * (cfg.stepper .x).stepsPerMillimeter := by positivity
  have : ((img.width * resXF fl cfg (requestF fl o img.width img.height) img.width : ℕ) : ℝ) < 2 ^ 31 := by
    have : (2 : ℝ) ^ 32 = 2 * 2 ^ 31 := by norm_num
    linarith
  exact_mod_cast this

/-- All lines. -/
theorem all_lines (S : Scannable fl cfg o img w h d v) (R : FloatRounding fl) :
    ((resYF fl (requestF fl o img.width img.height) img.height * img.height : ℕ) : ℝ) ≤ h / d + img.height := by
  have hy : (1 : ℝ) ≤ img.height := by exact_mod_cast S.pixels.2.1
  have hd0 : 0 < d := lt_of_lt_of_le (by norm_num) S.bigD.1
  have h1 := (abs_le.1 (S.lines_near R)).2
  push_cast
  have : (resYF fl (requestF fl o img.width img.height) img.height : ℝ) ≤ h / (img.height * d) + 1 := by linarith
  refine (mul_le_mul_of_nonneg_right this (by linarith)).trans (le_of_eq ?_)
  field_simp

theorem all_lines_lt (S : Scannable fl cfg o img w h d v) (R : FloatRounding fl) :
    resYF fl (requestF fl o img.width img.height) img.height * img.height < 2 ^ 32 := by
  have h1 := S.all_lines R
  have h2 := S.lines
  have : ((resYF fl (requestF fl o img.width img.height) img.height * img.height : ℕ) : ℝ) < 2 ^ 32 :=
    lt_of_le_of_lt (h1.trans h2) (by norm_num)
  exact_mod_cast this

theorem high (S : Scannable fl cfg o img w h d v) : h * |(cfg.stepper .y).stepsPerMillimeter| ≤ 2 ^ 46 := by
  have h1 := S.reachY
  have h2 : ((vLimitF fl cfg o.vMax .y : ℤ) : ℝ) ≤ 2 ^ 30 := by exact_mod_cast (S.machine.v2 .y).le
  have h3 : 0 ≤ h / d := div_nonneg (le_trans (by norm_num) S.bigH) (le_trans (by norm_num) S.bigD.1)
  have h4 : (0 : ℝ) ≤ img.height := by positivity
  norm_num at h2 ⊢
  linarith

/-- A pixel edge. -/
theorem edges (S : Scannable fl cfg o img w h d v) (R : FloatRounding fl) (x : ℕ) (hx : x ≤ img.width) :
    |(2 * vXF fl cfg (requestF fl o img.width img.height) img.width *
        (resXF fl cfg (requestF fl o img.width img.height) img.width * x) : ℝ) -
      part w x img.width * (cfg.stepper .x).stepsPerMillimeter| ≤ w * cfg.ticksPerSecond / v + img.width + 1 / 10 := by
  set r := requestF fl o img.width img.height with hr
  set s := (cfg.stepper .x).stepsPerMillimeter with hs
  have hw0 : 0 < w := lt_of_lt_of_le (by norm_num) S.bigW
  have hs0 : 0 < s := lt_of_lt_of_le (by norm_num) S.scaleX
  have hX : (1 : ℝ) ≤ img.width := by exact_mod_cast S.pixels.1.1
  have hi := S.interval_le R
  have hi0 : 0 ≤ w * cfg.ticksPerSecond / v := by
    have : 0 < v := lt_of_lt_of_le (by norm_num) S.bigV.1
    positivity
  have hwide := S.wide
  have h1 := vXF_near R (S.width_rel R) S.bigW S.scaleX S.pixels.1.1 (S.interval_lt R) (by
    norm_num at hwide ⊢
    linarith)
  obtain ⟨h2, -⟩ := S.ticks_near R rfl
  rw [← hr] at h1 h2 hi
  rw [← hs] at h1 hwide
  push_cast at h1 hi
  have n1 : (1 : ℝ) ≤ resXF fl cfg r img.width := by exact_mod_cast h2
  generalize (resXF fl cfg r img.width : ℝ) = n at *
  generalize (vXF fl cfg r img.width : ℝ) = z at *
  have hx' : (x : ℝ) ≤ img.width := by exact_mod_cast hx
  have x0 : (0 : ℝ) ≤ x := by positivity
  have e : 2 * z * (n * x) - part w x img.width * s = 2 * n * x * (z - w * s / (2 * (img.width * n))) := by
    unfold part
    field_simp
  rw [e, abs_mul, abs_of_nonneg (by positivity)]
  have h3 := mul_le_mul_of_nonneg_left h1 (show 0 ≤ 2 * n * x by positivity)
  refine h3.trans ?_
  have e2 : 2 * n * x * (1 / 2 + 1 / 2 ^ 49 * (w * s / (2 * (img.width * n)))) = n * x + 1 / 2 ^ 49 * (w * s * (x / img.width)) := by
    field_simp
  rw [e2]
  have h4 : n * x ≤ img.width * n := by nlinarith
  have h5 : (x : ℝ) / img.width ≤ 1 := (div_le_one (by linarith)).2 hx'
  have h6 : w * s * (x / img.width) ≤ w * s := mul_le_of_le_one_right (by positivity) h5
  have h7 : (1 : ℝ) / 2 ^ 49 * (w * s * (x / img.width)) ≤ 1 / 10 := by
    norm_num at hwide ⊢
    linarith
  linarith

/-- A line. -/
theorem rows (S : Scannable fl cfg o img w h d v) (R : FloatRounding fl) (k : ℕ)
    (h1 : 1 ≤ resYF fl (requestF fl o img.width img.height) img.height)
    (hk : k ≤ resYF fl (requestF fl o img.width img.height) img.height * img.height) :
    |(k * stepYF fl cfg (requestF fl o img.width img.height) img.height : ℝ) -
      part h k (resYF fl (requestF fl o img.width img.height) img.height * img.height) * (cfg.stepper .y).stepsPerMillimeter| ≤
      (h / d + img.height) / 2 + 1 / 8 := by
  set r := requestF fl o img.width img.height with hr
  set s := (cfg.stepper .y).stepsPerMillimeter with hs
  have hh0 : 0 < h := lt_of_lt_of_le (by norm_num) S.bigH
  have hi := S.all_lines R
  have hH := S.high
  have h2 := stepYF_near R (S.height_rel R) S.bigH S.scaleY S.pixels.2.1 h1 (S.all_lines_lt R) (hH.trans (by norm_num))
  rw [← hr] at h2 hi
  rw [← hs] at h2 hH
  have hn1 : 1 ≤ resYF fl r img.height * img.height := Nat.mul_pos h1 S.pixels.2.1
  unfold part
  generalize resYF fl r img.height * img.height = n at *
  have n1 : (1 : ℝ) ≤ n := by exact_mod_cast hn1
  generalize (stepYF fl cfg r img.height : ℝ) = z at *
  have hk' : (k : ℝ) ≤ n := by exact_mod_cast hk
  have k0 : (0 : ℝ) ≤ k := by positivity
  have e : k * z - h * (k / n) * s = k * (z - h * s / n) := by
    field_simp
  rw [e, abs_mul, abs_of_nonneg k0]
  have h3 := mul_le_mul_of_nonneg_left h2 k0
  refine h3.trans ?_
  have e2 : (k : ℝ) * (1 / 2 + 1 / 2 ^ 49 * (h * |s| / n)) = k / 2 + 1 / 2 ^ 49 * (h * |s| * (k / n)) := by
    field_simp
  rw [e2]
  have h5 : (k : ℝ) / n ≤ 1 := (div_le_one (by linarith)).2 hk'
  have h6 : h * |s| * (k / n) ≤ h * |s| := mul_le_of_le_one_right (by positivity) h5
  have h7 : (1 : ℝ) / 2 ^ 49 * (h * |s| * (k / n)) ≤ 1 / 8 := by
    norm_num at hH ⊢
    linarith
  linarith

theorem v_nonneg (S : Scannable fl cfg o img w h d v) (R : FloatRounding fl) :
    0 ≤ vXF fl cfg (requestF fl o img.width img.height) img.width ∧
      vXF fl cfg (requestF fl o img.width img.height) img.width ≤ vLimitF fl cfg o.vMax .x := by
  set r := requestF fl o img.width img.height with hr
  set s := (cfg.stepper .x).stepsPerMillimeter with hs
  have hw0 : 0 < w := lt_of_lt_of_le (by norm_num) S.bigW
  have hs0 : 0 < s := lt_of_lt_of_le (by norm_num) S.scaleX
  have hv0 : 0 < v := lt_of_lt_of_le (by norm_num) S.bigV.1
  have hX : (1 : ℝ) ≤ img.width := by exact_mod_cast S.pixels.1.1
  have hT : (1 : ℝ) ≤ cfg.ticksPerSecond := by exact_mod_cast S.ticks.1
  have hwide := S.wide
  have hi0 : 0 ≤ w * cfg.ticksPerSecond / v := by positivity
  have h1 := vXF_near R (S.width_rel R) S.bigW S.scaleX S.pixels.1.1 (S.interval_lt R) (by
    norm_num at hwide ⊢
    linarith)
  obtain ⟨h2, -, h3, -⟩ := S.ticks_near R rfl
  have hf := S.fast
  rw [← hr] at h1 h2 h3
  rw [← hs] at h1 hf
  push_cast at h1
  have n1 : (1 : ℝ) ≤ resXF fl cfg r img.width := by exact_mod_cast h2
  generalize (resXF fl cfg r img.width : ℝ) = n at *
  have e : w * s / (2 * (img.width * n)) = w * cfg.ticksPerSecond / (img.width * v) / n * (v * s / (2 * cfg.ticksPerSecond)) := by
    field_simp
  have h4 : w * cfg.ticksPerSecond / (img.width * v) / n ≤ 1501 / 1000 := (div_le_iff₀ (by linarith)).2 h3
  have h5 : w * s / (2 * (img.width * n)) ≤ 1501 / 1000 * (v * s / (2 * cfg.ticksPerSecond)) := by
    rw [e]
    exact mul_le_mul_of_nonneg_right h4 (by positivity)
  have h6 : 0 < w * s / (2 * (img.width * n)) := by positivity
  have h7 := abs_le.1 h1
  constructor
  · by_contra hc
    have : vXF fl cfg r img.width ≤ -1 := by omega
    have : (vXF fl cfg r img.width : ℝ) ≤ -1 := by exact_mod_cast this
    norm_num at h7
    linarith
  · have : (vXF fl cfg r img.width : ℝ) ≤ vLimitF fl cfg o.vMax .x := by
      norm_num at h7
      linarith
    exact_mod_cast this

theorem step_le (S : Scannable fl cfg o img w h d v) (R : FloatRounding fl) :
    |stepYF fl cfg (requestF fl o img.width img.height) img.height| ≤ 2 ^ 28 := by
  set r := requestF fl o img.width img.height with hr
  set s := (cfg.stepper .y).stepsPerMillimeter with hs
  rcases Nat.eq_zero_or_pos (resYF fl r img.height) with h0 | h1
  · have z : fl 0 = 0 := by simpa using R.int 0 (by norm_num)
    have : stepYF fl cfg r img.height = 0 := by
      unfold stepYF
      rw [h0]
      have f : ⌊(2⁻¹ : ℝ)⌋ = 0 := by norm_num
      simp [z, Draw.round, satI64, f]
    rw [this]
    norm_num
  have hh0 : 0 < h := lt_of_lt_of_le (by norm_num) S.bigH
  have hd0 : 0 < d := lt_of_lt_of_le (by norm_num) S.bigD.1
  have hY : (1 : ℝ) ≤ img.height := by exact_mod_cast S.pixels.2.1
  have hH := S.high
  have h2 := stepYF_near R (S.height_rel R) S.bigH S.scaleY S.pixels.2.1 h1 (S.all_lines_lt R) (hH.trans (by norm_num))
  have h3 := (abs_le.1 (S.lines_near R)).1
  have hsm := S.small
  rw [← hr] at h2 h3
  rw [← hs] at h2 hH hsm
  have n1 : (1 : ℝ) ≤ resYF fl r img.height := by exact_mod_cast h1
  push_cast at h2
  generalize (resYF fl r img.height : ℝ) = n at *
  have e : h * |s| / (n * img.height) = h / (img.height * d) / n * (|s| * d) := by
    field_simp
  have h4 : h / (img.height * d) / n ≤ 1501 / 1000 := (div_le_iff₀ (by linarith)).2 (by linarith)
  have h5 : h * |s| / (n * img.height) ≤ 1501 / 1000 * (|s| * d) := by
    rw [e]
    exact mul_le_mul_of_nonneg_right h4 (by positivity)
  have e3 : |h * s / (n * img.height)| = h * |s| / (n * img.height) := by
    rw [abs_div, abs_mul, abs_of_pos hh0, abs_of_pos (by positivity : 0 < n * (img.height : ℝ))]
  have h6 := abs_sub_abs_le_abs_sub (stepYF fl cfg r img.height : ℝ) (h * s / (n * img.height))
  rw [e3] at h6
  have : |(stepYF fl cfg r img.height : ℝ)| ≤ 2 ^ 28 := by
    norm_num at h2 hsm ⊢
    linarith
  exact_mod_cast this

theorem way_x (S : Scannable fl cfg o img w h d v) (R : FloatRounding fl) :
    ((2 * vXF fl cfg (requestF fl o img.width img.height) img.width *
      (img.width * resXF fl cfg (requestF fl o img.width img.height) img.width : ℕ) : ℤ) : ℝ) + 1 ≤
      w * (cfg.stepper .x).stepsPerMillimeter + 2 * (w * cfg.ticksPerSecond / v + img.width) + 1 := by
  have h1 := (abs_le.1 (S.edges R img.width le_rfl)).2
  have hX : (1 : ℝ) ≤ img.width := by exact_mod_cast S.pixels.1.1
  have hw0 : 0 < w := lt_of_lt_of_le (by norm_num) S.bigW
  have hv0 : 0 < v := lt_of_lt_of_le (by norm_num) S.bigV.1
  have hi0 : 0 ≤ w * cfg.ticksPerSecond / v := by positivity
  have e : part w img.width img.width = w := by
    unfold part
    field_simp
  rw [e] at h1
  push_cast
  rw [mul_comm (img.width : ℝ)]
  linarith

theorem way_y (S : Scannable fl cfg o img w h d v) (R : FloatRounding fl) :
    ((|stepYF fl cfg (requestF fl o img.width img.height) img.height| *
      (img.height * resYF fl (requestF fl o img.width img.height) img.height : ℕ) : ℤ) : ℝ) + 1 ≤
      h * |(cfg.stepper .y).stepsPerMillimeter| + (h / d + img.height) + 2 := by
  have hh0 : 0 < h := lt_of_lt_of_le (by norm_num) S.bigH
  have hd0 : 0 < d := lt_of_lt_of_le (by norm_num) S.bigD.1
  have hY : (1 : ℝ) ≤ img.height := by exact_mod_cast S.pixels.2.1
  have hi0 : 0 ≤ h / d := by positivity
  rcases Nat.eq_zero_or_pos (resYF fl (requestF fl o img.width img.height) img.height) with h0 | h1
  · rw [h0]
    have : 0 ≤ h * |(cfg.stepper .y).stepsPerMillimeter| := by positivity
    simp only [Nat.cast_zero, mul_zero, Int.cast_zero]
    linarith
  have h2 := S.rows R _ h1 le_rfl
  have hn1 : 1 ≤ resYF fl (requestF fl o img.width img.height) img.height * img.height := Nat.mul_pos h1 S.pixels.2.1
  rw [Nat.mul_comm img.height]
  unfold part at h2
  generalize resYF fl (requestF fl o img.width img.height) img.height * img.height = n at *
  have n1 : (1 : ℝ) ≤ n := by exact_mod_cast hn1
  rw [div_self (by linarith), mul_one] at h2
  have h3 := abs_sub_abs_le_abs_sub (n * stepYF fl cfg (requestF fl o img.width img.height) img.height : ℝ)
    (h * (cfg.stepper .y).stepsPerMillimeter)
  rw [abs_mul, abs_mul, abs_of_pos hh0, abs_of_pos (by linarith : (0 : ℝ) < n)] at h3
  push_cast
  rw [mul_comm]
  linarith

end Scannable

theorem burns_mono {sx sy W H ex ey ex' ey' : ℝ} {wt : ℤ} {lines : ℕ} {img : Image} {es : List Event}
    (B : Burns sx sy W H ex ey wt lines img es) (hx : ex ≤ ex') (hy : ey ≤ ey') : Burns sx sy W H ex' ey' wt lines img es := by
  refine ⟨fun w0 τ h => ?_, fun x y line h1 h2 h3 h4 => ?_, B.home⟩
  · obtain ⟨x, y, line, k1, k2, k3, k4, k5⟩ := B.only w0 τ h
    refine ⟨x, y, line, k1, k2, k3, k4, fun σ hσ => ?_⟩
    obtain ⟨j1, j2, j3⟩ := k5 σ hσ
    exact ⟨by linarith, by linarith, j3.trans hy⟩
  · obtain ⟨u, v, k1, k2, k3, ltr, k4, k5⟩ := B.all x y line h1 h2 h3 h4
    exact ⟨u, v, k1, k2, fun τ a b => (k3 τ a b).trans hy, ltr, k4.trans hx, k5.trans hx⟩

/-- C105: the program `image_raster` with rounding.  For a picture that the machine can scan there are events such
that a controller that plays them burns the picture in the requested size, in lines that are about as far apart as
the spot is wide.  The tolerances are, in half steps, one for each tick of a line or half a one for
each line, and two more.  When the program ends normally the controller has accepted exactly these events; and it ends
normally if the controller reports its time and accepts every event, after any number of queue-full replies. -/
theorem C105_program (fl : ℝ → ℝ) (R : FloatRounding fl) (cfg : Xy) (o : RasterOptions) (img : Image) (w h d v : ℝ)
    (S : Scannable fl cfg o img w h d v) :
    ∃ (es : List Event) (lines : ℕ), |(lines : ℝ) - h / (img.height * d)| ≤ 501 / 1000 ∧
      Burns (cfg.stepper .x).stepsPerMillimeter (cfg.stepper .y).stepsPerMillimeter w h
        ((w * cfg.ticksPerSecond / v + img.width + 2) / |(cfg.stepper .x).stepsPerMillimeter|)
        (((h / d + img.height) / 2 + 2) / |(cfg.stepper .y).stepsPerMillimeter|)
        (weightOf (o.intensity.getD 5)) lines img es ∧
      (∀ port port', rasterMainF fl cfg o img port = some (some port') →
        ∃ (r0 : List Char) (t0 : ℤ) (rs : List Round), readInt r0 = some t0 ∧
          (accepted rs).map decodeLine = (Spec.absolute (t0 + 128) es).map some ∧
          port'.log = port.log ++ ((['T'], r0) :: rs).flatMap Round.acts) ∧
      ∀ (port : Port) (r0 : List Char) (t0 : ℤ) (full : List ℕ) (m : ℕ), full.length = es.length → '\n' ∉ r0 →
        readInt r0 = some t0 → i64Min ≤ t0 ∧ t0 ≤ i64Max →
        Delivers port.input port.reads (r0 ++ '\n' :: full.flatMap answers) m → (∀ n, port.writeOk n = true) →
        ∃ port', rasterMainF fl cfg o img port = some (some port') := by
  set r := requestF fl o img.width img.height with hr
  have hM := S.machine
  have wx := S.way_x R
  have wy := S.way_y R
  have hl := S.all_lines_lt R
  rw [← hr] at wx wy hl
  have cx : 2 * vXF fl cfg r img.width * (img.width * resXF fl cfg r img.width : ℕ) + 1 ≤ vLimitF fl cfg o.vMax .x * 65535 := by
    have := wx.trans ((by linarith : _ ≤ _).trans S.reachX)
    exact_mod_cast this
  have cy : |stepYF fl cfg r img.height| * (img.height * resYF fl r img.height : ℕ) + 1 ≤ vLimitF fl cfg o.vMax .y * 65535 := by
    have := wy.trans S.reachY
    exact_mod_cast this
  have cw : 2 * vXF fl cfg r img.width * (img.width * resXF fl cfg r img.width : ℕ) < 2 ^ 32 := by
    have h1 := wx.trans ((by linarith : _ ≤ _).trans S.wide)
    have h2 : 2 * vXF fl cfg r img.width * (img.width * resXF fl cfg r img.width : ℕ) + 1 ≤ 2 ^ 32 := by exact_mod_cast h1
    omega
  obtain ⟨c', hc⟩ := C57_returns (paramsF fl cfg r img.width img.height) img _ _ hM cx cy
    (by rw [Nat.mul_comm]; exact hl) (S.ticks_near R rfl).1 (S.interval_lt R) (S.step_le R) (S.v_nonneg R).1 (S.v_nonneg R).2 cw
  have hi := S.intensity
  have ht := S.ticks
  have prog : ∀ port, rasterMainF fl cfg o img port = (playEvents port c'.events).bind fun r =>
      match r with
      | (.ok (), port) => some (some port)
      | (.error _, _) => none := by
    intro port
    have h2 : mulU32 2 cfg.ticksPerSecond = some (2 * cfg.ticksPerSecond) := if_pos (by have := ht.2; norm_num at this; omega)
    have hb : |(resYF fl r img.height : ℤ) * stepYF fl cfg r img.height * img.height| ≤ 2 ^ 46 := by
      have e : |(resYF fl r img.height : ℤ) * stepYF fl cfg r img.height * img.height| =
          |stepYF fl cfg r img.height| * (img.height * resYF fl r img.height : ℕ) := by
        rw [abs_mul, abs_mul, abs_of_nonneg (by positivity : (0 : ℤ) ≤ resYF fl r img.height),
          abs_of_nonneg (by positivity : (0 : ℤ) ≤ img.height)]
        push_cast
        ring
      rw [e]
      have := hM.v2 .y
      norm_num at this ⊢
      push_cast at cy
      omega
    have hb' : |(resYF fl r img.height : ℤ) * stepYF fl cfg r img.height| ≤ 2 ^ 46 := by
      refine le_trans ?_ hb
      rw [abs_mul _ (img.height : ℤ)]
      have : (1 : ℤ) ≤ |(img.height : ℤ)| := by
        rw [abs_of_nonneg (by positivity)]
        exact_mod_cast S.pixels.2.1
      exact le_mul_of_one_le_right (abs_nonneg _) this
    have h3 : realHeight (paramsF fl cfg r img.width img.height) img =
        some (resYF fl r img.height * stepYF fl cfg r img.height * img.height) := by
      rw [abs_le] at hb hb'
      norm_num at hb hb'
      unfold realHeight paramsF
      simp only [cassert]
      rw [if_pos (by omega), Option.bind_eq_bind, Option.bind_some, if_pos (by omega)]
      rfl
    unfold rasterMainF
    simp only [h2, Option.bind_eq_bind, Option.bind_some]
    rw [if_neg (by omega), ← hr, h3, Option.bind_some, hc, Option.bind_some]
    have : cassert (cfg.ticksPerSecond ≠ 0) = some () := if_pos (by omega)
    rw [this]
    rfl
  refine ⟨c'.events, resYF fl r img.height, S.lines_near R, ?_, fun port port' h => ?_, fun port r0 t0 full d a1 a2 a3 a4 a5 a6 => ?_⟩
  · have hv := S.v_nonneg R
    rw [← hr] at hv
    have B := burns_scan (p := paramsF fl cfg r img.width img.height) (W := w) (H := h) hM.a1 hM.v1
      (fun i => by have := hM.v2 i; norm_num at this ⊢; omega) (lt_of_lt_of_le (by norm_num) S.scaleX)
      (fun h0 => by have := S.scaleY; rw [h0] at this; norm_num at this)
      ⟨le_trans (by norm_num) hv.1, lt_of_le_of_lt hv.2 (by have := hM.v2 .x; norm_num at this ⊢; omega)⟩ (S.ticks_near R rfl).1
      (S.edges R) (fun y hy rep hrep => S.rows R _ (show 1 ≤ resYF fl r img.height by simp only [paramsF] at hrep; omega) (by
        simp only [paramsF] at hrep ⊢
        rw [← hr]
        have : (y + 1) * resYF fl r img.height ≤ img.height * resYF fl r img.height := Nat.mul_le_mul_right _ hy
        rw [Nat.add_mul, Nat.one_mul] at this
        rw [Nat.mul_comm (resYF fl r img.height)]
        omega)) (S.step_le R) S.grey hc
    refine burns_mono B ?_ ?_
    · exact div_le_div_of_nonneg_right (by linarith) (abs_nonneg _)
    · exact div_le_div_of_nonneg_right (by linarith) (abs_nonneg _)
  · rw [prog] at h
    obtain ⟨⟨r, q⟩, h2, h⟩ := Option.bind_eq_some_iff.1 h
    cases r with
    | error _ => simp at h
    | ok _ =>
      simp at h
      cases h
      obtain ⟨r0, t0, rs, k1, k2, k3⟩ := C35_accepted _ _ _ h2
      exact ⟨r0, t0, rs, k1, k2, k3⟩
  · obtain ⟨p', k1, -⟩ := C35_returns port r0 t0 (c'.events.zip full) d a2 a3 a4 (by
      rw [← List.flatMap_map Prod.snd, List.map_snd_zip (by omega)]
      exact a5) a6
    rw [List.map_fst_zip (by omega)] at k1
    exact ⟨p', by rw [prog, k1]; rfl⟩

/-- C105: the lines of the picture are about as far apart as the spot is wide, and the head crosses the picture with
about the drawing speed.  (About: from a little less than half to a little more than one and a half times, if there is at
least about half a line or half a tick for each pixel.) -/
theorem C105_pitch (fl : ℝ → ℝ) (R : FloatRounding fl) (cfg : Xy) (o : RasterOptions) (img : Image) (w h d v : ℝ)
    (S : Scannable fl cfg o img w h d v) (r : Request) (hr : requestF fl o img.width img.height = r) :
    (51 / 100 * d ≤ h / img.height → 49 / 100 * d ≤ h / (resYF fl r img.height * img.height) ∧
      h / (resYF fl r img.height * img.height) ≤ 151 / 100 * d) ∧
    (51 / 100 * v ≤ w * cfg.ticksPerSecond / img.width →
      49 / 100 * v ≤ w * cfg.ticksPerSecond / (resXF fl cfg r img.width * img.width) ∧
      w * cfg.ticksPerSecond / (resXF fl cfg r img.width * img.width) ≤ 151 / 100 * v) := by
  have hd0 : 0 < d := lt_of_lt_of_le (by norm_num) S.bigD.1
  have hv0 : 0 < v := lt_of_lt_of_le (by norm_num) S.bigV.1
  have hX : (1 : ℝ) ≤ img.width := by exact_mod_cast S.pixels.1.1
  have hY : (1 : ℝ) ≤ img.height := by exact_mod_cast S.pixels.2.1
  have key : ∀ {n : ℕ} {q : ℝ}, 51 / 100 ≤ q → |(n : ℝ) - q| ≤ 501 / 1000 → (1 : ℝ) ≤ n ∧ 49 / 100 ≤ q / n ∧ q / n ≤ 151 / 100 := by
    intro n q h1 h2
    obtain ⟨a, b⟩ := abs_le.1 h2
    have h3 : (0 : ℝ) < n := by linarith
    have h4 : 1 ≤ n := by exact_mod_cast h3
    have h5 : (1 : ℝ) ≤ n := by exact_mod_cast h4
    rw [le_div_iff₀ h3, div_le_iff₀ h3]
    exact ⟨h5, by linarith, by linarith⟩
  constructor
  · intro h1
    have hq : 51 / 100 ≤ h / (img.height * d) := by
      rw [le_div_iff₀ (by positivity)]
      rw [le_div_iff₀ (by linarith)] at h1
      linarith
    have hn := S.lines_near R
    rw [hr] at hn
    obtain ⟨k1, k2, k3⟩ := key hq hn
    have e : h / (resYF fl r img.height * img.height) = d * (h / (img.height * d) / resYF fl r img.height) := by field_simp
    rw [e]
    constructor <;> nlinarith
  · intro h1
    have hq : 51 / 100 ≤ w * cfg.ticksPerSecond / (img.width * v) := by
      rw [le_div_iff₀ (by positivity)]
      rw [le_div_iff₀ (by linarith)] at h1
      linarith
    have hn := (S.ticks_near R (by rw [hr])).2.2.2 hq
    obtain ⟨k1, k2, k3⟩ := key hq hn
    have e : w * cfg.ticksPerSecond / (resXF fl cfg r img.width * img.width) =
        v * (w * cfg.ticksPerSecond / (img.width * v) / resXF fl cfg r img.width) := by field_simp
    rw [e]
    constructor <;> nlinarith

/-- The limits of the sample configuration. -/
theorem sample_limitsF : rasterALimitF double (sampleConfig 1) none = sampleA ∧ vLimitF double (sampleConfig 1) none = sampleV := by
  constructor
  · funext i
    have h := C105_acceleration double C90_double (sampleConfig 1) i none (by norm_num [sampleConfig])
      (by cases i <;> norm_num [sampleConfig]) (by cases i <;> norm_num [sampleConfig]) (by cases i <;> norm_num [sampleConfig, abs_of_pos])
    have e : (|((sampleConfig 1).stepper .x).stepsPerMillimeter / (2 * (sampleConfig 1).ticksPerSecond) / (sampleConfig 1).ticksPerSecond *
        Option.getD none ((sampleConfig 1).stepper i).maxAcceleration|) = (30000 : ℤ) := by cases i <;> norm_num [sampleConfig]
    rw [e] at h
    have h2 : |((rasterALimitF double (sampleConfig 1) none i - 30000 : ℤ) : ℝ)| < 1 := by
      push_cast at h ⊢
      refine lt_of_le_of_lt h ?_
      norm_num
    have : |rasterALimitF double (sampleConfig 1) none i - 30000| < 1 := by exact_mod_cast h2
    have := Int.abs_lt_one_iff.1 this
    simp only [sampleA]
    omega
  · funext i
    have h := C100_velocity double C90_double (sampleConfig 1) i none (by cases i <;> norm_num [sampleConfig])
      (by cases i <;> norm_num [sampleConfig, abs_of_pos])
    have e : (|((sampleConfig 1).stepper i).stepsPerMillimeter| / (2 * (sampleConfig 1).ticksPerSecond) *
        Option.getD none ((sampleConfig 1).stepper i).maxVelocity) = (384000 : ℤ) := by cases i <;> norm_num [sampleConfig]
    rw [e] at h
    have h2 : |((vLimitF double (sampleConfig 1) none i - 384000 : ℤ) : ℝ)| < 1 := by
      push_cast at h ⊢
      refine lt_of_le_of_lt h ?_
      norm_num
    have : |vLimitF double (sampleConfig 1) none i - 384000| < 1 := by exact_mod_cast h2
    have := Int.abs_lt_one_iff.1 this
    simp only [sampleV]
    omega

/-- With the sample configuration and without options, in double precision: a picture of two rows is burnt 20 mm wide and 10 mm
high, with a spot of 0.2 mm and at 20 mm/s. -/
theorem sample_scannable : Scannable double (sampleConfig 1) ⟨none, none, none, none, none, none, none⟩ samplePicture 20 10 (1 / 5) 20 := by
  refine ⟨?_, ?_, ?_, ?_, ?_, ?_, ?_, ?_, ?_, ?_, ?_, ?_, ?_, ?_, ?_, ?_, ?_, ?_, ?_, ?_⟩
  · rw [sample_limitsF.1, sample_limitsF.2]
    exact sample_machine
  · norm_num [sampleConfig]
  · norm_num [samplePicture]
  · intro x y
    unfold samplePicture
    simp only
    split_ifs <;> norm_num
  · norm_num
  · norm_num [pictureSize, samplePicture]
  · rfl
  · rfl
  · norm_num [sampleConfig]
  · norm_num [sampleConfig]
  · norm_num
  · norm_num
  · norm_num
  · norm_num
  · rw [sample_limitsF.2]
    norm_num [sampleConfig, sampleV]
  · norm_num [sampleConfig, samplePicture]
  · rw [sample_limitsF.2]
    norm_num [sampleConfig, sampleV, samplePicture]
  · rw [sample_limitsF.2]
    norm_num [sampleConfig, sampleV, samplePicture]
  · norm_num [samplePicture]
  · norm_num [sampleConfig]

example : ∃ (es : List Event) (lines : ℕ), |(lines : ℝ) - 25| ≤ 501 / 1000 ∧
    Burns 1966080 1966080 20 10 (134 / 1966080) (28 / 1966080) 12 lines samplePicture es := by
  obtain ⟨es, lines, h1, h2, -⟩ := C105_program double C90_double _ _ _ _ _ _ _ sample_scannable
  refine ⟨es, lines, ?_, ?_⟩
  · norm_num [samplePicture] at h1
    norm_num
    exact h1
  · norm_num [samplePicture, sampleConfig] at h2
    norm_num [samplePicture]
    exact h2

end StepperPaths.Props
