import Verif.Proof.Config
import Verif.Props.Raster

/-! Properties of the conversion of the configuration, in exact real arithmetic. -/

namespace StepperPaths.Props
open Context IntegerCurve Spec Raster Draw Config

/-! ### C58

The controller adds `v + v'` half steps to the position in each tick, so `v` mm/s are
`v * stepsPerMillimeter / (2 * ticksPerSecond)` and `a` mm/s² are
`a * stepsPerMillimeter / (2 * ticksPerSecond²)`. -/

/-- C58: the velocity limit of an axis is the configured one, rounded. -/
theorem C58_velocity (c : Xy) (i : Axis) (v : ℝ)
    (hv : v = |(c.stepper i).stepsPerMillimeter| * (c.stepper i).maxVelocity / (2 * c.ticksPerSecond))
    (hi : |v| + 1 ≤ 2 ^ 31) : |(vLimit c none i : ℝ) - v| ≤ 1 / 2 := by
  have e : |vScale c i| * (c.stepper i).maxVelocity = v := by
    rw [hv, vScale, abs_div, abs_of_nonneg (show (0 : ℝ) ≤ 2 * c.ticksPerSecond by positivity)]
    ring
  unfold vLimit
  simp only
  rw [e]
  exact satI32_round hi

/-- C58: with `--v-max` it is the given one for both axes, rounded down. -/
theorem C58_velocity_option (c : Xy) (i : Axis) (v value : ℝ)
    (hv : v = |(c.stepper i).stepsPerMillimeter| * value / (2 * c.ticksPerSecond)) (h0 : 0 ≤ value)
    (hi : v < 2 ^ 31) : (vLimit c (some value) i : ℝ) ≤ v ∧ v < vLimit c (some value) i + 1 := by
  have e : |vScale c i| * value = v := by
    rw [hv, vScale, abs_div, abs_of_nonneg (show (0 : ℝ) ≤ 2 * c.ticksPerSecond by positivity)]
    ring
  unfold vLimit
  simp only
  rw [e]
  exact satI32_trunc (by rw [← e]; positivity) hi

/-- C58: the acceleration limit of `svg_path`. -/
theorem C58_svg_acceleration (c : Xy) (i : Axis) (a : ℝ)
    (ha : a = |(c.stepper i).stepsPerMillimeter| * (c.stepper i).maxAcceleration /
      (2 * c.ticksPerSecond ^ 2)) (h0 : 0 ≤ (c.stepper i).maxAcceleration)
    (hi : |a| + 1 ≤ 2 ^ 31) : |(svgALimit c none i : ℝ) - a| ≤ 1 / 2 := by
  have e : |svgAScale c i * (c.stepper i).maxAcceleration| = a := by
    rw [ha, svgAScale, vScale, abs_mul, abs_div, abs_div, abs_of_nonneg h0,
      abs_of_nonneg (show (0 : ℝ) ≤ 2 * c.ticksPerSecond by positivity),
      abs_of_nonneg (show (0 : ℝ) ≤ c.ticksPerSecond by positivity)]
    ring
  unfold svgALimit
  simp only
  rw [e]
  exact satI32_round hi

theorem C58_svg_acceleration_option (c : Xy) (i : Axis) (a value : ℝ)
    (ha : a = |(c.stepper i).stepsPerMillimeter| * value / (2 * c.ticksPerSecond ^ 2)) (h0 : 0 ≤ value)
    (hi : a < 2 ^ 31) : (svgALimit c (some value) i : ℝ) ≤ a ∧ a < svgALimit c (some value) i + 1 := by
  have e : |value * svgAScale c i| = a := by
    rw [ha, svgAScale, vScale, abs_mul, abs_div, abs_div, abs_of_nonneg h0,
      abs_of_nonneg (show (0 : ℝ) ≤ 2 * c.ticksPerSecond by positivity),
      abs_of_nonneg (show (0 : ℝ) ≤ c.ticksPerSecond by positivity)]
    ring
  unfold svgALimit
  simp only
  rw [e]
  exact satI32_trunc (by rw [← e]; positivity) hi

/-- C58 (finding): `image_raster` uses the scale of the x axis for both axes. -/
theorem C58_raster_acceleration (c : Xy) (i : Axis) (a : ℝ)
    (ha : a = |(c.stepper .x).stepsPerMillimeter| * (c.stepper i).maxAcceleration /
      (2 * c.ticksPerSecond ^ 2)) (hi : |a| + 1 ≤ 2 ^ 31) : |(rasterALimit c none i : ℝ) - a| ≤ 1 / 2 := by
  have e : |rasterAScale c i| * (c.stepper i).maxAcceleration = a := by
    rw [ha, rasterAScale, vScale, abs_div, abs_div,
      abs_of_nonneg (show (0 : ℝ) ≤ 2 * c.ticksPerSecond by positivity),
      abs_of_nonneg (show (0 : ℝ) ≤ c.ticksPerSecond by positivity)]
    ring
  unfold rasterALimit
  simp only
  rw [e]
  exact satI32_round hi

/-- The sample configuration with `fy` times as many steps per millimeter on the y axis. -/
noncomputable def sampleConfig (fy : ℝ) : Xy := ⟨128, fun
  | .x => ⟨1966080, 50, 500⟩
  | .y => ⟨1966080 * fy, 50, 500⟩⟩

/-- C58 (finding): with a coarse y axis `image_raster` allows ten times the configured acceleration
on this axis, with the same configuration `svg_path` does not. -/
theorem C58_raster_wrong : rasterALimit (sampleConfig (1 / 10)) none .y = 30000 ∧
    svgALimit (sampleConfig (1 / 10)) none .y = 3000 := by
  have int : ∀ {z n : ℤ}, |(z : ℝ) - n| ≤ 1 / 2 → z = n := by
    intro z n h
    have h' : |(z : ℝ) - n| < 1 := by linarith
    have : |z - n| < 1 := by exact_mod_cast h'
    rw [abs_lt] at this
    omega
  constructor
  · apply int
    apply C58_raster_acceleration
    · norm_num [sampleConfig]
    · norm_num
  · apply int
    apply C58_svg_acceleration
    · norm_num [sampleConfig]
    · norm_num [sampleConfig]
    · norm_num

/-- With the sample configuration itself both are right; `sampleA` and `sampleV` are its limits. -/
example : (∀ i, rasterALimit (sampleConfig 1) none i = sampleA i) ∧
    (∀ i, svgALimit (sampleConfig 1) none i = sampleA i) ∧ ∀ i, vLimit (sampleConfig 1) none i = sampleV i := by
  have int : ∀ {z n : ℤ}, |(z : ℝ) - n| ≤ 1 / 2 → z = n := by
    intro z n h
    have h' : |(z : ℝ) - n| < 1 := by linarith
    have : |z - n| < 1 := by exact_mod_cast h'
    rw [abs_lt] at this
    omega
  refine ⟨fun i => ?_, fun i => ?_, fun i => ?_⟩ <;> apply int
  · apply C58_raster_acceleration
    · cases i <;> norm_num [sampleConfig, sampleA]
    · norm_num [sampleA]
  · apply C58_svg_acceleration
    · cases i <;> norm_num [sampleConfig, sampleA]
    · cases i <;> norm_num [sampleConfig]
    · norm_num [sampleA]
  · apply C58_velocity
    · cases i <;> norm_num [sampleConfig, sampleV]
    · norm_num [sampleV]

/-! ### C71 -/

/-- C71: each pixel boundary of the scan is where it belongs in a picture of the requested width,
up to one half step for each tick of the way. -/
theorem C71_width (c : Xy) (r : Request) (xPixels x : ℕ) (hx : 0 < xPixels)
    (hi : |r.width * (c.stepper .x).stepsPerMillimeter| ≤ 2 ^ 31) :
    |(2 * vX c r xPixels * (resX c r xPixels * x) : ℝ) -
      r.width * (c.stepper .x).stepsPerMillimeter * (x / xPixels)| ≤ resX c r xPixels * x := by
  have hres : (1 : ℝ) ≤ resX c r xPixels := by
    have : 1 ≤ resX c r xPixels := le_max_left _ _
    exact_mod_cast this
  have hpos : (1 : ℝ) ≤ xPixels := by exact_mod_cast hx
  unfold vX
  set W := r.width * (c.stepper .x).stepsPerMillimeter with hW
  set n : ℝ := ((resX c r xPixels : ℕ) : ℝ) with hn
  have hd : (1 : ℝ) ≤ xPixels * n := one_le_mul_of_one_le_of_one_le hpos hres
  have k := satI32_round (x := W / (2 * ((xPixels * resX c r xPixels : ℕ) : ℝ))) (by
    push_cast
    rw [← hn, abs_div, abs_of_pos (show (0 : ℝ) < 2 * (xPixels * n) by linarith)]
    have : |W| / (2 * (xPixels * n)) ≤ |W| / 2 :=
      div_le_div_of_nonneg_left (abs_nonneg _) (by norm_num) (by linarith)
    norm_num at hi ⊢
    linarith)
  push_cast at k ⊢
  rw [← hn] at k ⊢
  have e : 2 * (satI32 (Draw.round (W / (2 * (xPixels * n)))) : ℝ) * (n * x) - W * (x / xPixels) =
      2 * ((satI32 (Draw.round (W / (2 * (xPixels * n)))) : ℝ) - W / (2 * (xPixels * n))) * (n * x) := by
    field_simp
  rw [e, abs_mul, abs_mul, abs_of_nonneg (show (0 : ℝ) ≤ n * x by positivity), abs_two]
  have : (0 : ℝ) ≤ n * x := by positivity
  nlinarith

/-- C71: likewise each line, when there is one. -/
theorem C71_height (c : Xy) (r : Request) (yPixels k : ℕ) (hy : 0 < yPixels) (h1 : 0 < resY r yPixels)
    (hi : |r.height * (c.stepper .y).stepsPerMillimeter| ≤ 2 ^ 62) :
    |(stepY c r yPixels * k : ℝ) -
      r.height * (c.stepper .y).stepsPerMillimeter * (k / (resY r yPixels * yPixels))| ≤ k / 2 := by
  have hd : (1 : ℝ) ≤ ((resY r yPixels * yPixels : ℕ) : ℝ) := by
    have : 1 ≤ resY r yPixels * yPixels := Nat.mul_pos h1 hy
    exact_mod_cast this
  unfold stepY
  set H := r.height * (c.stepper .y).stepsPerMillimeter with hH
  have hc : ((resY r yPixels : ℝ) * yPixels) = ((resY r yPixels * yPixels : ℕ) : ℝ) := by push_cast; ring
  rw [hc]
  set d : ℝ := ((resY r yPixels * yPixels : ℕ) : ℝ) with hd'
  have q := satI64_round (x := H / d) (by
    rw [abs_div, abs_of_pos (show (0 : ℝ) < d by linarith)]
    have : |H| / d ≤ |H| := div_le_self (abs_nonneg _) hd
    norm_num at hi ⊢
    linarith)
  have e : (satI64 (Draw.round (H / d)) : ℝ) * k - H * (k / d) =
      ((satI64 (Draw.round (H / d)) : ℝ) - H / d) * k := by
    field_simp
  rw [e, abs_mul, abs_of_nonneg (show (0 : ℝ) ≤ k by positivity)]
  have : (0 : ℝ) ≤ k := by positivity
  nlinarith

theorem round_nonneg {x : ℝ} (h : 0 ≤ x) : 0 ≤ Draw.round x := by
  unfold Draw.round
  rw [if_pos h]
  exact Int.floor_nonneg.2 (by linarith)

/-- C71: the lines are at most one and a half spots apart. -/
theorem C71_pitch (r : Request) (yPixels : ℕ) (hy : 0 < yPixels) (hs : 0 < r.spot) (hh : 0 ≤ r.height)
    (h1 : 0 < resY r yPixels) (hi : r.height / (yPixels * r.spot) + 1 ≤ 2 ^ 32) :
    r.height / (resY r yPixels * yPixels) ≤ 3 / 2 * r.spot := by
  have hpos : (0 : ℝ) < yPixels := by exact_mod_cast hy
  set q := r.height / (yPixels * r.spot) with hq
  have hq0 : 0 ≤ q := by positivity
  have e : ((resY r yPixels : ℕ) : ℝ) = (Draw.round q : ℝ) := by
    have hlt : (Draw.round q : ℝ) < 2 ^ 32 := by
      have := (abs_le.1 (round_near q)).2
      linarith
    have := satU32_eq (round_nonneg hq0) (by exact_mod_cast hlt)
    unfold resY
    exact_mod_cast this
  have hr : (1 : ℝ) ≤ (resY r yPixels : ℕ) := by exact_mod_cast h1
  have hn := (abs_le.1 (round_near q)).1
  rw [← e] at hn
  rw [div_le_iff₀ (by positivity)]
  have hh' : r.height = q * (yPixels * r.spot) := by
    rw [hq]
    field_simp
  rw [hh']
  have : 0 < yPixels * r.spot := by positivity
  nlinarith

example : resY ⟨20, 20, 1 / 5, 20, 50⟩ 40 = 3 ∧ stepY (sampleConfig 1) ⟨20, 20, 1 / 5, 20, 50⟩ 40 = 327680 := by
  have h1 : resY ⟨20, 20, 1 / 5, 20, 50⟩ 40 = 3 := by
    unfold resY satU32 Draw.round
    norm_num
    have : ⌊(5 / 2 + 1 / 2 : ℝ)⌋ = 3 := by norm_num
    norm_num at this
    simp
  refine ⟨h1, ?_⟩
  unfold stepY satI64
  rw [h1]
  norm_num [sampleConfig]
  rw [show (327680 : ℝ) = ((327680 : ℤ) : ℝ) by norm_num, round_int]
  norm_num

/-! ### C72 -/

/-- C72 (finding): when a pixel is less than half a spot high, `res_y` is zero and nothing at all is
drawn. -/
theorem C72_nothing_drawn (c : Xy) (r : Request) (img : Image) (aMax vMax : Axis → Int) (c' : Ctx)
    (a1 : ∀ i, 1 ≤ aMax i) (v1 : ∀ i, 1 ≤ vMax i) (v2 : ∀ i, vMax i ≤ 2 ^ 59)
    (step : |(params c r img.width img.height).stepY| ≤ 2 ^ 28)
    (vxm : (params c r img.width img.height).vX ≤ vMax .x) (hh : 0 ≤ r.height) (hs : 0 < r.spot)
    (hsmall : r.height / img.height < r.spot / 2)
    (hr : raster (params c r img.width img.height) img (Ctx.new aMax vMax) = some c') (w0 : Int) (τ : ℕ) :
    weightAt w0 c'.events τ = 0 := by
  by_contra hw
  have hv : -2 ^ 31 ≤ (params c r img.width img.height).vX ∧ (params c r img.width img.height).vX < 2 ^ 31 := by
    simp only [params, vX]
    generalize Draw.round _ = z
    unfold satI32
    split
    · norm_num
    · split
      · norm_num
      · norm_num
        omega
  obtain ⟨x, y, rep, q, -, hy, hrep, -⟩ := C57_only (params c r img.width img.height) img aMax vMax c' a1 v1 v2
    (lt_of_lt_of_le zero_lt_one (le_max_left _ _)) step hv.1 hv.2 vxm hr w0 τ hw
  have hpos : (0 : ℝ) < img.height := by exact_mod_cast (show 0 < img.height by omega)
  have h0 : (params c r img.width img.height).resY = 0 := by
    simp only [params, resY]
    apply satU32_zero
    have hlt : r.height / (img.height * r.spot) < 1 / 2 := by
      rw [← div_div, div_lt_iff₀ hs]
      linarith
    unfold Draw.round
    rw [if_pos (by positivity)]
    have : ⌊r.height / (img.height * r.spot) + 1 / 2⌋ < 1 := by
      rw [Int.floor_lt]
      push_cast
      linarith
    omega
  omega

example : resY ⟨20, 20, 1 / 5, 20, 50⟩ 201 = 0 := by
  unfold resY Draw.round
  apply satU32_zero
  norm_num

/-! ### C73 -/

/-- C73: the scanning speed is at most one and a half times the requested one, up to rounding. -/
theorem C73_speed (c : Xy) (r : Request) (xPixels : ℕ) (hx : 0 < xPixels) (hw : 0 ≤ r.width)
    (hs : 0 < r.speed) (hm : 0 < (c.stepper .x).stepsPerMillimeter) (ht : 0 < c.ticksPerSecond)
    (hi : r.width * (c.stepper .x).stepsPerMillimeter ≤ 2 ^ 31)
    (hi' : r.width * c.ticksPerSecond / (xPixels * r.speed) + 1 ≤ 2 ^ 32) :
    (vX c r xPixels : ℝ) ≤ 3 / 2 * (r.speed * (c.stepper .x).stepsPerMillimeter / (2 * c.ticksPerSecond)) + 1 / 2 := by
  have hpos : (0 : ℝ) < xPixels := by exact_mod_cast hx
  have hT : (0 : ℝ) < c.ticksPerSecond := by exact_mod_cast ht
  have hres : (1 : ℝ) ≤ resX c r xPixels := by
    have : 1 ≤ resX c r xPixels := le_max_left _ _
    exact_mod_cast this
  set m := (c.stepper .x).stepsPerMillimeter with hm'
  set q := r.width * c.ticksPerSecond / (xPixels * r.speed) with hq
  have hq0 : 0 ≤ q := by positivity
  have eq : r.width * m * c.ticksPerSecond / (xPixels * (r.speed * m)) = q := by
    rw [hq]
    field_simp
  have hle : q ≤ 3 / 2 * resX c r xPixels := by
    have e : (satU32 (Draw.round q) : ℝ) = (Draw.round q : ℝ) := by
      have hlt : (Draw.round q : ℝ) < 2 ^ 32 := by
        have := (abs_le.1 (round_near q)).2
        linarith
      have := satU32_eq (round_nonneg hq0) (by exact_mod_cast hlt)
      exact_mod_cast this
    have h1 : (satU32 (Draw.round q) : ℝ) ≤ resX c r xPixels := by
      unfold resX
      rw [← hm', eq]
      exact_mod_cast le_max_right _ _
    have := (abs_le.1 (round_near q)).1
    linarith
  have h0 := C71_width c r xPixels xPixels hx (by rw [abs_of_nonneg (by positivity)]; exact hi)
  rw [div_self hpos.ne', mul_one, ← hm'] at h0
  have h1 := (abs_le.1 h0).2
  set n : ℝ := ((resX c r xPixels : ℕ) : ℝ) with hn
  have hW : r.width * m = q * (xPixels * r.speed * m / c.ticksPerSecond) := by
    rw [hq]
    field_simp
  have hk : 0 < xPixels * r.speed * m / c.ticksPerSecond := by positivity
  have h2 : 2 * (vX c r xPixels : ℝ) * (n * xPixels) ≤
      (3 / 2 * (r.speed * m / c.ticksPerSecond) + 1) * (n * xPixels) := by
    have : q * (xPixels * r.speed * m / c.ticksPerSecond) ≤
        3 / 2 * n * (xPixels * r.speed * m / c.ticksPerSecond) := mul_le_mul_of_nonneg_right hle hk.le
    have e : 3 / 2 * n * (xPixels * r.speed * m / c.ticksPerSecond) =
        3 / 2 * (r.speed * m / c.ticksPerSecond) * (n * xPixels) := by ring
    linarith
  have h3 := le_of_mul_le_mul_right h2 (by positivity)
  have e : r.speed * m / (2 * c.ticksPerSecond) = (r.speed * m / c.ticksPerSecond) / 2 := by ring
  rw [e]
  linarith

/-- The first line that is drawn needs its speed. -/
theorem rows_too_fast {p : Params} {img : Image} (hres : 0 < p.resY) (n : ℕ) :
    ∀ (yn : ℕ) (c : Ctx), c.vMax .x < p.vX →
      (∃ y x, yn ≤ y ∧ y < yn + n ∧ x < img.width ∧ img.pixel x y < 255) → rows p img yn n (true, c) = none := by
  induction n with
  | zero => rintro yn c - ⟨y, x, h1, h2, -⟩; omega
  | succ n ih =>
    rintro yn c hv ⟨y, x, h1, h2, h3, h4⟩
    rw [rows]
    rcases he : findRowInterval (marked img yn) img.width with ⟨start, len⟩
    obtain ⟨f1, -, -⟩ := findRowInterval_spec _ _ _ _ he
    simp only
    by_cases hl : len > 0
    · rw [if_pos hl]
      have : lines p img yn start len 0 p.resY (true, c) = none := by
        obtain ⟨m, hm⟩ := Nat.exists_eq_succ_of_ne_zero hres.ne'
        rw [hm, lines]
        have : line p img true yn start len 0 c = none := by
          by_contra hc
          obtain ⟨c', hr⟩ := Option.ne_none_iff_exists'.1 hc
          unfold line at hr
          obtain ⟨ls, e1, r1⟩ := Option.bind_eq_some_iff.1 hr
          obtain ⟨x, e2, r2⟩ := Option.bind_eq_some_iff.1 r1
          obtain ⟨y, e3, r3⟩ := Option.bind_eq_some_iff.1 r2
          obtain ⟨c1, e4, r4⟩ := Option.bind_eq_some_iff.1 r3
          have := (stepGotoSpeed_eq e4).1
          simp only [if_true] at this
          omega
        rw [this]
        rfl
      rw [this]
      rfl
    · rw [if_neg hl]
      refine ih (yn + 1) c hv ⟨y, x, ?_, by omega, h3, h4⟩
      by_contra hc
      obtain rfl : yn = y := by omega
      have := f1 x h3 (by simpa [marked] using h4)
      omega

/-- C73: a scanning speed above the limit of the x axis ends in a panic as soon as there is
something to draw. -/
theorem C73_too_fast (p : Params) (img : Image) (aMax vMax : Axis → Int) (hv : vMax .x < p.vX)
    (hres : 0 < p.resY) (x y : ℕ) (hx : x < img.width) (hy : y < img.height) (hp : img.pixel x y < 255) :
    raster p img (Ctx.new aMax vMax) = none := by
  unfold raster
  simp only
  cases checks p img with
  | none => rfl
  | some u =>
    simp only [Option.bind_eq_bind, Option.bind_some]
    rw [rows_too_fast hres img.height 0 _ hv ⟨y, x, by omega, by omega, hx, hp⟩]
    rfl

/-- C73 (finding): a request for the maximum speed of the sample configuration, 50 mm/s, leads to a
scanning speed of 70 mm/s for this width, and so to a panic. -/
theorem C73_limit_exceeded : vX (sampleConfig 1) ⟨35 / 16, 35 / 16, 1 / 5, 50, 50⟩ 4 = 537600 ∧
    vLimit (sampleConfig 1) none .x = 384000 := by
  have int : ∀ {z n : ℤ}, |(z : ℝ) - n| ≤ 1 / 2 → z = n := by
    intro z n h
    have h' : |(z : ℝ) - n| < 1 := by linarith
    have : |z - n| < 1 := by exact_mod_cast h'
    rw [abs_lt] at this
    omega
  have h1 : resX (sampleConfig 1) ⟨35 / 16, 35 / 16, 1 / 5, 50, 50⟩ 4 = 1 := by
    unfold resX
    have e : (35 / 16 * 1966080 * (128 : ℕ) / ((4 : ℕ) * (50 * 1966080)) : ℝ) = 7 / 5 := by norm_num
    simp only [sampleConfig]
    rw [e]
    have : Draw.round (7 / 5) = 1 := by
      unfold Draw.round
      rw [if_pos (by norm_num), Int.floor_eq_iff]
      norm_num
    rw [this]
    decide
  constructor
  · unfold vX
    rw [h1]
    norm_num [sampleConfig]
    rw [show (537600 : ℝ) = ((537600 : ℤ) : ℝ) by norm_num, round_int]
    decide
  · apply int
    apply C58_velocity
    · norm_num [sampleConfig]
    · norm_num

end StepperPaths.Props
