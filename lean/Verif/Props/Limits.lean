import Verif.Proof.LimitsSvg
import Verif.Props.Commands

/-! # C115: limits that are too small -/

namespace StepperPaths.Props
open Coords Context IntegerCurve Spec Program Config Control Raster StepperPaths.Svg Spec.Svg Rounded
open Draw (satI32)
open StepperPaths.Cli Spec.Cli StepperPaths.ConfigText Spec.Json

/-- C115: if an axis has no acceleration, a negative speed limit or no speed, no move to a point can be planned, from whatever
state: `step_goto` panics. -/
theorem C115_goto (c : Ctx) (h : ∃ i, c.aMax i = 0 ∨ c.vMax i < 0 ∨ c.vMax i = 0 ∧ 0 < c.aMax i) (x y : ℤ) :
    c.stepGoto x y = none := stuck_goto h x y rfl rfl

/-- C115: with such limits neither program computes any events, whatever the picture: both move back to the origin at the end. -/
theorem C115_events (fl : ℝ → ℝ) (aMax vMax : Axis → ℤ) (h : ∃ i, aMax i = 0 ∨ vMax i < 0 ∨ vMax i = 0 ∧ 0 < aMax i) :
    (∀ (e : Rounded.Env) weight path v n, svgEventsF fl e aMax vMax weight path v n = none ∧
      CheckedSvg.svgEvents fl e aMax vMax weight path v n = none) ∧
    ∀ p img, Raster.raster p img (Ctx.new aMax vMax) = none ∧ Checked.raster p img (Ctx.new aMax vMax) = none :=
  ⟨fun _ _ _ _ _ => ⟨stuck_events h _ _ _ _, stuck_checked h _ _ _ _⟩,
    fun _ _ => ⟨stuck_raster h, stuck_checkedRaster h⟩⟩

/-! ### Which options give such limits -/

theorem near {fl : ℝ → ℝ} (R : FloatRounding fl) (y : ℝ) : |fl y - y| ≤ 2⁻¹ ^ 53 * |y| + 2⁻¹ ^ 200 :=
  (R.near y).trans (add_le_add_right (pow_le_pow_of_le_one (by norm_num) (by norm_num) (by norm_num)) _)

theorem fl_le {fl : ℝ → ℝ} (R : FloatRounding fl) (y : ℝ) : |fl y| ≤ |y| * (1 + 2⁻¹ ^ 53) + 2⁻¹ ^ 200 := by
  have h := near R y
  have : |fl y| ≤ |fl y - y| + |y| := by simpa using abs_add_le (fl y - y) y
  linarith

/-- Of a size at most `2^100`, up to the roundings. -/
def About (A a : ℝ) : Prop := |A| ≤ a * (1 + 2⁻¹ ^ 40) + 2⁻¹ ^ 190 ∧ 0 ≤ a ∧ a ≤ 2 ^ 100

theorem about_fl {fl : ℝ → ℝ} (R : FloatRounding fl) {x : ℝ} (hx : |x| ≤ 2 ^ 100) : About (fl x) |x| := by
  refine ⟨(fl_le R x).trans ?_, abs_nonneg _, hx⟩
  have := abs_nonneg x
  have h1 : (2⁻¹ : ℝ) ^ 53 ≤ 2⁻¹ ^ 40 := by norm_num
  have h2 : (2⁻¹ : ℝ) ^ 200 ≤ 2⁻¹ ^ 190 := by norm_num
  nlinarith

theorem small_prod {fl : ℝ → ℝ} (R : FloatRounding fl) {A B a b k : ℝ} (hA : About A a) (hB : About B b) (hk : a * b ≤ k)
    (h1 : k ≤ 1) : |fl (A * B)| ≤ k + 2⁻¹ ^ 30 := by
  obtain ⟨a1, a2, a3⟩ := hA
  obtain ⟨b1, b2, b3⟩ := hB
  have hp : |A * B| ≤ k + 2⁻¹ ^ 35 := by
    rw [abs_mul]
    refine (mul_le_mul a1 b1 (abs_nonneg _) (by positivity)).trans ?_
    have e : (a * (1 + 2⁻¹ ^ 40) + 2⁻¹ ^ 190) * (b * (1 + 2⁻¹ ^ 40) + 2⁻¹ ^ 190) =
        a * b * (1 + 2⁻¹ ^ 40) ^ 2 + (a + b) * ((1 + 2⁻¹ ^ 40) * 2⁻¹ ^ 190) + (2⁻¹ : ℝ) ^ 190 * 2⁻¹ ^ 190 := by ring
    rw [e]
    have g1 : a * b * (1 + 2⁻¹ ^ 40) ^ 2 ≤ k * (1 + 2⁻¹ ^ 40) ^ 2 := by gcongr
    have g2 : (a + b) * ((1 + 2⁻¹ ^ 40) * 2⁻¹ ^ 190) ≤ (2 ^ 100 + 2 ^ 100) * ((1 + 2⁻¹ ^ 40) * 2⁻¹ ^ 190 : ℝ) := by gcongr
    have g3 : (2 ^ 100 + 2 ^ 100) * ((1 + 2⁻¹ ^ 40) * 2⁻¹ ^ 190 : ℝ) + (2⁻¹ : ℝ) ^ 190 * 2⁻¹ ^ 190 ≤ 2⁻¹ ^ 36 := by norm_num
    have g4 : k * (1 + 2⁻¹ ^ 40) ^ 2 ≤ k + 1 * ((1 + 2⁻¹ ^ 40) ^ 2 - 1 : ℝ) := by nlinarith
    have g5 : (1 + 2⁻¹ ^ 40) ^ 2 - 1 + 2⁻¹ ^ 36 ≤ (2⁻¹ : ℝ) ^ 35 := by norm_num
    linarith
  have h := fl_le R (A * B)
  have : |A * B| * (1 + 2⁻¹ ^ 53) + 2⁻¹ ^ 200 ≤ (k + 2⁻¹ ^ 35) + (1 + 2⁻¹ ^ 35) * 2⁻¹ ^ 53 + (2⁻¹ : ℝ) ^ 200 := by
    nlinarith [abs_nonneg (A * B)]
  have h2 : (2⁻¹ : ℝ) ^ 35 + (1 + 2⁻¹ ^ 35) * 2⁻¹ ^ 53 + (2⁻¹ : ℝ) ^ 200 ≤ 2⁻¹ ^ 30 := by norm_num
  linarith

theorem trunc_nonpos {y : ℝ} (h : y < 1) : satI32 (Draw.trunc y) ≤ 0 := by
  have : Draw.trunc y ≤ 0 := by
    unfold Draw.trunc
    split
    · exact Int.lt_add_one_iff.1 (Int.floor_lt.2 (by simpa using h))
    · have : 0 ≤ ⌊-y⌋ := Int.floor_nonneg.2 (by linarith)
      omega
  unfold satI32
  split_ifs <;> omega

theorem round_nonpos {y : ℝ} (h : y < 1 / 2) : satI32 (Draw.round y) ≤ 0 := by
  have : Draw.round y ≤ 0 := by
    unfold Draw.round
    split
    · exact Int.lt_add_one_iff.1 (Int.floor_lt.2 (by push_cast; linarith))
    · have : 0 ≤ ⌊-y + 1 / 2⌋ := Int.floor_nonneg.2 (by linarith)
      omega
  unfold satI32
  split_ifs <;> omega

theorem trunc_zero {y : ℝ} (h : |y| < 1) : satI32 (Draw.trunc |y|) = 0 := by
  have : Draw.trunc |y| = 0 := by
    unfold Draw.trunc
    rw [if_pos (abs_nonneg _)]
    exact Int.floor_eq_zero_iff.2 ⟨abs_nonneg _, h⟩
  rw [this]; rfl

theorem round_zero {y : ℝ} (h : |y| < 1 / 2) : satI32 (Draw.round |y|) = 0 := by
  have : Draw.round |y| = 0 := by
    unfold Draw.round
    rw [if_pos (abs_nonneg _)]
    exact Int.floor_eq_zero_iff.2 ⟨by positivity, by linarith⟩
  rw [this]; rfl

theorem round_zero' {y : ℝ} (h : |y| < 1 / 2) : satI32 (Draw.round y) = 0 := by
  have : Draw.round y = 0 := by
    unfold Draw.round
    obtain ⟨h1, h2⟩ := abs_lt.1 h
    split
    · exact Int.floor_eq_zero_iff.2 ⟨by linarith, by linarith⟩
    · rw [Int.floor_eq_zero_iff.2 ⟨by linarith, by linarith⟩]; rfl
  rw [this]; rfl

/-- A speed of less than two steps per tick, the unit of the speeds, or half of that if it comes from the configuration, where
it is rounded and not truncated.  `s` steps per millimeter, `T` ticks per second. -/
def Slow (s T fromConfig : ℝ) : Option ℚ → Prop
  | some x => |s| * x ≤ 199 / 100 * T
  | none => |s| * fromConfig ≤ 99 / 100 * T

/-- The same for an acceleration; the sign does not matter. -/
def Weak (s T fromConfig : ℝ) : Option ℚ → Prop
  | some x => |s| * |(x : ℝ)| ≤ 199 / 100 * T ^ 2
  | none => |s| * |fromConfig| ≤ 99 / 100 * T ^ 2

/-- The numbers are not astronomical. -/
structure Sizes (cfg : Xy) (vMax aMax : Option ℚ) : Prop where
  ticks : cfg.ticksPerSecond ≠ 0
  steps : ∀ i, |(cfg.stepper i).stepsPerMillimeter| ≤ 2 ^ 100
  speed : ∀ i, |(cfg.stepper i).maxVelocity| ≤ 2 ^ 100
  acc : ∀ i, |(cfg.stepper i).maxAcceleration| ≤ 2 ^ 100
  vMax : ∀ x ∈ vMax, |(x : ℝ)| ≤ 2 ^ 100
  aMax : ∀ x ∈ aMax, |(x : ℝ)| ≤ 2 ^ 100

theorem about_scale {fl : ℝ → ℝ} (R : FloatRounding fl) {cfg : Xy} {vMax aMax : Option ℚ} (S : Sizes cfg vMax aMax) (i : Axis) :
    About (cfgVScale fl cfg i) (|(cfg.stepper i).stepsPerMillimeter| / (2 * cfg.ticksPerSecond)) := by
  have hT : (1 : ℝ) ≤ cfg.ticksPerSecond := by exact_mod_cast Nat.one_le_iff_ne_zero.2 S.ticks
  have e : |(cfg.stepper i).stepsPerMillimeter / (2 * cfg.ticksPerSecond)| =
      |(cfg.stepper i).stepsPerMillimeter| / (2 * cfg.ticksPerSecond) := by
    rw [abs_div, abs_of_pos (by positivity : (0 : ℝ) < 2 * cfg.ticksPerSecond)]
  rw [← e]
  refine about_fl R ?_
  rw [e]
  refine (div_le_self (abs_nonneg _) (by linarith)).trans (S.steps i)

theorem About.abs {A a : ℝ} (h : About A a) : About |A| a := ⟨by rw [abs_abs]; exact h.1, h.2⟩

theorem about_acc {fl : ℝ → ℝ} (R : FloatRounding fl) {cfg : Xy} {vMax aMax : Option ℚ} (S : Sizes cfg vMax aMax) (i : Axis) :
    About (fl (cfgVScale fl cfg i / cfg.ticksPerSecond))
      (|(cfg.stepper i).stepsPerMillimeter| / (2 * cfg.ticksPerSecond ^ 2)) := by
  have hT : (1 : ℝ) ≤ cfg.ticksPerSecond := by exact_mod_cast Nat.one_le_iff_ne_zero.2 S.ticks
  have hs := S.steps i
  have hv := fl_le R ((cfg.stepper i).stepsPerMillimeter / (2 * cfg.ticksPerSecond))
  have ha := fl_le R (cfgVScale fl cfg i / cfg.ticksPerSecond)
  rw [abs_div, abs_of_pos (by positivity : (0 : ℝ) < 2 * cfg.ticksPerSecond)] at hv
  rw [abs_div, abs_of_pos (by positivity : (0 : ℝ) < cfg.ticksPerSecond)] at ha
  change |cfgVScale fl cfg i| ≤ _ at hv
  have e : |(cfg.stepper i).stepsPerMillimeter| / (2 * (cfg.ticksPerSecond : ℝ) ^ 2) =
      |(cfg.stepper i).stepsPerMillimeter| / (2 * cfg.ticksPerSecond) / cfg.ticksPerSecond := by field_simp
  have hb : |cfgVScale fl cfg i| / cfg.ticksPerSecond ≤
      |(cfg.stepper i).stepsPerMillimeter| / (2 * (cfg.ticksPerSecond : ℝ) ^ 2) * (1 + 2⁻¹ ^ 53) + 2⁻¹ ^ 200 := by
    refine (div_le_div_of_nonneg_right hv (by positivity)).trans ?_
    rw [add_div, e]
    have : (2⁻¹ : ℝ) ^ 200 / cfg.ticksPerSecond ≤ 2⁻¹ ^ 200 := div_le_self (by positivity) hT
    have e2 : |(cfg.stepper i).stepsPerMillimeter| / (2 * cfg.ticksPerSecond) * (1 + 2⁻¹ ^ 53) / cfg.ticksPerSecond =
      |(cfg.stepper i).stepsPerMillimeter| / (2 * cfg.ticksPerSecond) / cfg.ticksPerSecond * (1 + (2⁻¹ : ℝ) ^ 53) := by ring
    rw [e2]
    linarith
  have hq : (0 : ℝ) ≤ |(cfg.stepper i).stepsPerMillimeter| / (2 * (cfg.ticksPerSecond : ℝ) ^ 2) := by positivity
  refine ⟨?_, hq, (div_le_self (abs_nonneg _) (by nlinarith)).trans hs⟩
  generalize |(cfg.stepper i).stepsPerMillimeter| / (2 * (cfg.ticksPerSecond : ℝ) ^ 2) = q at *
  have g1 : |cfgVScale fl cfg i| / cfg.ticksPerSecond * (1 + 2⁻¹ ^ 53) ≤ (q * (1 + 2⁻¹ ^ 53) + 2⁻¹ ^ 200) * (1 + (2⁻¹ : ℝ) ^ 53) := by
    gcongr
  have g2 : (1 + (2⁻¹ : ℝ) ^ 53) * (1 + 2⁻¹ ^ 53) ≤ 1 + 2⁻¹ ^ 40 := by norm_num
  have g3 : (2⁻¹ : ℝ) ^ 200 * (1 + 2⁻¹ ^ 53) + 2⁻¹ ^ 200 ≤ 2⁻¹ ^ 190 := by norm_num
  nlinarith

/-- C115: a slow `--v-max` or a slow axis of the configuration give a speed limit that is not positive, and a weak `--a-max` or
a weak axis give no acceleration.  (`image_raster` uses the steps of the x axis for both accelerations.) -/
theorem C115_limits (fl : ℝ → ℝ) (R : FloatRounding fl) (cfg : Xy) (vMax aMax : Option ℚ) (S : Sizes cfg vMax aMax) (i : Axis) :
    (Slow (cfg.stepper i).stepsPerMillimeter cfg.ticksPerSecond (cfg.stepper i).maxVelocity vMax →
      vLimitF fl cfg (vMax.map fun x : ℚ => fl x) i ≤ 0) ∧
    (Weak (cfg.stepper i).stepsPerMillimeter cfg.ticksPerSecond (cfg.stepper i).maxAcceleration aMax →
      svgALimitF fl cfg (aMax.map fun x : ℚ => fl x) i = 0) ∧
    (Weak (cfg.stepper .x).stepsPerMillimeter cfg.ticksPerSecond (cfg.stepper i).maxAcceleration aMax →
      rasterALimitF fl cfg (aMax.map fun x : ℚ => fl x) i = 0) := by
  have hT : (1 : ℝ) ≤ cfg.ticksPerSecond := by exact_mod_cast Nat.one_le_iff_ne_zero.2 S.ticks
  have speed : ∀ (x X k : ℝ), About X |x| → |(cfg.stepper i).stepsPerMillimeter| * x ≤ 2 * k * cfg.ticksPerSecond →
      0 ≤ k → k ≤ 1 → (0 < X → 0 ≤ x ∨ About X 0) → fl (|cfgVScale fl cfg i| * X) ≤ k + 2⁻¹ ^ 30 := by
    intro x X k hX hk h0 h1 hpos
    rcases le_or_gt X 0 with h | h
    · have h3 : |cfgVScale fl cfg i| * X ≤ 0 := mul_nonpos_of_nonneg_of_nonpos (abs_nonneg _) h
      have h2 := near R (|cfgVScale fl cfg i| * X)
      rw [abs_of_nonpos h3] at h2
      have h4 := (abs_le.1 h2).2
      have : (2⁻¹ : ℝ) ^ 200 ≤ 2⁻¹ ^ 30 := by norm_num
      nlinarith [(by positivity : (0 : ℝ) ≤ 2⁻¹ ^ 53), (by norm_num : (2⁻¹ : ℝ) ^ 53 ≤ 1)]
    · refine (le_abs_self _).trans ?_
      rcases hpos h with h' | h'
      · refine small_prod R (about_scale R S i).abs hX ?_ h1
        rw [abs_of_nonneg h', div_mul_eq_mul_div, div_le_iff₀ (by positivity)]
        linarith
      · exact small_prod R (about_scale R S i).abs h' (by simpa using h0) h1
  have weak : ∀ (j : Axis) (x X k : ℝ), About X |x| → |(cfg.stepper j).stepsPerMillimeter| * |x| ≤ 2 * k * (cfg.ticksPerSecond : ℝ) ^ 2 →
      0 ≤ k → k ≤ 1 → |fl (X * fl (cfgVScale fl cfg j / cfg.ticksPerSecond))| ≤ k + 2⁻¹ ^ 30 := by
    intro j x X k hX hk h0 h1
    refine small_prod R hX (about_acc R S j) ?_ h1
    rw [mul_div_assoc', div_le_iff₀ (by positivity)]
    linarith
  have n1 : (199 / 200 : ℝ) + 2⁻¹ ^ 30 < 1 := by norm_num
  have n2 : (99 / 200 : ℝ) + 2⁻¹ ^ 30 < 1 / 2 := by norm_num
  have self : ∀ x : ℝ, |x| ≤ 2 ^ 100 → About x |x| := fun x hx => ⟨by
    nlinarith [abs_nonneg x, (by positivity : (0 : ℝ) ≤ 2⁻¹ ^ 40), (by positivity : (0 : ℝ) ≤ 2⁻¹ ^ 190)], abs_nonneg _, hx⟩
  refine ⟨fun h => ?_, fun h => ?_, fun h => ?_⟩
  · cases vMax with
    | none => exact round_nonpos ((speed _ _ (99 / 200) (self _ (S.speed i)) (by simp only [Slow] at h; linarith)
        (by norm_num) (by norm_num) fun h => .inl h.le).trans_lt n2)
    | some x =>
      refine trunc_nonpos ((speed x (fl x) (199 / 200) (about_fl R (S.vMax x rfl)) (by simp only [Slow] at h; linarith)
        (by norm_num) (by norm_num) fun h => ?_).trans_lt n1)
      rcases le_or_gt 0 (x : ℝ) with h0 | h0
      · exact .inl h0
      · right
        have h2 := (abs_le.1 (near R x)).2
        rw [abs_of_neg h0] at h2
        refine ⟨?_, le_rfl, by positivity⟩
        rw [abs_of_pos h]
        have : (2⁻¹ : ℝ) ^ 200 ≤ 2⁻¹ ^ 190 := by norm_num
        nlinarith [(by positivity : (0 : ℝ) ≤ 2⁻¹ ^ 53), (by norm_num : (2⁻¹ : ℝ) ^ 53 ≤ 1)]
  · cases aMax with
    | none =>
      simp only [svgALimitF, svgAScaleF, Option.map_none]
      rw [mul_comm]
      exact round_zero ((weak i _ _ (99 / 200) (self _ (S.acc i)) (by simp only [Weak] at h; linarith) (by norm_num) (by norm_num)).trans_lt n2)
    | some x =>
      exact trunc_zero ((weak i x _ (199 / 200) (about_fl R (S.aMax x rfl)) (by simp only [Weak] at h; linarith) (by norm_num)
        (by norm_num)).trans_lt n1)
  · cases aMax with
    | none =>
      refine round_zero' (lt_of_le_of_lt ?_ n2)
      rw [mul_comm]
      refine small_prod R (self _ (S.acc i)) (about_acc R S .x).abs ?_ (by norm_num)
      simp only [Weak] at h
      rw [mul_div_assoc', div_le_iff₀ (by positivity)]
      linarith
    | some x =>
      exact trunc_zero ((weak .x x _ (199 / 200) (about_fl R (S.aMax x rfl)) (by simp only [Weak] at h; linarith) (by norm_num)
        (by norm_num)).trans_lt n1)

theorem svgLimit_nonneg (fl : ℝ → ℝ) (cfg : Xy) (a : Option ℝ) (i : Axis) : 0 ≤ svgALimitF fl cfg a i := by
  have h : ∀ n : ℤ, 0 ≤ n → 0 ≤ satI32 n := fun n hn => by unfold satI32; split_ifs <;> omega
  cases a with
  | none =>
    refine h _ ?_
    unfold Draw.round
    rw [if_pos (abs_nonneg _)]
    exact Int.floor_nonneg.2 (by positivity)
  | some x =>
    refine h _ ?_
    unfold Draw.trunc
    rw [if_pos (abs_nonneg _)]
    exact Int.floor_nonneg.2 (abs_nonneg _)

theorem rasterLimit_nonneg (fl : ℝ → ℝ) (cfg : Xy) (a : ℝ) (i : Axis) : 0 ≤ rasterALimitF fl cfg (some a) i := by
  have h : ∀ n : ℤ, 0 ≤ n → 0 ≤ satI32 n := fun n hn => by unfold satI32; split_ifs <;> omega
  refine h _ ?_
  unfold Draw.trunc
  rw [if_pos (abs_nonneg _)]
  exact Int.floor_nonneg.2 (abs_nonneg _)

/-! ### The programs -/

/-- C115: `svg_path` with a command line as documented, if for some axis `--v-max` (or else the configuration) is slow or
`--a-max` is weak.  It never ends normally, and it never comes to sending, whatever the files and devices. -/
theorem C115_svg (fl : ℝ → ℝ) (R : FloatRounding fl) (lib : Lib) (e : Rounded.Env) (w : World (List XmlEvent))
    (line : Line) (hl : line.Valid svgKeys) (ho : line.Once) (hh : line.helps = 0)
    (file : Cli.Arg) (hf : line.files.head? = some file) (name : Cli.Arg) (hc : line.value "config" = some name)
    (cfg : Xy) (hcfg : w.config name = some cfg) (htps : cfg.ticksPerSecond < 2 ^ 31)
    (vMax aMax speed : Option ℚ) (rep p : Option ℤ) (h1 : Float (line.value "v-max") vMax)
    (h2 : Float (line.value "a-max") aMax) (h3 : Float (line.value "draw-speed") speed)
    (h4 : Integer (line.value "repeat") rep) (h5 : Integer (line.value "intensity") p)
    (hrep : ∀ k ∈ rep, 1 ≤ k) (hp : ∀ k ∈ p, 0 ≤ k ∧ k ≤ 100) (S : Sizes cfg vMax aMax)
    (H : ∃ i, Slow (cfg.stepper i).stepsPerMillimeter cfg.ticksPerSecond (cfg.stepper i).maxVelocity vMax ∨
      Weak (cfg.stepper i).stepsPerMillimeter cfg.ticksPerSecond (cfg.stepper i).maxAcceleration aMax) :
    (svgCommand (svgChecked fl lib e) w line.args).out = .failed ∧
    ∀ (o : Options), o.vMax = (vMax.map fun x : ℚ => fl x) → o.aMax = (aMax.map fun x : ℚ => fl x) →
      ∀ e weight path v n, CheckedSvg.svgEvents fl e (svgALimitF fl cfg o.aMax) (vLimitF fl cfg o.vMax) weight path v n = none := by
  have hst : Stuck (svgALimitF fl cfg (aMax.map fun x : ℚ => fl x)) (vLimitF fl cfg (vMax.map fun x : ℚ => fl x)) := by
    obtain ⟨i, H⟩ := H
    have L := C115_limits fl R cfg vMax aMax S i
    have h0 := svgLimit_nonneg fl cfg (aMax.map fun x : ℚ => fl x) i
    refine ⟨i, ?_⟩
    rcases H with H | H
    · have := L.1 H
      omega
    · exact .inl (L.2.1 H)
  refine ⟨?_, fun o ov oa e weight path v n => by rw [ov, oa]; exact stuck_checked hst _ _ _ _⟩
  obtain ⟨o, e1, e2⟩ := svgNumbers_value h1 h2 h3 h4 h5 hrep hp
  have e3 : o.rounded fl = some ⟨vMax.map fun x : ℚ => fl x, aMax.map fun x : ℚ => fl x, speed.map fun x : ℚ => fl x, rep, p⟩ := by
    rw [SvgNumbers.rounded, e2]
    cases vMax <;> cases aMax <;> cases speed <;> rfl
  have key : ∀ doc port, svgChecked fl lib e cfg o (line.value "layer") doc port = none := by
    intro doc port
    unfold svgChecked
    simp only [e3, Option.bind_eq_bind, Option.bind_some]
    cases CheckedSvg.weight (p.getD 5) with
    | none => rfl
    | some wt =>
      simp only [Option.bind_some]
      split
      · rw [stuck_checked hst]; rfl
      · rfl
  rw [svgCommand_line _ w line hl ho hh file hf name hc cfg hcfg htps, e1]
  simp only [svgRest]
  split
  · rfl
  · split
    · rfl
    · rw [key]

/-- C115: the same for `image_raster` with a picture, if for some axis `--a-max` (or else the configuration) is weak, or
`--v-max` (or else the configuration) is slow and the acceleration of the configuration is not negative or not used. -/
theorem C115_raster (fl : ℝ → ℝ) (R : FloatRounding fl) (w : World (Option Image))
    (line : Line) (hl : line.Valid rasterKeys) (ho : line.Once) (hh : line.helps = 0)
    (file : Cli.Arg) (hf : line.files.head? = some file) (name : Cli.Arg) (hc : line.value "config" = some name)
    (cfg : Xy) (hcfg : w.config name = some cfg) (htps : cfg.ticksPerSecond < 2 ^ 31)
    (vMax aMax speed width height spot : Option ℚ) (p : Option ℤ) (h1 : Float (line.value "v-max") vMax)
    (h2 : Float (line.value "a-max") aMax) (h3 : Float (line.value "draw-speed") speed)
    (h5 : Integer (line.value "intensity") p) (hp : ∀ k ∈ p, 0 ≤ k ∧ k ≤ 100) (h6 : Float (line.value "width") width)
    (h7 : Float (line.value "height") height) (h8 : Float (line.value "spot-diam") spot)
    (img : Image) (himg : w.picture file = some (some img)) (S : Sizes cfg vMax aMax)
    (H : ∃ i, Slow (cfg.stepper i).stepsPerMillimeter cfg.ticksPerSecond (cfg.stepper i).maxVelocity vMax ∧
        (aMax = none → 0 ≤ (cfg.stepper i).maxAcceleration) ∨
      Weak (cfg.stepper .x).stepsPerMillimeter cfg.ticksPerSecond (cfg.stepper i).maxAcceleration aMax) :
    (rasterCommand (rasterChecked fl) w line.args).out = .failed ∧
    ∀ (o : RasterOptions), o.vMax = (vMax.map fun x : ℚ => fl x) → o.aMax = (aMax.map fun x : ℚ => fl x) →
      ∀ q img, Checked.raster q img (Ctx.new (rasterALimitF fl cfg o.aMax) (vLimitF fl cfg o.vMax)) = none := by
  have hst : Stuck (rasterALimitF fl cfg (aMax.map fun x : ℚ => fl x)) (vLimitF fl cfg (vMax.map fun x : ℚ => fl x)) := by
    obtain ⟨i, H⟩ := H
    have L := C115_limits fl R cfg vMax aMax S i
    refine ⟨i, ?_⟩
    rcases H with ⟨H, hm⟩ | H
    · have h1 := L.1 H
      have h0 : 0 ≤ rasterALimitF fl cfg (aMax.map fun x : ℚ => fl x) i := by
        cases aMax with
        | some x => exact rasterLimit_nonneg _ _ _ _
        | none =>
          have h : ∀ n : ℤ, 0 ≤ n → 0 ≤ satI32 n := fun n hn => by unfold satI32; split_ifs <;> omega
          refine h _ ?_
          have hy : 0 ≤ |rasterAScaleF fl cfg| * (cfg.stepper i).maxAcceleration := mul_nonneg (abs_nonneg _) (hm rfl)
          have hn := (abs_le.1 (near R (|rasterAScaleF fl cfg| * (cfg.stepper i).maxAcceleration))).1
          rw [abs_of_nonneg hy] at hn
          have hs : (2⁻¹ : ℝ) ^ 200 < 1 / 4 := by norm_num
          have h2 : -(1 / 4) < fl (|rasterAScaleF fl cfg| * (cfg.stepper i).maxAcceleration) := by
            nlinarith [(by norm_num : (2⁻¹ : ℝ) ^ 53 ≤ 1)]
          unfold Draw.round
          split
          · exact Int.floor_nonneg.2 (by linarith)
          · rw [Int.floor_eq_zero_iff.2 ⟨by linarith, by linarith⟩]; rfl
      omega
    · exact .inl (L.2.2 H)
  refine ⟨?_, fun o ov oa q img => by rw [ov, oa]; exact stuck_checkedRaster hst⟩
  obtain ⟨o, e1, e2⟩ := rasterNumbers_value h1 h2 h3 h5 hp h6 h7 h8
  have e3 : o.rounded fl = some ⟨vMax.map fun x : ℚ => fl x, aMax.map fun x : ℚ => fl x, speed.map fun x : ℚ => fl x, p,
      width.map fun x : ℚ => fl x, height.map fun x : ℚ => fl x, spot.map fun x : ℚ => fl x⟩ := by
    rw [RasterNumbers.rounded, e2]
    simp only [Option.map_some, Option.map_map]
    rfl
  have key : ∀ port, rasterChecked fl cfg o img port = none := by
    intro port
    unfold rasterChecked
    simp only [e3, Option.bind_eq_bind, Option.bind_some]
    rw [stuck_checkedRaster (by exact hst)]
    cases realHeight _ img <;> rfl
  rw [rasterCommand_line _ w line hl ho hh file hf name hc cfg hcfg htps, e1]
  simp only [rasterRest, himg]
  split
  · rfl
  · rw [key]

/-! ### Examples -/

/-- `-cm --v-max 19 -d tty f` -/
def slowLine : Line :=
  ⟨[.short 0 (key "c" "config") 'c' "m".toList true, .word (key "" "v-max") "19".toList false,
    .short 0 (key "d" "device") 'd' "tty".toList false, .other "f".toList], none⟩

/-- 19 mm/s are 1.9 steps per tick for 80 steps per mm and 800 ticks per second: no document can be drawn. -/
example (lib : Lib) (e : Rounded.Env) (w : World (List XmlEvent)) (hcfg : w.config "m".toList = some quickXy) :
    (svgCommand (svgChecked double lib e) w
      ["-cm".toList, "--v-max".toList, "19".toList, "-d".toList, "tty".toList, "f".toList]).out = .failed := by
  have hx : Float (slowLine.value "v-max") (some 19) := by
    have := Float.some ⟨.none, [1, 9], none, none⟩ ⟨by decide, by simp⟩
    have hv : Spec.Svg.Num.value ⟨.none, [1, 9], none, none⟩ = 19 := by
      norm_num [Spec.Svg.Num.value, Nat.ofDigits, Spec.Svg.Digits.val, Spec.Svg.Sign.val, Spec.Svg.Exp.val]
    rw [hv] at this
    exact this
  refine (C115_svg double C90_double lib e w slowLine (by
      intro i hi
      simp only [slowLine, List.mem_cons, List.not_mem_nil, or_false] at hi
      rcases hi with rfl | rfl | rfl | rfl <;> simp only [Item.Valid] <;> decide)
    ⟨by decide, by decide⟩ (by decide) "f".toList (by decide) "m".toList (by decide) quickXy hcfg (by decide)
    (some 19) none none none none hx .none .none .none .none (by simp) (by simp) ?_ ⟨.x, .inl ?_⟩).1
  · exact ⟨by decide, fun i => by norm_num [quickXy], fun i => by norm_num [quickXy], fun i => by norm_num [quickXy], by simp; norm_num, by simp⟩
  · norm_num [Slow, quickXy]

/-- `-cm --a-max=0 f` -/
def weakLine : Line :=
  ⟨[.short 0 (key "c" "config") 'c' "m".toList true, .word (key "" "a-max") "0".toList true, .other "f".toList], none⟩

/-- Without acceleration no picture can be burnt.  (Without these options both machines draw, see C114.) -/
example (w : World (Option Image)) (hcfg : w.config "m".toList = some quickXy) (hp : w.picture "f".toList = some (some samplePicture)) :
    (rasterCommand (rasterChecked double) w ["-cm".toList, "--a-max=0".toList, "f".toList]).out = .failed := by
  have hx : Float (weakLine.value "a-max") (some 0) := by
    have := Float.some ⟨.none, [0], none, none⟩ ⟨by decide, by simp⟩
    have hv : Spec.Svg.Num.value ⟨.none, [0], none, none⟩ = 0 := by
      norm_num [Spec.Svg.Num.value, Nat.ofDigits, Spec.Svg.Digits.val, Spec.Svg.Sign.val, Spec.Svg.Exp.val]
    rw [hv] at this
    exact this
  refine (C115_raster double C90_double w weakLine (by
      intro i hi
      simp only [weakLine, List.mem_cons, List.not_mem_nil, or_false] at hi
      rcases hi with rfl | rfl | rfl <;> simp only [Item.Valid] <;> decide)
    ⟨by decide, by decide⟩ (by decide) "f".toList (by decide) "m".toList (by decide) quickXy hcfg (by decide)
    none (some 0) none none none none none .none hx .none .none (by simp) .none .none .none samplePicture hp ?_ ⟨.x, .inr ?_⟩).1
  · exact ⟨by decide, fun i => by norm_num [quickXy], fun i => by norm_num [quickXy], fun i => by norm_num [quickXy], by simp, by simp⟩
  · norm_num [Weak, quickXy]

end StepperPaths.Props
