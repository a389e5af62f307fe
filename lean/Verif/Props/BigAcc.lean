import Verif.Proof.BigAccSvg
import Verif.Props.Limits

/-! # C116: accelerations that do not fit `i16` -/

namespace StepperPaths.Props
open Coords Context IntegerCurve Spec Program Config Control Raster StepperPaths.Svg Spec.Svg Rounded
open Draw (satI32 Seg coord)
open StepperPaths.Cli Spec.Cli StepperPaths.ConfigText Spec.Json

/-- C116: if one axis has an acceleration limit above 32768 (the segments hold an `i16`), every move from rest that succeeds takes
one tick and ends within one step of where this tick takes the machine, half the speed that is asked for. -/
theorem C116_goto (c c' : Ctx) (hbig : ∃ i, 32768 < c.aMax i) (ha : ∃ i, 0 < c.aMax i ∧ 0 < c.vMax i)
    (hrest : ∀ i, (c.channels i).v = 0) (x y vx vy : ℤ) (h : c.stepGotoSpeed x y vx vy = some c') :
    |x - (c.channels .x).pos - vx| ≤ 1 ∧ |y - (c.channels .y).pos - vy| ≤ 1 ∧ ∀ i, (c'.channels i).ticks = (c.channels i).ticks + 1 := by
  have hg := h
  simp only [Ctx.stepGotoSpeed, Option.bind_eq_bind, Option.bind_eq_some_iff, cassert] at hg
  obtain ⟨_, g1, _, g2, -⟩ := hg
  have g1 : vx ≤ c.vMax .x := by by_contra hn; simp [hn] at g1
  have g2 : vy ≤ c.vMax .y := by by_contra hn; simp [hn] at g2
  obtain ⟨i, a1, a2⟩ := ha
  have G := goto_big hbig ⟨i, a1, a2, by rw [hrest]; omega, by rw [hrest]; cases i <;> simp only [pick] <;> omega⟩ h
  refine ⟨?_, ?_, fun j => by rw [(G j).2]⟩
  · have := (G .x).1
    rw [hrest, zero_add] at this
    exact this
  · have := (G .y).1
    rw [hrest, zero_add] at this
    exact this

/-- C116: from rest to rest there is hardly a move: a distance of two steps on any axis makes `step_goto` panic. -/
theorem C116_moves (c : Ctx) (hbig : ∃ i, 32768 < c.aMax i) (ha : ∀ i, 0 ≤ c.aMax i)
    (hrest : ∀ i, (c.channels i).v = 0) (x y : ℤ) (h : 2 ≤ |x - (c.channels .x).pos| ∨ 2 ≤ |y - (c.channels .y).pos|) :
    c.stepGoto x y = none := by
  by_cases st : Stuck c.aMax c.vMax
  · exact stuck_goto st x y rfl rfl
  cases hs : c.stepGoto x y with
  | none => rfl
  | some c' =>
    exfalso
    have a1 : 0 < c.aMax .x := by
      by_contra hn
      exact st ⟨.x, .inl (by have := ha .x; omega)⟩
    have a2 : 0 < c.vMax .x := by
      by_contra hn
      exact st ⟨.x, .inr (by omega)⟩
    have := C116_goto c c' hbig ⟨.x, a1, a2⟩ hrest x y 0 0 hs
    rw [sub_zero, sub_zero] at this
    omega

/-- The shipped machine with an acceleration of 600 mm/s²: neither a millimeter to rest nor to the speed of 20 mm/s. -/
example : (Ctx.new (fun _ => 36000) fun _ => 384000).stepGoto 1966080 0 = none ∧
    (Ctx.new (fun _ => 36000) fun _ => 384000).stepGotoSpeed 1966080 0 153600 0 = none := by
  refine ⟨C116_moves _ ⟨.x, by norm_num [Ctx.new]⟩ (fun i => by norm_num [Ctx.new]) (fun i => rfl) _ _ (.inl (by norm_num [Ctx.new])), ?_⟩
  cases h : (Ctx.new (fun _ => 36000) fun _ => 384000).stepGotoSpeed 1966080 0 153600 0 with
  | none => rfl
  | some c' =>
    have := (C116_goto _ c' ⟨.x, by norm_num [Ctx.new]⟩ ⟨.x, by norm_num [Ctx.new]⟩ (fun i => rfl) _ _ _ _ h).1
    norm_num [Ctx.new] at this

/-- C116: no picture with a mark can be scanned, at any drawing speed of at least four steps per tick. -/
theorem C116_scan (p : Params) (img : Image) (aMax vMax : Axis → ℤ) (hbig : ∃ i, 32768 < aMax i) (ha : 0 ≤ aMax .x)
    (hv : 2 ≤ p.vX) (hv' : p.vX < 2 ^ 31) (hr : 0 < p.resY) (hp : ∃ x y, x < img.width ∧ y < img.height ∧ img.pixel x y < 255) :
    Raster.raster p img (Ctx.new aMax vMax) = none ∧ Checked.raster p img (Ctx.new aMax vMax) = none :=
  ⟨raster_big hbig ha hv hv' hr hp, checkedRaster_big hbig ha hv hv' hr hp⟩

/-- C116: no picture can be drawn that starts farther from the origin than one tick takes the machine at its top speed. -/
theorem C116_draw (fl : ℝ → ℝ) (e : Rounded.Env) (aMax vMax : Axis → ℤ) (hbig : ∃ i, 32768 < aMax i) (ha : ∀ i, 0 ≤ aMax i)
    (p : Vec) (seg : Seg) (hs : ¬ ∃ q, seg = .goTo q ∨ seg = .closeTo q) (segs : List Seg)
    (hfar : ∃ i, vMax i + 1 < Draw.round (fl (coord p i * e.stepScale i))) (weight : ℤ) (v : ℝ) (n : ℕ) (hn : n ≠ 0) :
    svgEventsF fl e aMax vMax weight (.goTo p :: seg :: segs) v n = none ∧
      CheckedSvg.svgEvents fl e aMax vMax weight (.goTo p :: seg :: segs) v n = none := by
  obtain ⟨n, rfl⟩ := Nat.exists_eq_succ_of_ne_zero hn
  have hd : Rounded.Drawn seg := by
    cases seg with
    | goTo q => exact hs ⟨q, .inl rfl⟩
    | closeTo q => exact hs ⟨q, .inr rfl⟩
    | _ => trivial
  exact ⟨events_big hbig ha hfar hd _ _ _ _, checked_big hbig ha hfar hd _ _ _ _⟩

/-! ### Which options give such limits -/

theorem fl_ge {fl : ℝ → ℝ} (R : FloatRounding fl) {y : ℝ} (h : 2⁻¹ ^ 120 ≤ |y|) : |y| * (1 - 2⁻¹ ^ 50) ≤ |fl y| := by
  have h1 := near R y
  have h2 : |y| ≤ |fl y| + |fl y - y| := by
    have := abs_sub_abs_le_abs_sub y (fl y)
    rw [abs_sub_comm] at this
    linarith
  have h3 : (2⁻¹ : ℝ) ^ 200 ≤ 2⁻¹ ^ 80 * |y| := by
    have : (2⁻¹ : ℝ) ^ 200 = 2⁻¹ ^ 80 * 2⁻¹ ^ 120 := by norm_num
    rw [this]
    gcongr
  have h4 : (2⁻¹ : ℝ) ^ 53 + 2⁻¹ ^ 80 ≤ 2⁻¹ ^ 50 := by norm_num
  nlinarith [abs_nonneg y]

/-- An acceleration of at least 65540 steps per square tick; half of this is what the programs call the acceleration. -/
def Strong (s T fromConfig : ℝ) : Option ℚ → Prop
  | some x => 65540 * T ^ 2 ≤ |s| * |(x : ℝ)|
  | none => 65540 * T ^ 2 ≤ |s| * |fromConfig|

theorem strong_mul {fl : ℝ → ℝ} (R : FloatRounding fl) {cfg : Xy} {vMax aMax : Option ℚ} (S : Sizes cfg vMax aMax) (j : Axis)
    {x X : ℝ} (hx : |x| ≤ 2 ^ 100) (hX : |x| * (1 - 2⁻¹ ^ 50) ≤ |X|)
    (h : 65540 * (cfg.ticksPerSecond : ℝ) ^ 2 ≤ |(cfg.stepper j).stepsPerMillimeter| * |x|) :
    32770 * (1 - 2⁻¹ ^ 50) ^ 3 ≤ |X * fl (cfgVScale fl cfg j / cfg.ticksPerSecond)| := by
  have hT : (1 : ℝ) ≤ cfg.ticksPerSecond := by exact_mod_cast Nat.one_le_iff_ne_zero.2 S.ticks
  set T : ℝ := (cfg.ticksPerSecond : ℝ) with hTd
  set s : ℝ := (cfg.stepper j).stepsPerMillimeter with hsd
  have e1 : |s / (2 * T)| = |s| / (2 * T) := by rw [abs_div, abs_of_pos (by positivity : 0 < 2 * T)]
  have hs : 65540 * T ^ 2 ≤ |s| * 2 ^ 100 := h.trans (by gcongr)
  have b1 : (2⁻¹ : ℝ) ^ 90 ≤ |s| / (2 * T) := by
    rw [le_div_iff₀ (by positivity)]
    have : (2⁻¹ : ℝ) ^ 90 * (2 * T) ≤ 65540 * T ^ 2 * 2⁻¹ ^ 100 := by
      have : (2⁻¹ : ℝ) ^ 90 * 2 = 2048 * 2⁻¹ ^ 100 := by norm_num
      rw [← mul_assoc, this]
      nlinarith [(by positivity : (0 : ℝ) < 2⁻¹ ^ 100)]
    refine this.trans ((mul_le_mul_of_nonneg_right hs (by positivity)).trans (le_of_eq ?_))
    rw [mul_assoc]
    norm_num
  have c1 := fl_ge R (y := s / (2 * T)) (by rw [e1]; exact le_trans (by norm_num) b1)
  change _ ≤ |cfgVScale fl cfg j| at c1
  rw [e1] at c1
  have e2 : |cfgVScale fl cfg j / T| = |cfgVScale fl cfg j| / T := by rw [abs_div, abs_of_pos (by positivity : 0 < T)]
  have b2 : |s| / (2 * T ^ 2) * (1 - 2⁻¹ ^ 50) ≤ |cfgVScale fl cfg j / T| := by
    rw [e2, le_div_iff₀ (by positivity)]
    refine le_trans (le_of_eq ?_) c1
    field_simp
  have b3 : (2⁻¹ : ℝ) ^ 90 ≤ |s| / (2 * T ^ 2) := by
    rw [le_div_iff₀ (by positivity)]
    have : (2⁻¹ : ℝ) ^ 90 * (2 * T ^ 2) ≤ 65540 * T ^ 2 * 2⁻¹ ^ 100 := by
      have : (2⁻¹ : ℝ) ^ 90 * 2 = 2048 * 2⁻¹ ^ 100 := by norm_num
      rw [← mul_assoc, this]
      nlinarith [(by positivity : (0 : ℝ) < 2⁻¹ ^ 100), sq_nonneg T]
    refine this.trans ((mul_le_mul_of_nonneg_right hs (by positivity)).trans (le_of_eq ?_))
    rw [mul_assoc]
    norm_num
  have n1 : (1 / 2 : ℝ) ≤ 1 - 2⁻¹ ^ 50 := by norm_num
  have c2 := fl_ge R (y := cfgVScale fl cfg j / T) (by
    refine le_trans ?_ b2
    have : (2⁻¹ : ℝ) ^ 120 ≤ 2⁻¹ ^ 90 * (1 / 2) := by norm_num
    exact this.trans (mul_le_mul b3 n1 (by norm_num) (by positivity)))
  set A := fl (cfgVScale fl cfg j / T)
  have c3 : |s| / (2 * T ^ 2) * ((1 - 2⁻¹ ^ 50) * (1 - 2⁻¹ ^ 50)) ≤ |A| := by
    rw [← mul_assoc]
    exact (mul_le_mul_of_nonneg_right b2 (by norm_num)).trans c2
  have hq : 32770 ≤ |x| * (|s| / (2 * T ^ 2)) := by
    rw [mul_div_assoc', le_div_iff₀ (by positivity)]
    nlinarith
  rw [abs_mul]
  have := mul_le_mul hX c3 (by have : (0 : ℝ) ≤ 1 - 2⁻¹ ^ 50 := by norm_num
                               positivity) (abs_nonneg _)
  refine le_trans ?_ this
  have e3 : |x| * (1 - 2⁻¹ ^ 50) * (|s| / (2 * T ^ 2) * ((1 - 2⁻¹ ^ 50) * (1 - 2⁻¹ ^ 50))) =
      |x| * (|s| / (2 * T ^ 2)) * (1 - 2⁻¹ ^ 50 : ℝ) ^ 3 := by ring
  rw [e3]
  exact mul_le_mul_of_nonneg_right hq (by norm_num)

theorem strong_prod {fl : ℝ → ℝ} (R : FloatRounding fl) {cfg : Xy} {vMax aMax : Option ℚ} (S : Sizes cfg vMax aMax) (j : Axis)
    {x X : ℝ} (hx : |x| ≤ 2 ^ 100) (hX : |x| * (1 - 2⁻¹ ^ 50) ≤ |X|)
    (h : 65540 * (cfg.ticksPerSecond : ℝ) ^ 2 ≤ |(cfg.stepper j).stepsPerMillimeter| * |x|) :
    32769 ≤ |fl (X * fl (cfgVScale fl cfg j / cfg.ticksPerSecond))| := by
  have c4 := strong_mul R S j hx hX h
  have c5 := fl_ge R (le_trans (by norm_num) c4)
  refine le_trans ?_ c5
  refine le_trans ?_ (mul_le_mul_of_nonneg_right c4 (by norm_num))
  norm_num

theorem trunc_big {y : ℝ} (h : 32769 ≤ |y|) : 32768 < satI32 (Draw.trunc |y|) := by
  have : 32769 ≤ Draw.trunc |y| := by
    unfold Draw.trunc
    rw [if_pos (abs_nonneg _)]
    exact Int.le_floor.2 (by exact_mod_cast h)
  unfold satI32
  split_ifs <;> omega

theorem round_big {y : ℝ} (h : 32769 ≤ y) : 32768 < satI32 (Draw.round y) := by
  have : 32769 ≤ Draw.round y := by
    unfold Draw.round
    rw [if_pos (by linarith)]
    exact Int.le_floor.2 (by push_cast; linarith)
  unfold satI32
  split_ifs <;> omega

/-- C116: a strong `--a-max`, or a strong axis of the configuration, give an acceleration limit that does not fit.  (For
`image_raster`, the acceleration of the configuration must be positive, and the steps of the x axis count for both axes.) -/
theorem C116_limits (fl : ℝ → ℝ) (R : FloatRounding fl) (cfg : Xy) (vMax aMax : Option ℚ) (S : Sizes cfg vMax aMax) (i : Axis) :
    (Strong (cfg.stepper i).stepsPerMillimeter cfg.ticksPerSecond (cfg.stepper i).maxAcceleration aMax →
      32768 < svgALimitF fl cfg (aMax.map fun x : ℚ => fl x) i) ∧
    (Strong (cfg.stepper .x).stepsPerMillimeter cfg.ticksPerSecond (cfg.stepper i).maxAcceleration aMax →
      (aMax = none → 0 < (cfg.stepper i).maxAcceleration) →
      32768 < rasterALimitF fl cfg (aMax.map fun x : ℚ => fl x) i) := by
  have hT : (1 : ℝ) ≤ cfg.ticksPerSecond := by exact_mod_cast Nat.one_le_iff_ne_zero.2 S.ticks
  have self : ∀ x : ℝ, |x| * (1 - 2⁻¹ ^ 50) ≤ |x| := fun x => by
    nlinarith [abs_nonneg x, (by positivity : (0 : ℝ) ≤ 2⁻¹ ^ 50)]
  have opt : ∀ (j : Axis) (x : ℚ), x ∈ aMax → 65540 * (cfg.ticksPerSecond : ℝ) ^ 2 ≤ |(cfg.stepper j).stepsPerMillimeter| * |(x : ℝ)| →
      |(x : ℝ)| * (1 - 2⁻¹ ^ 50) ≤ |fl x| := by
    intro j x hx h
    refine fl_ge R ?_
    have h1 : |(cfg.stepper j).stepsPerMillimeter| * |(x : ℝ)| ≤ 2 ^ 100 * |(x : ℝ)| := by
      gcongr
      exact S.steps j
    have h2 : (2⁻¹ : ℝ) ^ 100 * (2 ^ 100 * |(x : ℝ)|) = |(x : ℝ)| := by rw [← mul_assoc]; norm_num
    rw [← h2]
    have h3 : (1 : ℝ) ≤ 2 ^ 100 * |(x : ℝ)| := by nlinarith
    have h4 : (2⁻¹ : ℝ) ^ 120 ≤ 2⁻¹ ^ 100 * 1 := by norm_num
    exact h4.trans (by gcongr)
  constructor
  · intro h
    cases aMax with
    | none =>
      simp only [svgALimitF, svgAScaleF, Option.map_none]
      rw [mul_comm]
      exact round_big (strong_prod R S i (S.acc i) (self _) h)
    | some x => exact trunc_big (strong_prod R S i (S.aMax x rfl) (opt i x rfl h) h)
  · intro h hpos
    cases aMax with
    | none =>
      have hp := hpos rfl
      have key := strong_mul R S .x (S.acc i) (self _) h
      simp only [rasterALimitF, rasterAScaleF, Option.map_none]
      rw [abs_mul, abs_of_pos hp, mul_comm] at key
      have hn := (abs_le.1 (near R (|fl (cfgVScale fl cfg .x / cfg.ticksPerSecond)| * (cfg.stepper i).maxAcceleration))).1
      rw [abs_of_nonneg (mul_nonneg (abs_nonneg _) hp.le)] at hn
      refine round_big ?_
      have n1 : 32769 ≤ 32770 * (1 - 2⁻¹ ^ 50 : ℝ) ^ 3 * (1 - 2⁻¹ ^ 53) - 2⁻¹ ^ 200 := by norm_num
      have n2 : (0 : ℝ) ≤ 1 - 2⁻¹ ^ 53 := by norm_num
      nlinarith [mul_le_mul_of_nonneg_right key n2]
    | some x => exact trunc_big (strong_prod R S .x (S.aMax x rfl) (opt .x x rfl h) h)

/-- The value of an option, or else of the configuration. -/
def asked (fromConfig : ℝ) : Option ℚ → ℝ
  | some x => x
  | none => fromConfig

/-- The speed limit is at most what is asked for, up to the roundings. -/
theorem speed_le {fl : ℝ → ℝ} (R : FloatRounding fl) {cfg : Xy} {vMax aMax : Option ℚ} (S : Sizes cfg vMax aMax) (i : Axis) :
    (vLimitF fl cfg (vMax.map fun x : ℚ => fl x) i : ℝ) ≤
      |(cfg.stepper i).stepsPerMillimeter| / (2 * cfg.ticksPerSecond) * |asked (cfg.stepper i).maxVelocity vMax| * (1 + 1 / 2000) + 1 := by
  have A := (about_scale R S i).abs
  have key : ∀ X x : ℝ, About X |x| → |fl (|cfgVScale fl cfg i| * X)| ≤
      |(cfg.stepper i).stepsPerMillimeter| / (2 * cfg.ticksPerSecond) * |x| * (1 + 1 / 2000) + 1 / 4 := by
    intro X x hX
    refine (fl_le R _).trans ?_
    rw [abs_mul]
    obtain ⟨a1, a2, a3⟩ := A
    obtain ⟨b1, b2, b3⟩ := hX
    generalize |(cfg.stepper i).stepsPerMillimeter| / (2 * cfg.ticksPerSecond) = a at *
    generalize |x| = b at *
    have h1 := mul_le_mul a1 b1 (abs_nonneg _) (by positivity)
    have e : (a * (1 + 2⁻¹ ^ 40) + 2⁻¹ ^ 190) * (b * (1 + 2⁻¹ ^ 40) + 2⁻¹ ^ 190) =
        a * b * (1 + 2⁻¹ ^ 40) ^ 2 + (a + b) * ((1 + 2⁻¹ ^ 40) * 2⁻¹ ^ 190) + (2⁻¹ : ℝ) ^ 190 * 2⁻¹ ^ 190 := by ring
    rw [e] at h1
    have g2 : (a + b) * ((1 + 2⁻¹ ^ 40) * 2⁻¹ ^ 190) ≤ (2 ^ 100 + 2 ^ 100) * ((1 + 2⁻¹ ^ 40) * 2⁻¹ ^ 190 : ℝ) := by gcongr
    have g3 : (2 ^ 100 + 2 ^ 100) * ((1 + 2⁻¹ ^ 40) * 2⁻¹ ^ 190 : ℝ) + (2⁻¹ : ℝ) ^ 190 * 2⁻¹ ^ 190 ≤ 2⁻¹ ^ 36 := by norm_num
    have g4 : (1 + 2⁻¹ ^ 40 : ℝ) ^ 2 * (1 + 2⁻¹ ^ 53) ≤ 1 + 1 / 2000 := by norm_num
    have g5 : (2⁻¹ : ℝ) ^ 36 * (1 + 2⁻¹ ^ 53) + 2⁻¹ ^ 200 ≤ 1 / 4 := by norm_num
    have g6 : (|(|cfgVScale fl cfg i|)| * |X|) * (1 + 2⁻¹ ^ 53) ≤ (a * b * (1 + 2⁻¹ ^ 40) ^ 2 + 2⁻¹ ^ 36) * (1 + (2⁻¹ : ℝ) ^ 53) := by
      gcongr
      linarith
    have g7 := mul_le_mul_of_nonneg_left g4 (mul_nonneg a2 b2)
    nlinarith
  have sat : ∀ (n : ℤ) (y : ℝ), 0 ≤ y → (n : ℝ) ≤ y → (satI32 n : ℝ) ≤ y := by
    intro n y h0 h
    unfold satI32
    split_ifs with c1 c2
    · exact le_trans (by exact_mod_cast c1.le) h
    · push_cast; linarith
    · exact h
  cases vMax with
  | none =>
    have self : About (cfg.stepper i).maxVelocity |(cfg.stepper i).maxVelocity| := ⟨by
      nlinarith [abs_nonneg (cfg.stepper i).maxVelocity, (by positivity : (0 : ℝ) ≤ 2⁻¹ ^ 40), (by positivity : (0 : ℝ) ≤ 2⁻¹ ^ 190)],
      abs_nonneg _, S.speed i⟩
    have := key _ _ self
    refine sat _ _ (by simp only [asked]; positivity) ?_
    have h2 := abs_le.1 (Picture.round_half (fl (|cfgVScale fl cfg i| * (cfg.stepper i).maxVelocity)))
    have h3 := le_abs_self (fl (|cfgVScale fl cfg i| * (cfg.stepper i).maxVelocity))
    simp only [asked]
    linarith [h2.1, h2.2]
  | some x =>
    have := key _ _ (about_fl R (S.vMax x rfl))
    refine sat _ _ (by simp only [asked]; positivity) ?_
    have h3 := le_abs_self (fl (|cfgVScale fl cfg i| * fl x))
    simp only [asked]
    have h4 : (Draw.trunc (fl (|cfgVScale fl cfg i| * fl x)) : ℝ) ≤ |fl (|cfgVScale fl cfg i| * fl x)| := by
      unfold Draw.trunc
      split
      · exact (Int.floor_le _).trans h3
      · push_cast
        have := Int.lt_floor_add_one (-fl (|cfgVScale fl cfg i| * fl x))
        have h6 : 0 ≤ ⌊-fl (|cfgVScale fl cfg i| * fl x)⌋ := Int.floor_nonneg.2 (by linarith)
        have h7 : (0 : ℝ) ≤ ⌊-fl (|cfgVScale fl cfg i| * fl x)⌋ := by exact_mod_cast h6
        have := abs_nonneg (fl (|cfgVScale fl cfg i| * fl x))
        linarith
    linarith

/-! ### The programs -/

/-- C116: `svg_path` with a command line as documented and a strong `--a-max` (or else a strong axis of the configuration).  If
the picture starts, on some axis, farther from the origin than the top speed of this axis reaches in about one tick, the program
fails before anything is sent. -/
theorem C116_svg (fl : ℝ → ℝ) (R : FloatRounding fl) (lib : Lib) (e : Rounded.Env) (w : World (List XmlEvent))
    (line : Line) (hl : line.Valid svgKeys) (ho : line.Once) (hh : line.helps = 0)
    (file : Cli.Arg) (hf : line.files.head? = some file) (name : Cli.Arg) (hc : line.value "config" = some name)
    (cfg : Xy) (hcfg : w.config name = some cfg) (htps : cfg.ticksPerSecond < 2 ^ 31)
    (vMax aMax speed : Option ℚ) (rep p : Option ℤ) (h1 : Float (line.value "v-max") vMax)
    (h2 : Float (line.value "a-max") aMax) (h3 : Float (line.value "draw-speed") speed)
    (h4 : Integer (line.value "repeat") rep) (h5 : Integer (line.value "intensity") p)
    (hrep : ∀ k ∈ rep, 1 ≤ k) (hp : ∀ k ∈ p, 0 ≤ k ∧ k ≤ 100) (S : Sizes cfg vMax aMax)
    (H : ∃ i, Strong (cfg.stepper i).stepsPerMillimeter cfg.ticksPerSecond (cfg.stepper i).maxAcceleration aMax)
    (doc : List XmlEvent) (hdoc : w.picture file = some doc) (P : Vec) (seg : Seg) (segs : List Seg)
    (hs : ¬ ∃ q, seg = .goTo q ∨ seg = .closeTo q)
    (hpath : parseDocumentF fl lib (keepOf (line.value "layer")) .identity doc = some (.ok (.goTo P :: seg :: segs)))
    (hfar : ∃ i, |(cfg.stepper i).stepsPerMillimeter| / (2 * cfg.ticksPerSecond) *
        |asked (cfg.stepper i).maxVelocity vMax| * (1 + 1 / 1000) + 3 ≤
      coord P i * (cfg.stepper i).stepsPerMillimeter) :
    (svgCommand (svgChecked fl lib e) w line.args).out = .failed := by
  have hbig : ∃ i, 32768 < svgALimitF fl cfg (aMax.map fun x : ℚ => fl x) i := by
    obtain ⟨i, H⟩ := H
    exact ⟨i, (C116_limits fl R cfg vMax aMax S i).1 H⟩
  have hf' : ∃ i, vLimitF fl cfg (vMax.map fun x : ℚ => fl x) i + 1 <
      Draw.round (fl (coord P i * (cfg.stepper i).stepsPerMillimeter)) := by
    obtain ⟨i, hi⟩ := hfar
    refine ⟨i, ?_⟩
    have h1 := speed_le R S i
    set y := coord P i * (cfg.stepper i).stepsPerMillimeter
    set M := |(cfg.stepper i).stepsPerMillimeter| / (2 * cfg.ticksPerSecond) * |asked (cfg.stepper i).maxVelocity vMax| with hM
    have hM0 : 0 ≤ M := by positivity
    have h2 := (abs_le.1 (near R y)).1
    rw [abs_of_nonneg (by linarith)] at h2
    have h3 : (2⁻¹ : ℝ) ^ 200 ≤ 1 / 4 := by norm_num
    have h4 : (2⁻¹ : ℝ) ^ 53 ≤ 1 / 10000 := by norm_num
    have h5 := (abs_le.1 (Picture.round_half (fl y))).1
    have h6 : (vLimitF fl cfg (vMax.map fun x : ℚ => fl x) i : ℝ) + 1 < Draw.round (fl y) := by nlinarith
    exact_mod_cast h6
  obtain ⟨o, e1, e2⟩ := svgNumbers_value h1 h2 h3 h4 h5 hrep hp
  have e3 : o.rounded fl = some ⟨vMax.map fun x : ℚ => fl x, aMax.map fun x : ℚ => fl x, speed.map fun x : ℚ => fl x, rep, p⟩ := by
    rw [SvgNumbers.rounded, e2]
    cases vMax <;> cases aMax <;> cases speed <;> rfl
  have hr : (rep.getD 1).toNat ≠ 0 := by
    cases rep with
    | none => decide
    | some k =>
      have := hrep k rfl
      simp only [Option.getD_some]
      omega
  have key : ∀ port, svgChecked fl lib e cfg o (line.value "layer") doc port = none := by
    intro port
    unfold svgChecked
    simp only [e3, Option.bind_eq_bind, Option.bind_some, hpath]
    cases CheckedSvg.weight (p.getD 5) with
    | none => rfl
    | some wt =>
      simp only [Option.bind_some]
      rw [(C116_draw fl { e with stepScale := fun i => (cfg.stepper i).stepsPerMillimeter } _ _ hbig
        (svgLimit_nonneg fl cfg _) P seg hs segs hf' wt _ _ hr).2]
      rfl
  rw [svgCommand_line _ w line hl ho hh file hf name hc cfg hcfg htps, e1]
  simp only [svgRest]
  split
  · rfl
  · rw [hdoc]
    simp only [key]

/-- C116: `image_raster` with a command line as documented, a strong `--a-max` (or else a strong axis of the configuration, with a
positive acceleration on the x axis) and a picture with a mark.  If its drawing speed is at least four steps per tick and it
draws at least one line per row, the program fails before anything is sent. -/
theorem C116_raster (fl : ℝ → ℝ) (R : FloatRounding fl) (w : World (Option Image))
    (line : Line) (hl : line.Valid rasterKeys) (ho : line.Once) (hh : line.helps = 0)
    (file : Cli.Arg) (hf : line.files.head? = some file) (name : Cli.Arg) (hc : line.value "config" = some name)
    (cfg : Xy) (hcfg : w.config name = some cfg) (htps : cfg.ticksPerSecond < 2 ^ 31)
    (vMax aMax speed width height spot : Option ℚ) (p : Option ℤ) (h1 : Float (line.value "v-max") vMax)
    (h2 : Float (line.value "a-max") aMax) (h3 : Float (line.value "draw-speed") speed)
    (h5 : Integer (line.value "intensity") p) (hp : ∀ k ∈ p, 0 ≤ k ∧ k ≤ 100) (h6 : Float (line.value "width") width)
    (h7 : Float (line.value "height") height) (h8 : Float (line.value "spot-diam") spot)
    (img : Image) (himg : w.picture file = some (some img)) (hmark : ∃ x y, x < img.width ∧ y < img.height ∧ img.pixel x y < 255)
    (S : Sizes cfg vMax aMax)
    (H : ∃ i, Strong (cfg.stepper .x).stepsPerMillimeter cfg.ticksPerSecond (cfg.stepper i).maxAcceleration aMax ∧
      (aMax = none → 0 < (cfg.stepper i).maxAcceleration ∧ 0 < (cfg.stepper .x).maxAcceleration))
    (o : RasterOptions) (ho' : o = ⟨vMax.map fun x : ℚ => fl x, aMax.map fun x : ℚ => fl x, speed.map fun x : ℚ => fl x, p,
      width.map fun x : ℚ => fl x, height.map fun x : ℚ => fl x, spot.map fun x : ℚ => fl x⟩)
    (hv : 2 ≤ vXF fl cfg (requestF fl o img.width img.height) img.width)
    (hr : 0 < resYF fl (requestF fl o img.width img.height) img.height) :
    (rasterCommand (rasterChecked fl) w line.args).out = .failed := by
  subst ho'
  have hbig : ∃ i, 32768 < rasterALimitF fl cfg (aMax.map fun x : ℚ => fl x) i := by
    obtain ⟨i, H, hi⟩ := H
    exact ⟨i, (C116_limits fl R cfg vMax aMax S i).2 H fun h => (hi h).1⟩
  have h0 : 0 ≤ rasterALimitF fl cfg (aMax.map fun x : ℚ => fl x) .x := by
    cases aMax with
    | some x => exact rasterLimit_nonneg _ _ _ _
    | none =>
      obtain ⟨i, -, hi⟩ := H
      have hn := (abs_le.1 (near R (|rasterAScaleF fl cfg| * (cfg.stepper .x).maxAcceleration))).1
      have hy : 0 ≤ |rasterAScaleF fl cfg| * (cfg.stepper .x).maxAcceleration := mul_nonneg (abs_nonneg _) (hi rfl).2.le
      rw [abs_of_nonneg hy] at hn
      have hs : (2⁻¹ : ℝ) ^ 200 < 1 / 4 := by norm_num
      have h2 : -(1 / 4) < fl (|rasterAScaleF fl cfg| * (cfg.stepper .x).maxAcceleration) := by
        nlinarith [(by norm_num : (2⁻¹ : ℝ) ^ 53 ≤ 1)]
      have h : ∀ n : ℤ, 0 ≤ n → 0 ≤ satI32 n := fun n hn => by unfold satI32; split_ifs <;> omega
      refine h _ ?_
      unfold Draw.round
      split
      · exact Int.floor_nonneg.2 (by linarith)
      · rw [Int.floor_eq_zero_iff.2 ⟨by linarith, by linarith⟩]; rfl
  have hlt : vXF fl cfg (requestF fl ⟨vMax.map fun x : ℚ => fl x, aMax.map fun x : ℚ => fl x, speed.map fun x : ℚ => fl x, p,
      width.map fun x : ℚ => fl x, height.map fun x : ℚ => fl x, spot.map fun x : ℚ => fl x⟩ img.width img.height) img.width < 2 ^ 31 := by
    unfold vXF satI32
    split_ifs <;> omega
  obtain ⟨o, e1, e2⟩ := rasterNumbers_value h1 h2 h3 h5 hp h6 h7 h8
  have e3 : o.rounded fl = some ⟨vMax.map fun x : ℚ => fl x, aMax.map fun x : ℚ => fl x, speed.map fun x : ℚ => fl x, p,
      width.map fun x : ℚ => fl x, height.map fun x : ℚ => fl x, spot.map fun x : ℚ => fl x⟩ := by
    rw [RasterNumbers.rounded, e2]
    simp only [Option.map_some, Option.map_map]
    rfl
  have key : ∀ port, rasterChecked fl cfg o img port = none := by
    intro port
    unfold rasterChecked
    simp only [e3, Option.bind_eq_bind, Option.bind_some]
    rw [(C116_scan _ img _ _ hbig h0 hv hlt hr hmark).2]
    cases realHeight _ img <;> rfl
  rw [rasterCommand_line _ w line hl ho hh file hf name hc cfg hcfg htps, e1]
  simp only [rasterRest, himg]
  split
  · rfl
  · rw [key]

/-! ### Examples

The shipped configuration file has 1966080 steps per mm, 128 ticks per second and 500 mm/s² for both axes.  This is the
acceleration 30000; 600 mm/s² is 36000. -/

theorem six_hundred {a : Option Cli.Arg} (h : a = some "600".toList) : Float a (some 600) := by
  have := Float.some ⟨.none, [6, 0, 0], none, none⟩ ⟨by decide, by simp⟩
  have hv : Spec.Svg.Num.value ⟨.none, [6, 0, 0], none, none⟩ = 600 := by
    norm_num [Spec.Svg.Num.value, Nat.ofDigits, Spec.Svg.Digits.val, Spec.Svg.Sign.val, Spec.Svg.Exp.val]
  rw [hv] at this
  rw [h]
  exact this

theorem shipped_sizes : Sizes (sampleConfig 1) none (some 600) :=
  ⟨by norm_num [sampleConfig], fun i => by cases i <;> norm_num [sampleConfig], fun i => by cases i <;> norm_num [sampleConfig],
    fun i => by cases i <;> norm_num [sampleConfig], by simp, by simp; norm_num⟩

/-- `-cm --a-max=600 f` -/
def strongLine : Line :=
  ⟨[.short 0 (key "c" "config") 'c' "m".toList true, .word (key "" "a-max") "600".toList true, .other "f".toList], none⟩

/-- The drawing of C95 starts 10 mm from the origin.  On the shipped machine it cannot be drawn with `--a-max=600`. -/
example (lib : Lib) (e : Rounded.Env) (w : World (List XmlEvent)) (hcfg : w.config "m".toList = some (sampleConfig 1))
    (hd : w.picture "f".toList = some bendDoc.events) :
    (svgCommand (svgChecked double lib e) w ["-cm".toList, "--a-max=600".toList, "f".toList]).out = .failed := by
  refine C116_svg double C90_double lib e w strongLine (by
      intro i hi
      simp only [strongLine, List.mem_cons, List.not_mem_nil, or_false] at hi
      rcases hi with rfl | rfl | rfl <;> simp only [Item.Valid] <;> decide)
    ⟨by decide, by decide⟩ (by decide) "f".toList (by decide) "m".toList (by decide) (sampleConfig 1) hcfg (by norm_num [sampleConfig])
    none (some 600) none none none .none (six_hundred (by decide)) .none .none .none (by simp) (by simp) shipped_sizes
    ⟨.x, ?_⟩ _ hd ⟨10, 0⟩ _ _ ?_ (bend_computed lib) ⟨.x, ?_⟩
  · norm_num [Strong, sampleConfig]
  · simp
  · norm_num [asked, sampleConfig, coord]

/-- The sample picture cannot be burnt with `--a-max=600`; without this option it can, see C114. -/
example (w : World (Option Image)) (hcfg : w.config "m".toList = some (sampleConfig 1))
    (hp : w.picture "f".toList = some (some samplePicture)) :
    (rasterCommand (rasterChecked double) w ["-cm".toList, "--a-max=600".toList, "f".toList]).out = .failed := by
  have hi := sample_scannable.interval_le C90_double
  have hv := vXF_near C90_double (sample_scannable.width_rel C90_double) sample_scannable.bigW sample_scannable.scaleX
    sample_scannable.pixels.1.1 (sample_scannable.interval_lt C90_double) (by norm_num [sampleConfig])
  have hl := abs_le.1 (sample_scannable.lines_near C90_double)
  refine C116_raster double C90_double w strongLine (by
      intro i hi
      simp only [strongLine, List.mem_cons, List.not_mem_nil, or_false] at hi
      rcases hi with rfl | rfl | rfl <;> simp only [Item.Valid] <;> decide)
    ⟨by decide, by decide⟩ (by decide) "f".toList (by decide) "m".toList (by decide) (sampleConfig 1) hcfg (by norm_num [sampleConfig])
    none (some 600) none none none none none .none (six_hundred (by decide)) .none .none (by simp) .none .none .none
    samplePicture hp ⟨1, 1, by decide, by decide, by decide⟩ shipped_sizes
    ⟨.x, ?_, by simp⟩ _ rfl ?_ ?_
  · norm_num [Strong, sampleConfig]
  · change 2 ≤ vXF double (sampleConfig 1) (requestF double ⟨none, none, none, none, none, none, none⟩ samplePicture.width
      samplePicture.height) samplePicture.width
    generalize vXF double (sampleConfig 1) (requestF double ⟨none, none, none, none, none, none, none⟩ samplePicture.width
      samplePicture.height) samplePicture.width = z at *
    have h1 : 1 ≤ samplePicture.width * resXF double (sampleConfig 1) (requestF double ⟨none, none, none, none, none, none, none⟩
      samplePicture.width samplePicture.height) samplePicture.width := Nat.mul_pos (by decide) (Nat.lt_of_lt_of_le Nat.one_pos (le_max_left _ _))
    generalize samplePicture.width * resXF double (sampleConfig 1) (requestF double ⟨none, none, none, none, none, none, none⟩
      samplePicture.width samplePicture.height) samplePicture.width = n at *
    have n1 : (1 : ℝ) ≤ n := by exact_mod_cast h1
    have n2 : (n : ℝ) ≤ 132 := hi.trans (by norm_num [sampleConfig, samplePicture])
    have q : (100000 : ℝ) ≤ 20 * ((sampleConfig 1).stepper .x).stepsPerMillimeter / (2 * n) := by
      rw [le_div_iff₀ (by linarith)]
      simp only [sampleConfig]
      linarith
    have h2 := (abs_le.1 hv).1
    have : (2 : ℝ) ≤ z := by
      nlinarith
    exact_mod_cast this
  · change 0 < resYF double (requestF double ⟨none, none, none, none, none, none, none⟩ samplePicture.width
      samplePicture.height) samplePicture.height
    have h2 : (0 : ℝ) < resYF double (requestF double ⟨none, none, none, none, none, none, none⟩ samplePicture.width
      samplePicture.height) samplePicture.height := by
      have : (10 : ℝ) / (samplePicture.height * (1 / 5)) = 25 := by norm_num [samplePicture]
      rw [this] at hl
      linarith [hl.1]
    exact_mod_cast h2

end StepperPaths.Props
