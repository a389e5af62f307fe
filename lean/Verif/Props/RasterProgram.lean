import Verif.Props.Program
import Verif.Props.Config

/-! # C86: the program `image_raster` -/

namespace StepperPaths.Props
open Context IntegerCurve Spec Raster Draw Program Config Control

/-- C86: a size that is given is kept, and the picture keeps its proportions unless both are given. -/
theorem C86_size (width height : Option ℝ) (xPixels yPixels : ℕ) (hx : 0 < xPixels) (hy : 0 < yPixels) :
    (∀ w, width = some w → (pictureSize width height xPixels yPixels).1 = w) ∧
    (∀ h, height = some h → (pictureSize width height xPixels yPixels).2 = h) ∧
    (width = none → height = none → (pictureSize width height xPixels yPixels).1 = 20) ∧
    (width = none ∨ height = none → (pictureSize width height xPixels yPixels).1 * yPixels =
      (pictureSize width height xPixels yPixels).2 * xPixels) := by
  have h1 : (xPixels : ℝ) ≠ 0 := by positivity
  have h2 : (yPixels : ℝ) ≠ 0 := by positivity
  unfold pictureSize
  cases width <;> cases height <;> simp <;> field_simp

example : pictureSize none (some 30) 40 60 = (20, 30) := by
  unfold pictureSize
  norm_num

/-- A value rounded to an integer of at least one. -/
theorem rounded_ratio {q : ℝ} {n : ℕ} (hn : 1 ≤ n) (h : |(n : ℝ) - q| ≤ 1 / 2) : 1 / 2 ≤ q / n ∧ q / n ≤ 3 / 2 := by
  have h1 : (1 : ℝ) ≤ n := by exact_mod_cast hn
  obtain ⟨a, b⟩ := abs_le.1 h
  rw [le_div_iff₀ (by linarith), div_le_iff₀ (by linarith)]
  constructor <;> linarith

/-- C86: the lines of the picture are about as far apart as the spot is wide, which is 0.2 mm when the
option is not given; and the head crosses the picture with about the drawing speed, which is 20 mm/s
when the option is not given.  (About: from half to one and a half times.) -/
theorem C86_pitch (cfg : Xy) (o : RasterOptions) (x y : ℕ) (hx : 0 < x) (hy : 0 < y) (d v : ℝ) (hd : 0 < d)
    (hv : 0 < v) (hod : o.spot = some d ∨ (o.spot = none ∧ d = 1 / 5))
    (hov : o.drawSpeed = some v ∨ (o.drawSpeed = none ∧ v = 20)) (w h : ℝ)
    (hsize : pictureSize o.width o.height x y = (w, h)) :
    (d / 2 ≤ h / y → h / (y * d) + 1 ≤ 2 ^ 32 →
      d / 2 ≤ h / (resY (o.request x y) y * y) ∧ h / (resY (o.request x y) y * y) ≤ 3 / 2 * d) ∧
    ((cfg.stepper .x).stepsPerMillimeter ≠ 0 → v / 2 ≤ w * cfg.ticksPerSecond / x →
      w * cfg.ticksPerSecond / (x * v) + 1 ≤ 2 ^ 32 →
      v / 2 ≤ w * cfg.ticksPerSecond / (resX cfg (o.request x y) x * x) ∧
        w * cfg.ticksPerSecond / (resX cfg (o.request x y) x * x) ≤ 3 / 2 * v) := by
  have hx' : (0 : ℝ) < x := by exact_mod_cast hx
  have hy' : (0 : ℝ) < y := by exact_mod_cast hy
  have rnd : ∀ {q : ℝ}, 1 / 2 ≤ q → q + 1 ≤ 2 ^ 32 → 1 ≤ Draw.round q ∧
      ((satU32 (Draw.round q) : ℕ) : ℝ) = (Draw.round q : ℝ) := by
    intro q h1 h2
    obtain ⟨a, b⟩ := abs_le.1 (round_near q)
    have h3 : 1 ≤ Draw.round q := by
      unfold Draw.round
      rw [if_pos (by linarith)]
      rw [Int.le_floor]
      push_cast
      linarith
    have h4 : (Draw.round q : ℝ) < 2 ^ 32 := by linarith
    have := satU32_eq (x := Draw.round q) (by omega) (by exact_mod_cast h4)
    exact ⟨h3, by exact_mod_cast this⟩
  have es : (o.request x y).spot = d := by
    rcases hod with h | ⟨h, rfl⟩ <;> simp [RasterOptions.request, h]
  have ev : (o.request x y).speed = v := by
    rcases hov with h | ⟨h, rfl⟩ <;> simp [RasterOptions.request, h]
  have ew : (o.request x y).width = w := by simp [RasterOptions.request, hsize]
  have eh : (o.request x y).height = h := by simp [RasterOptions.request, hsize]
  constructor
  · intro h1 h2
    set q := h / (y * d) with hq
    have hq' : 1 / 2 ≤ q := by
      rw [hq, le_div_iff₀ (by positivity)]
      rw [le_div_iff₀ hy'] at h1
      linarith
    obtain ⟨r1, r2⟩ := rnd hq' h2
    have er : ((resY (o.request x y) y : ℕ) : ℝ) = Draw.round q := by
      unfold resY
      rw [es, eh]
      exact r2
    have r3 : 1 ≤ resY (o.request x y) y := by
      have : (1 : ℝ) ≤ (resY (o.request x y) y : ℕ) := by rw [er]; exact_mod_cast r1
      exact_mod_cast this
    obtain ⟨k1, k2⟩ := rounded_ratio (q := q) r3 (by rw [er]; exact round_near q)
    have e1 : h / (resY (o.request x y) y * y) = d * (q / (resY (o.request x y) y : ℕ)) := by
      have : (0 : ℝ) < (resY (o.request x y) y : ℕ) := by exact_mod_cast r3
      rw [hq]
      field_simp
    rw [e1]
    constructor <;> nlinarith
  · intro hs h1 h2
    set q := w * cfg.ticksPerSecond / (x * v) with hq
    have hq' : 1 / 2 ≤ q := by
      rw [hq, le_div_iff₀ (by positivity)]
      rw [le_div_iff₀ hx'] at h1
      linarith
    obtain ⟨r1, r2⟩ := rnd hq' h2
    have er : ((resX cfg (o.request x y) x : ℕ) : ℝ) = Draw.round q := by
      have e0 : w * (cfg.stepper .x).stepsPerMillimeter * cfg.ticksPerSecond /
          (x * (v * (cfg.stepper .x).stepsPerMillimeter)) = q := by
        rw [hq]
        field_simp
      unfold resX
      rw [ev, ew, e0]
      have : 1 ≤ satU32 (Draw.round q) := by
        have : (1 : ℝ) ≤ (satU32 (Draw.round q) : ℕ) := by rw [r2]; exact_mod_cast r1
        exact_mod_cast this
      rw [max_eq_right this]
      exact r2
    have r3 : 1 ≤ resX cfg (o.request x y) x := by
      have : (1 : ℝ) ≤ (resX cfg (o.request x y) x : ℕ) := by rw [er]; exact_mod_cast r1
      exact_mod_cast this
    obtain ⟨k1, k2⟩ := rounded_ratio (q := q) r3 (by rw [er]; exact round_near q)
    have e1 : w * cfg.ticksPerSecond / (resX cfg (o.request x y) x * x) =
        v * (q / (resX cfg (o.request x y) x : ℕ)) := by
      have : (0 : ℝ) < (resX cfg (o.request x y) x : ℕ) := by exact_mod_cast r3
      rw [hq]
      field_simp
    rw [e1]
    constructor <;> nlinarith

/-- Without options, 60 × 60 pixels on 20 × 20 mm: the lines are between 0.1 and 0.3 mm apart. -/
example : (1 / 5 : ℝ) / 2 ≤ 20 / (resY (RasterOptions.request ⟨none, none, none, none, none, none, none⟩ 60 60) 60 * 60) ∧
    20 / (resY (RasterOptions.request ⟨none, none, none, none, none, none, none⟩ 60 60) 60 * 60) ≤ (3 / 2 : ℝ) * (1 / 5) :=
  (C86_pitch slowXy ⟨none, none, none, none, none, none, none⟩ 60 60 (by norm_num) (by norm_num) (1 / 5) 20
    (by norm_num) (by norm_num) (.inr ⟨rfl, rfl⟩) (.inr ⟨rfl, rfl⟩) 20 20 (by norm_num [pictureSize])).1 (by norm_num) (by norm_num)

theorem vX_range (c : Xy) (r : Request) (n : ℕ) : -2 ^ 31 ≤ vX c r n ∧ vX c r n < 2 ^ 31 := by
  unfold vX
  generalize Draw.round _ = z
  unfold satI32
  split
  · norm_num
  · split
    · norm_num
    · norm_num
      omega

theorem satI32_le (z : ℤ) : satI32 z ≤ 2 ^ 31 := by
  unfold satI32
  split
  · norm_num
  · split
    · norm_num
    · norm_num
      omega

theorem vLimit_le (c : Xy) (o : Option ℝ) (i : Axis) : vLimit c o i ≤ 2 ^ 59 := by
  have h : vLimit c o i ≤ 2 ^ 31 := by
    unfold vLimit
    split <;> exact satI32_le _
  exact h.trans (by norm_num)

/-- Nothing to draw: the scanning speed does not matter. -/
theorem rows_blank {p : Params} {img : Image}
    (h : p.resY = 0 ∨ ∀ x y, x < img.width → y < img.height → 255 ≤ img.pixel x y) (n : ℕ) :
    ∀ (yn : ℕ) (s : Bool × Ctx), yn + n ≤ img.height → rows p img yn n s = some s := by
  induction n with
  | zero => intros; rfl
  | succ n ih =>
    intro yn s hn
    rw [rows]
    rcases he : findRowInterval (marked img yn) img.width with ⟨start, len⟩
    obtain ⟨-, -, f3⟩ := findRowInterval_spec _ _ _ _ he
    simp only
    rcases h with h | h
    · rw [h]
      simp only [lines, ite_self, Option.bind_eq_bind, Option.bind_some]
      exact ih yn.succ s (by omega)
    · have : len = 0 := f3.2 (fun x hx => by
        have := h x yn hx (by omega)
        simp [marked]
        omega)
      rw [this]
      simp only [lt_irrefl, if_false, Option.bind_eq_bind, Option.bind_some]
      exact ih yn.succ s (by omega)

theorem raster_blank {p : Params} {img : Image} {c c' : Ctx}
    (h : p.resY = 0 ∨ ∀ x y, x < img.width → y < img.height → 255 ≤ img.pixel x y)
    (hr : raster p img c = some c') : raster { p with vX := 0 } img c = some c' := by
  unfold raster at hr ⊢
  simp only at hr ⊢
  obtain ⟨_, e1, r1⟩ := Option.bind_eq_some_iff.1 hr
  rw [rows_blank h _ _ _ (by omega)] at r1
  have : checks { p with vX := 0 } img = some () := by
    unfold checks at e1 ⊢
    obtain ⟨a, e1, h1'⟩ := Option.bind_eq_some_iff.1 e1
    obtain ⟨a', e1', h2⟩ := Option.bind_eq_some_iff.1 h1'
    obtain ⟨b, e2, h3⟩ := Option.bind_eq_some_iff.1 h2
    simp only [e1, e1', e2, Option.bind_eq_bind, Option.bind_some]
    simp [mulU32, asU32]
  rw [this, Option.bind_eq_bind, Option.bind_some,
    rows_blank (p := { p with vX := 0 }) h _ _ _ (by omega)]
  exact r1

/-- What is asked of the configuration and the options: the limits are positive, the scale
of the x axis is positive (see C57_negative), the other one is not zero, the picture is less than `2^31` half steps wide and less than `2^62` half steps high, has less
than `2^32` lines per row, and the spot is less than `2^27` half steps high. -/
structure Fits (cfg : Xy) (o : RasterOptions) (img : Image) : Prop where
  a1 : ∀ i, 1 ≤ rasterALimit cfg o.aMax i
  v1 : ∀ i, 1 ≤ vLimit cfg o.vMax i
  scaleX : 0 < (cfg.stepper .x).stepsPerMillimeter
  scaleY : (cfg.stepper .y).stepsPerMillimeter ≠ 0
  spot : 0 < (o.request img.width img.height).spot
  high : 0 ≤ (o.request img.width img.height).height
  xfit : |(o.request img.width img.height).width * (cfg.stepper .x).stepsPerMillimeter| ≤ 2 ^ 31
  yfit : |(o.request img.width img.height).height * (cfg.stepper .y).stepsPerMillimeter| ≤ 2 ^ 62
  lines : (o.request img.width img.height).height / (img.height * (o.request img.width img.height).spot) + 1 ≤ 2 ^ 32
  small : |(cfg.stepper .y).stepsPerMillimeter| * (o.request img.width img.height).spot ≤ 2 ^ 27

theorem Fits.step {cfg : Xy} {o : RasterOptions} {img : Image} (F : Fits cfg o img) :
    |stepY cfg (o.request img.width img.height) img.height| ≤ 2 ^ 28 := by
  obtain ⟨-, -, -, -, h1, h2, -, -, h3, h4⟩ := F
  generalize o.request img.width img.height = r at *
  by_cases hz : resY r img.height * img.height = 0
  · unfold stepY
    rw [hz]
    have : Draw.round (r.height * (cfg.stepper .y).stepsPerMillimeter / ((0 : ℕ) : ℝ)) = 0 := by
      unfold Draw.round
      norm_num
    rw [this]
    norm_num [satI64]
  · have hy : 0 < img.height := Nat.pos_of_ne_zero (right_ne_zero_of_mul hz)
    have hr : 0 < resY r img.height := Nat.pos_of_ne_zero (left_ne_zero_of_mul hz)
    have hp := C71_pitch r img.height hy h1 h2 hr h3
    set z := r.height * (cfg.stepper .y).stepsPerMillimeter / ((resY r img.height * img.height : ℕ) : ℝ) with hzd
    have hd : (0 : ℝ) < resY r img.height * img.height := by positivity
    have habs : |z| ≤ 3 / 2 * 2 ^ 27 := by
      rw [hzd]
      push_cast
      rw [abs_div, abs_mul, abs_of_nonneg h2, abs_of_pos hd]
      have e : r.height * |(cfg.stepper .y).stepsPerMillimeter| / (resY r img.height * img.height) =
        |(cfg.stepper .y).stepsPerMillimeter| * (r.height / (resY r img.height * img.height)) := by ring
      rw [e]
      have := mul_le_mul_of_nonneg_left hp (abs_nonneg (cfg.stepper .y).stepsPerMillimeter)
      linarith
    have hn := round_near z
    have hR : |(Draw.round z : ℝ)| ≤ 2 ^ 28 := by
      have := abs_sub_abs_le_abs_sub (Draw.round z : ℝ) z
      norm_num at habs ⊢
      linarith
    have hR' : |Draw.round z| ≤ 2 ^ 28 := by exact_mod_cast hR
    unfold stepY
    rw [← hzd]
    unfold satI64
    rw [abs_le] at hR' ⊢
    norm_num at hR' ⊢
    omega

theorem near_mm {p t s e : ℝ} (hs : s ≠ 0) (h : |p - t * s| ≤ e) : |p / s - t| ≤ e / |s| := by
  have : p / s - t = (p - t * s) / s := by field_simp
  rw [this, abs_div]
  exact div_le_div_of_nonneg_right h (abs_nonneg s)

theorem cast_near {a b : ℤ} {n : ℤ} (h : |a - b| ≤ n) : |(a : ℝ) - b| ≤ n := by exact_mod_cast h

/-- A pixel edge in mm. -/
theorem edge_mm {v : ℤ} {res n x : ℕ} {p : ℤ} {W s e : ℝ} (hs : s ≠ 0)
    (hx : |(2 * v * (res * x) : ℝ) - part W x n * s| ≤ e) (h : |p - 2 * v * (res * x)| ≤ 1) :
    |(p : ℝ) / s - part W x n| ≤ (e + 1) / |s| := by
  apply near_mm hs
  have h2 := cast_near h
  push_cast at h2
  have := abs_sub_le (p : ℝ) (2 * v * (res * x)) (part W x n * s)
  linarith

/-- A line in mm. -/
theorem line_mm {d : ℤ} {res n k : ℕ} {p : ℤ} {H s e : ℝ} (hs : s ≠ 0)
    (hk : |(k * d : ℝ) - part H k (res * n) * s| ≤ e) (h : |p - k * d| ≤ 1) :
    |(p : ℝ) / s - part H k (res * n)| ≤ (e + 1) / |s| := by
  apply near_mm hs
  have h2 := cast_near h
  push_cast at h2
  have := abs_sub_le (p : ℝ) (k * d) (part H k (res * n) * s)
  linarith

/-- A position within a pixel in mm. -/
theorem inside_mm {v : ℤ} {res n x : ℕ} {p : ℤ} {W s e : ℝ} (hs : 0 < s)
    (hx : ∀ x ≤ n, |(2 * v * (res * x) : ℝ) - part W x n * s| ≤ e) (hxn : x < n)
    (h1 : 2 * v * (res * x) - 1 ≤ p) (h2 : p ≤ 2 * v * (res * (x + 1)) + 1) :
    part W x n - (e + 1) / |s| ≤ p / s ∧ p / s ≤ part W (x + 1) n + (e + 1) / |s| := by
  have e1 := abs_le.1 (edge_mm (p := 2 * v * (res * x) - 1) hs.ne' (hx x hxn.le) (by simp))
  have e2 := abs_le.1 (edge_mm (p := 2 * v * (res * (x + 1)) + 1) hs.ne' (hx (x + 1) hxn) (by push_cast; simp))
  have k1 := div_le_div_of_nonneg_right (Int.cast_le (R := ℝ).2 h1) hs.le
  have k2 := div_le_div_of_nonneg_right (Int.cast_le (R := ℝ).2 h2) hs.le
  constructor
  · linarith [e1.1]
  · linarith [e2.2]

set_option maxHeartbeats 1000000 in
/-- A scan with any parameters burns the image, if its pixels and lines are where they should be. -/
theorem burns_scan {p : Params} {img : Image} {aMax vMax : Axis → ℤ} {c' : Ctx} {sx sy W H ex ey : ℝ}
    (a1 : ∀ i, 1 ≤ aMax i) (v1 : ∀ i, 1 ≤ vMax i) (v2 : ∀ i, vMax i ≤ 2 ^ 59)
    (hsx : 0 < sx) (hsy : sy ≠ 0) (hv : -2 ^ 31 ≤ p.vX ∧ p.vX < 2 ^ 31) (res : 0 < p.resX)
    (hex : ∀ x ≤ img.width, |(2 * p.vX * (p.resX * x) : ℝ) - part W x img.width * sx| ≤ ex)
    (hey : ∀ y < img.height, ∀ rep < p.resY,
      |((y * p.resY + rep : ℕ) * p.stepY : ℝ) - part H (y * p.resY + rep) (p.resY * img.height) * sy| ≤ ey)
    (hstep : |p.stepY| ≤ 2 ^ 28) (hpix : ∀ x y, img.pixel x y ≤ 255)
    (hr : raster p img (Ctx.new aMax vMax) = some c') :
    Burns sx sy W H ((ex + 1) / |sx|) ((ey + 1) / |sy|) p.weight p.resY img c'.events := by
  have vpos : 0 ≤ p.vX := by
    by_contra hc
    rw [C57_negative p img _ hv.1 (not_le.1 hc)] at hr
    exact absurd hr (by simp)
  by_cases hb : p.resY = 0 ∨ ∀ x y, x < img.width → y < img.height → 255 ≤ img.pixel x y
  · have hr' := raster_blank (p := p) hb hr
    have z0 : (-2 ^ 31 : ℤ) ≤ 0 := by norm_num
    have z1 : (0 : ℤ) < 2 ^ 31 := by norm_num
    have off : ∀ w0 τ, weightAt w0 c'.events τ = 0 := by
      intro w0 τ
      by_contra hw
      obtain ⟨x, y, rep, q, hx, hy, hrep, -, k, -⟩ := C57_only { p with vX := 0 } img aMax vMax c' a1 v1 v2 res hstep
        z0 z1 (zero_le_one.trans (v1 .x)) hr' w0 τ hw
      rcases hb with hb | hb
      · simp only at hrep
        omega
      · have e : img.pixel x y = 255 := le_antisymm (hpix x y) (hb x y hx hy)
        rw [e] at k
        exact hw (by simpa using k)
    obtain ⟨-, T, E, -, -, -, -, hT, -, -, stop⟩ := C57_lines { p with vX := 0 } img aMax vMax c' a1 v1 v2 res hstep
        z0 z1 (zero_le_one.trans (v1 .x)) hr'
    refine ⟨fun w0 τ h => absurd (off w0 τ) h, fun x y line hx hy hl hp => ?_,
      ⟨E, fun τ h => ⟨fun w0 => off w0 τ, fun i => stop i τ h⟩⟩⟩
    rcases hb with hb | hb
    · omega
    · have := hb x y hx hy
      omega
  · push Not at hb
    obtain ⟨hy0, x0, y0, hx0, hy0', hp0⟩ := hb
    have vxm : p.vX ≤ vMax .x := by
      by_contra hc
      rw [C73_too_fast p img _ _ (not_le.1 hc) (Nat.pos_of_ne_zero hy0) x0 y0 hx0 hy0' hp0] at hr
      exact absurd hr (by simp)
    have line : ∀ {y rep : ℕ} {q : ℤ}, y < img.height → rep < p.resY → |q - (y * p.resY + rep) * p.stepY| ≤ 1 →
        |(q : ℝ) / sy - part H (y * p.resY + rep) (p.resY * img.height)| ≤ (ey + 1) / |sy| := by
      intro y rep q hy hrep h
      exact line_mm hsy (hey y hy rep hrep) (by push_cast; exact h)
    refine ⟨fun w0 τ hw => ?_, fun x y rep hx hy hl hp => ?_, ?_⟩
    · obtain ⟨x, y, rep, q, hx, hy, hrep, hq, k1, k2, k3⟩ := C57_only _ img aMax vMax c' a1 v1 v2 res hstep
        hv.1 hv.2 vxm hr w0 τ hw
      have hq0 : (q : ℤ) + 1 ≤ p.resX := by exact_mod_cast hq
      have m0 : 0 ≤ 2 * p.vX * q := by positivity
      have m1 : 0 ≤ 2 * p.vX * (p.resX - (q + 1)) := by
        refine mul_nonneg (by positivity) (by linarith)
      have hσ' : ∀ σ, σ = τ ∨ σ = τ + 1 →
          2 * p.vX * (p.resX * x) - 1 ≤ posAt .x c'.events σ ∧
          posAt .x c'.events σ ≤ 2 * p.vX * (p.resX * (x + 1)) + 1 := by
        rintro σ (rfl | rfl) <;> rcases k3 with ⟨k3, k4⟩ | ⟨k3, k4⟩ <;> rw [abs_le] at k3 k4 <;>
          constructor <;> linarith [k3.1, k3.2, k4.1, k4.2]
      refine ⟨x, y, rep, hx, hy, hrep, k1, fun σ hσ => ?_⟩
      obtain ⟨j1, j2⟩ := inside_mm hsx hex hx (hσ' σ hσ).1 (hσ' σ hσ).2
      exact ⟨j1, j2, line hy hrep (k2 σ hσ)⟩
    · obtain ⟨u, ltr, h⟩ := C57_all _ img aMax vMax c' a1 v1 v2 res hstep hv.1 hv.2 vxm hr x y rep hx hy hl hp
      refine ⟨u, u + p.resX, by omega, fun w0 τ h1 h2 => ?_, fun τ h1 h2 => ?_, ltr, ?_, ?_⟩
      · have := (h (τ - u) (by omega)).1 w0 (by omega)
        rw [Nat.add_sub_cancel' h1] at this
        exact this
      · have := (h (τ - u) (by omega)).2.1
        rw [Nat.add_sub_cancel' h1] at this
        exact line hy hl this
      · have := (h 0 (by omega)).2.2
        refine edge_mm hsx.ne' (hex _ (by split <;> omega)) ?_
        rw [Nat.add_zero] at this
        cases ltr <;> simpa using this
      · have := (h p.resX le_rfl).2.2
        refine edge_mm hsx.ne' (hex _ (by split <;> omega)) ?_
        cases ltr
        · simp only [Bool.false_eq_true, if_false] at this ⊢
          rw [mul_add, mul_one, add_sub_cancel_right] at this
          exact this
        · simp only [if_true] at this ⊢
          push_cast
          rw [mul_add (p.resX : ℤ), mul_one]
          exact this
    · obtain ⟨-, T, E, -, -, -, -, hT, off, -, stop⟩ := C57_lines _ img aMax vMax c' a1 v1 v2 res hstep
        hv.1 hv.2 vxm hr
      exact ⟨E, fun τ h => ⟨fun w0 => off w0 τ (by omega), fun i => stop i τ h⟩⟩

theorem burns_of {cfg : Xy} {r : Request} {img : Image} {aMax vMax : Axis → ℤ} {c' : Ctx}
    (a1 : ∀ i, 1 ≤ aMax i) (v1 : ∀ i, 1 ≤ vMax i) (v2 : ∀ i, vMax i ≤ 2 ^ 59)
    (sx : 0 < (cfg.stepper .x).stepsPerMillimeter) (sy : (cfg.stepper .y).stepsPerMillimeter ≠ 0)
    (xfit : |r.width * (cfg.stepper .x).stepsPerMillimeter| ≤ 2 ^ 31)
    (yfit : |r.height * (cfg.stepper .y).stepsPerMillimeter| ≤ 2 ^ 62)
    (hstep : |stepY cfg r img.height| ≤ 2 ^ 28) (hpix : ∀ x y, img.pixel x y ≤ 255)
    (hr : raster (params cfg r img.width img.height) img (Ctx.new aMax vMax) = some c') :
    Burns (cfg.stepper .x).stepsPerMillimeter (cfg.stepper .y).stepsPerMillimeter r.width r.height
      ((resX cfg r img.width * img.width + 1) / |(cfg.stepper .x).stepsPerMillimeter|)
      ((resY r img.height * img.height / 2 + 1) / |(cfg.stepper .y).stepsPerMillimeter|)
      r.weight (resY r img.height) img c'.events := by
  refine burns_scan (p := params cfg r img.width img.height) a1 v1 v2 sx sy (vX_range cfg r img.width)
    (lt_of_lt_of_le zero_lt_one (le_max_left _ _)) (fun x hx => ?_) (fun y hy rep hrep => ?_) hstep hpix hr
  · simp only [params]
    rcases Nat.eq_zero_or_pos img.width with hn | hn
    · obtain rfl : x = 0 := by omega
      simp [part, hn]
    have h1 := C71_width cfg r img.width x hn xfit
    have h3 : (resX cfg r img.width : ℝ) * x ≤ resX cfg r img.width * img.width := by
      have : (x : ℝ) ≤ img.width := by exact_mod_cast hx
      gcongr
    have e : part r.width x img.width * (cfg.stepper .x).stepsPerMillimeter =
        r.width * (cfg.stepper .x).stepsPerMillimeter * (x / img.width) := by
      unfold part
      ring
    rw [e]
    linarith
  · simp only [params] at hrep ⊢
    have h1 := C71_height cfg r img.height (y * resY r img.height + rep) (by omega) (by omega) yfit
    have hk : y * resY r img.height + rep ≤ resY r img.height * img.height := by
      have : (y + 1) * resY r img.height ≤ img.height * resY r img.height := Nat.mul_le_mul_right _ hy
      rw [Nat.add_mul, Nat.one_mul] at this
      rw [Nat.mul_comm (resY r img.height)]
      omega
    have hk' : ((y * resY r img.height + rep : ℕ) : ℝ) ≤ resY r img.height * img.height := by exact_mod_cast hk
    have e : part r.height (y * resY r img.height + rep) (resY r img.height * img.height) * (cfg.stepper .y).stepsPerMillimeter =
        r.height * (cfg.stepper .y).stepsPerMillimeter *
          ((y * resY r img.height + rep : ℕ) / (resY r img.height * img.height)) := by
      unfold part
      push_cast
      ring
    rw [e, mul_comm ((y * resY r img.height + rep : ℕ) : ℝ)]
    linarith

/-- C86: the events of `image_raster` burn the image in the requested size; the tolerances are one
half step for each tick of a line and half a half step for each line, and one more. -/
theorem C86_burns (cfg : Xy) (o : RasterOptions) (img : Image) (c' : Ctx) (F : Fits cfg o img)
    (hpix : ∀ x y, img.pixel x y ≤ 255)
    (hr : raster (params cfg (o.request img.width img.height) img.width img.height) img
      (Ctx.new (rasterALimit cfg o.aMax) (vLimit cfg o.vMax)) = some c') :
    Burns (cfg.stepper .x).stepsPerMillimeter (cfg.stepper .y).stepsPerMillimeter
      (o.request img.width img.height).width (o.request img.width img.height).height
      ((resX cfg (o.request img.width img.height) img.width * img.width + 1) /
        |(cfg.stepper .x).stepsPerMillimeter|)
      ((resY (o.request img.width img.height) img.height * img.height / 2 + 1) /
        |(cfg.stepper .y).stepsPerMillimeter|)
      (weightOf (o.intensity.getD 5)) (resY (o.request img.width img.height) img.height) img c'.events :=
  burns_of F.a1 F.v1 (vLimit_le _ _) F.scaleX F.scaleY F.xfit F.yfit F.step hpix hr

/-- C86: the program ends with a message exactly when the intensity is not a percentage, and when it
ends normally the controller has accepted the events, in order, at the time it reported plus 128
ticks. -/
theorem C86_main (cfg : Xy) (o : RasterOptions) (img : Image) (port : Port) :
    (rasterMain cfg o img port = some none ↔ o.intensity.getD 5 < 0 ∨ o.intensity.getD 5 > 100) ∧
    ∀ port', rasterMain cfg o img port = some (some port') →
      ∃ (c' : Ctx) (r0 : List Char) (t0 : ℤ) (rs : List Round),
        raster (params cfg (o.request img.width img.height) img.width img.height) img
          (Ctx.new (rasterALimit cfg o.aMax) (vLimit cfg o.vMax)) = some c' ∧
        readInt r0 = some t0 ∧
        (accepted rs).map decodeLine = (absolute (t0 + 128) c'.events).map some ∧
        port'.log = port.log ++ ((['T'], r0) :: rs).flatMap Round.acts := by
  unfold rasterMain
  simp only
  by_cases hn : o.intensity.getD 5 < 0 ∨ o.intensity.getD 5 > 100
  · rw [if_pos hn]
    exact ⟨by simp [hn], by simp⟩
  · rw [if_neg hn]
    refine ⟨⟨fun h => ?_, fun h => absurd h hn⟩, fun port' h => ?_⟩
    · obtain ⟨c, -, h⟩ := Option.bind_eq_some_iff.1 h
      obtain ⟨-, -, h⟩ := Option.bind_eq_some_iff.1 h
      obtain ⟨⟨r, q⟩, -, h⟩ := Option.bind_eq_some_iff.1 h
      cases r <;> simp at h
    · obtain ⟨c, h1, h⟩ := Option.bind_eq_some_iff.1 h
      obtain ⟨-, -, h⟩ := Option.bind_eq_some_iff.1 h
      obtain ⟨⟨r, q⟩, h2, h⟩ := Option.bind_eq_some_iff.1 h
      cases r with
      | error _ => simp at h
      | ok _ =>
        simp at h
        cases h
        obtain ⟨r0, t0, rs, k1, k2, k3⟩ := C35_accepted _ _ _ h2
        exact ⟨c, r0, t0, rs, h1, k1, k2, k3⟩

/-- C86: when the events can be computed and the controller reports its time and accepts every
event, after any number of queue-full replies, the program ends normally. -/
theorem C86_returns (cfg : Xy) (o : RasterOptions) (img : Image) (port : Port) (c' : Ctx)
    (htps : cfg.ticksPerSecond ≠ 0) (hi : 0 ≤ o.intensity.getD 5 ∧ o.intensity.getD 5 ≤ 100)
    (hc : raster (params cfg (o.request img.width img.height) img.width img.height) img
      (Ctx.new (rasterALimit cfg o.aMax) (vLimit cfg o.vMax)) = some c')
    (r0 : List Char) (t0 : ℤ) (full : List ℕ) (hf : full.length = c'.events.length) (m : ℕ)
    (h0 : '\n' ∉ r0) (ht : readInt r0 = some t0) (hr : i64Min ≤ t0 ∧ t0 ≤ i64Max)
    (h : Delivers port.input port.reads (r0 ++ '\n' :: full.flatMap answers) m)
    (hw : ∀ n, port.writeOk n = true) :
    ∃ port', rasterMain cfg o img port = some (some port') := by
  obtain ⟨p', h1, -⟩ := C35_returns port r0 t0 (c'.events.zip full) m h0 ht hr (by
    rw [← List.flatMap_map Prod.snd, List.map_snd_zip (by omega)]
    exact h) hw
  rw [List.map_fst_zip (by omega)] at h1
  refine ⟨p', ?_⟩
  unfold rasterMain
  simp only
  rw [if_neg (by omega)]
  simp only [hc, h1, cassert, htps, ne_eq, not_false_eq_true, if_true, Option.bind_eq_bind, Option.bind_some]

/-- The options for a picture of 48 × 20 mm with a spot of 5 mm, at 5 mm/s. -/
noncomputable def bigSpot : RasterOptions := ⟨none, none, some 5, some 100, some 48, some 20, some 5⟩

theorem bigSpot_request (x y : ℕ) : bigSpot.request x y = ⟨48, 20, 5, 5, 254⟩ := by
  simp only [RasterOptions.request, bigSpot, pictureSize, Option.getD_some, weightOf]
  rfl

theorem bigSpot_params : params slowXy ⟨48, 20, 5, 5, 254⟩ 4 2 = ⟨2, 3, 2, 5, 254⟩ := by
  have h1 : resX slowXy ⟨48, 20, 5, 5, 254⟩ 4 = 2 := by
    unfold resX Draw.round slowXy satU32
    norm_num
    have : ⌊(12 / 5 + 1 / 2 : ℝ)⌋ = 2 := by norm_num
    norm_num at this
    simp
  have h2 : resY ⟨48, 20, 5, 5, 254⟩ 2 = 2 := by
    unfold resY Draw.round satU32
    norm_num
    rfl
  unfold params vX stepY
  rw [h1, h2]
  have e1 : Draw.round (48 * (slowXy.stepper .x).stepsPerMillimeter / (2 * ((4 * 2 : ℕ) : ℝ))) = 3 := by
    unfold Draw.round slowXy
    norm_num
  have e2 : Draw.round (20 * (slowXy.stepper .y).stepsPerMillimeter / ((2 * 2 : ℕ) : ℝ)) = 5 := by
    unfold Draw.round slowXy
    norm_num
  simp only [e1, e2]
  rfl

/-- The whole program for a picture of two rows, with a controller that accepts everything. -/
example : Fits slowXy bigSpot samplePicture ∧ ∃ port port', rasterMain slowXy bigSpot samplePicture port =
    some (some port') := by
  have ra : rasterALimit slowXy none = fun _ => 10 := by
    funext i
    have : Draw.round (|rasterAScale slowXy i| * (slowXy.stepper i).maxAcceleration) = 10 := by
      unfold Draw.round rasterAScale vScale slowXy
      norm_num
    simp only [rasterALimit, this]
    rfl
  have rv : vLimit slowXy none = fun _ => 100 := by
    funext i
    have : Draw.round (|vScale slowXy i| * (slowXy.stepper i).maxVelocity) = 100 := by
      unfold Draw.round vScale slowXy
      norm_num
    simp only [vLimit, this]
    rfl
  refine ⟨⟨fun i => ?_, fun i => ?_, ?_, ?_, ?_, ?_, ?_, ?_, ?_, ?_⟩, ?_⟩
  · simp [bigSpot, ra]
  · simp [bigSpot, rv]
  · norm_num [slowXy]
  · norm_num [slowXy]
  · norm_num [bigSpot_request]
  · norm_num [bigSpot_request]
  · norm_num [bigSpot_request, slowXy]
  · norm_num [bigSpot_request, slowXy]
  · norm_num [bigSpot_request, samplePicture]
  · norm_num [bigSpot_request, slowXy]
  · obtain ⟨c', h⟩ := C57_returns ⟨2, 3, 2, 5, 254⟩ samplePicture (fun _ => 10) (fun _ => 100)
      ⟨by simp, by simp, by simp, by norm_num, by norm_num⟩ (by norm_num [samplePicture])
      (by norm_num [samplePicture]) (by norm_num [samplePicture]) (by norm_num) (by norm_num [samplePicture])
      (by norm_num) (by norm_num) (by norm_num) (by norm_num [samplePicture])
    refine ⟨quickPort (String.ofList ("17\n".toList ++ (List.replicate c'.events.length 0).flatMap answers)), ?_⟩
    refine C86_returns slowXy bigSpot samplePicture _ c' (by simp [slowXy]) (by simp [bigSpot]) ?_ ['1', '7'] 17
      (List.replicate c'.events.length 0) (by simp) _ (by decide) (by decide)
      (by decide) (delivers_quick _ _ 0 ?_) (fun _ => rfl)
    · rw [bigSpot_request]
      simp only [bigSpot, ra, rv]
      rw [show samplePicture.width = 4 from rfl, show samplePicture.height = 2 from rfl, bigSpot_params]
      exact h
    · intro i hi
      simp only [quickPort, String.toList_ofList, Nat.zero_add]
      have : "17\n".toList ++ (List.replicate c'.events.length 0).flatMap answers =
          ['1', '7'] ++ '\n' :: (List.replicate c'.events.length 0).flatMap answers := rfl
      rw [this, List.getElem?_eq_getElem hi]

end StepperPaths.Props
