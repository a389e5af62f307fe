import Verif.Proof.StartSpeed
import Verif.Props.Home
import Mathlib.Tactic.Linarith

/-!
C125: with a draw speed that is below the limits, the speed limits are kept in both directions, whatever is drawn.

By C122 and C123 the only way to be too fast is a stroke that begins too fast to the left or down.  The speed at the beginning of
a stroke is the draw speed times a computed direction.  Computed directions are at most a quarter too long.  (That much only for
vectors whose squares are no longer normal numbers.)
-/

namespace StepperPaths.Props
open Context Control Spec Proof IntegerCurve Rounded Config Raster StepperPaths.Cli
open Coords Curves
open Draw (Seg coord satI32)
open Special (Num)
open Svg (XmlEvent)

/-- The speed limits are kept all the time, in both directions. -/
def KeepsSpeeds (vMax : Axis → ℤ) (es : List Event) : Prop := ∀ i τ, |velAt i es τ| ≤ vMax i

/-- The curves are computed as by the program; about the length of Bezier curves and about where they are at which length nothing is
required. -/
structure Computes (sn cs : ℝ → ℝ) (e : Rounded.Env) : Prop where
  trig : FloatTrig sn cs
  arc : ∀ pos rx ry a b rot, e.other pos (.arc rx ry a b rot) = Rounded.arcInfo double sn cs pos rx ry a b
  bezier : ∀ pos p c1 c2 info next, e.other pos (.curveTo p c1 c2) = some (info, next) →
    ∃ len param, info = Rounded.bezierInfoF double (Rounded.bezierOfF double pos p c1 c2) len param

/-- All directions that are computed are at most a quarter too long. -/
theorem C125_directions (sn cs : ℝ → ℝ) (e : Rounded.Env) (E : Computes sn cs e) (pos : Vec) (seg : Seg) (info : Curve) (next : Vec)
    (h : Rounded.segInfo double e pos seg = some (info, next)) (l : ℝ) (i : Axis) : |coord (info.value l).2 i| ≤ 5 / 4 := by
  cases seg with
  | goTo p => cases h
  | lineTo p => cases h; exact line_any C90_double double_nonneg _ l i
  | closeTo p => cases h; exact line_any C90_double double_nonneg _ l i
  | curveTo p c1 c2 =>
    obtain ⟨len, param, rfl⟩ := E.bezier pos p c1 c2 info next h
    exact bezier_any C90_double double_nonneg _ _ _ l i
  | arc rx ry a b rot =>
    rw [show Rounded.segInfo double e pos (.arc rx ry a b rot) = e.other pos (.arc rx ry a b rot) from rfl, E.arc] at h
    unfold Rounded.arcInfo at h
    split at h
    · cases h
    · cases h
      refine (circle_any E.trig _ l i).trans ?_
      norm_num

/-- Whatever the directions are, if they are at most `B`. -/
theorem keeps_speeds {e : Rounded.Env} {aMax vMax : Axis → ℤ} (ha : ∀ i, 0 ≤ aMax i) (hv : ∀ i, vMax i < 2 ^ 31) {w : ℤ} {path : List Seg} {v : ℝ}
    {n : ℕ} {B : ℝ} (hB : B ≤ 2) (hs : ∀ i, |e.stepScale i| ≤ 2 ^ 390) (hv0 : |v| ≤ 2 ^ 390) {Pt : Vec → Prop}
    (here : ∀ c : Ctx, Pt (Rounded.init double e c).current) (ends : ∀ p, Seg.goTo p ∈ path ∨ Seg.closeTo p ∈ path → Pt p)
    (seg : ∀ {pos seg info next}, Pt pos → seg ∈ path → Rounded.segInfo double e pos seg = some (info, next) →
      Pt next ∧ ∀ l i, |coord (info.value l).2 i| ≤ B) (B0 : 0 ≤ B)
    (slow : ∀ i, Draw.round (|v| * |e.stepScale i| / 2 * (B * (1 + 2⁻¹ ^ 40)) + 2⁻¹ ^ 100) ≤ vMax i ∨ vMax i = 2147483647) {c : Ctx}
    (h : Special.svgEvents double e aMax vMax w path (.fin v) n = some c) : KeepsSpeeds vMax c.events := by
  have L := Limits.of_svg ha hv h
  have A : Aims double e (.fin v) path Pt (fun d => ∀ i, |coord d i| ≤ B) (fun i v => -vMax i ≤ v) := by
    refine ⟨here, fun p hp => ends p (.inl hp), fun p hp => ends p (.inr hp), fun h1 h2 h3 => seg h1 h2 h3, fun i => ?_, fun {d i s} hd h => ?_⟩
    · cases i <;> simpa [coord] using B0
    · obtain ⟨k1, k2⟩ := start_speed C90_double (hs i) hv0 (hd i) hB h
      rcases slow i with k | k
      · omega
      · omega
  have key := (Inside.begins L).svg A (fun i => by have := L.one i; omega) (Inside.new L w) h
  obtain ⟨-, rest, -⟩ := C121_svg_events double e aMax vMax w path (.fin v) n c h
  have dur := duration_of_sync key.sync
  intro i τ
  by_cases ht : τ ≤ (c.channels i).ticks
  · exact key.speeds i τ ht
  · rw [((rest τ (by have := dur i; omega)).2 i).2.1]
    have := L.one i
    simp
    omega

/-- C125: whatever `svg_path` draws, if the draw speed times 5/4, in half steps per tick and rounded, is not above the limit of any
axis (or the limit is the largest number), then in a run that gets as far as having events no axis is ever faster than its limit, in
neither direction. -/
theorem C125_svg_events (sn cs : ℝ → ℝ) (e : Rounded.Env) (E : Computes sn cs e) (hs : ∀ i, |e.stepScale i| ≤ 2 ^ 390) (aMax vMax : Axis → ℤ)
    (ha : ∀ i, 0 ≤ aMax i) (hv : ∀ i, vMax i < 2 ^ 31) (w : ℤ) (path : List Seg) (v : ℝ) (hv0 : |v| ≤ 2 ^ 390) (n : ℕ)
    (slow : ∀ i, Draw.round (|v| * |e.stepScale i| / 2 * (5 / 4 * (1 + 2⁻¹ ^ 40)) + 2⁻¹ ^ 100) ≤ vMax i ∨ vMax i = 2147483647) (c : Ctx)
    (h : Special.svgEvents double e aMax vMax w path (.fin v) n = some c) : KeepsSpeeds vMax c.events :=
  keeps_speeds ha hv (by norm_num) hs hv0 (Pt := fun _ => True) (fun _ => trivial) (fun _ _ => trivial)
    (fun {pos seg info next} _ _ h => ⟨trivial, fun l i => C125_directions sn cs e E pos seg info next h l i⟩) (by norm_num) slow h

/-- A path whose points are multiples of `2^-452`, without curves. -/
def OnGrid (path : List Seg) : Prop := ∀ seg ∈ path, ∃ p : Vec, (seg = .goTo p ∨ seg = .lineTo p ∨ seg = .closeTo p) ∧ ∀ i, Grid (coord p i)

/-- Every `f64` that is not less than `2^-400` is on this grid. -/
theorem C125_grid (x : ℝ) (hx : double x = x) (h : (2⁻¹ : ℝ) ^ 400 ≤ |x|) : Grid x := hx ▸ grid_double h

/-- C125: for such paths the draw speed itself (but for rounding) counts. -/
theorem C125_lines_events (e : Rounded.Env) (hs : ∀ i, |e.stepScale i| ≤ 2 ^ 390) (aMax vMax : Axis → ℤ)
    (ha : ∀ i, 0 ≤ aMax i) (hv : ∀ i, vMax i < 2 ^ 31) (w : ℤ) (path : List Seg) (G : OnGrid path) (v : ℝ) (hv0 : |v| ≤ 2 ^ 390) (n : ℕ)
    (slow : ∀ i, Draw.round (|v| * |e.stepScale i| / 2 * ((1 + 2⁻¹ ^ 40) * (1 + 2⁻¹ ^ 40)) + 2⁻¹ ^ 100) ≤ vMax i ∨ vMax i = 2147483647) (c : Ctx)
    (h : Special.svgEvents double e aMax vMax w path (.fin v) n = some c) : KeepsSpeeds vMax c.events := by
  refine keeps_speeds ha hv (by norm_num) hs hv0 (Pt := fun p => ∀ i, Grid (coord p i)) (fun c i => ?_) (fun p hp => ?_)
    (fun {pos seg info next} hp hm h => ?_) (by norm_num) slow h
  · cases i
    · exact grid_here C90_double hs _ .x
    · exact grid_here C90_double hs _ .y
  · rcases hp with hp | hp
    all_goals
      obtain ⟨q, hq, g⟩ := G _ hp
      rcases hq with hq | hq | hq <;> cases hq
      exact g
  · obtain ⟨q, hq, g⟩ := G _ hm
    rcases hq with rfl | rfl | rfl
    · cases h
    · cases h; exact ⟨g, fun l i => line_dir C90_double g hp l i⟩
    · cases h; exact ⟨g, fun l i => line_dir C90_double g hp l i⟩

/-! ### With a device -/

/-- The draw speed in half steps per tick, with what the rounding adds, against the limit of an axis. -/
theorem slow_enough {k S M L X : ℝ} (k0 : 0 ≤ k) (hX : X ≤ k * S * (1 + 2⁻¹ ^ 39) + 2⁻¹ ^ 99)
    (hM : S ≤ 999999 / 1000000 * M) (hL : k * M * (1 - 2⁻¹ ^ 51) - 2⁻¹ ^ 99 ≤ L) (hU : L ≤ k * M * (1 + 2⁻¹ ^ 51) + 2⁻¹ ^ 99)
    (h : 1 ≤ satI32 (Draw.round L)) : Draw.round X ≤ satI32 (Draw.round L) ∨ satI32 (Draw.round L) = 2147483647 := by
  have hr : 1 ≤ Draw.round L := by
    unfold Draw.satI32 at h
    split_ifs at h <;> omega
  have h2 : 1 / 2 ≤ L := by
    unfold Draw.round at hr
    split_ifs at hr with h0
    · have := Int.le_floor.1 hr
      push_cast at this
      linarith
    · have : (0 : ℤ) ≤ ⌊-L + 1 / 2⌋ := Int.floor_nonneg.2 (by push Not at h0; linarith)
      omega
  have key : X ≤ L := by
    have hk : k * S ≤ 999999 / 1000000 * (k * M) := by
      have := mul_le_mul_of_nonneg_left hM k0
      linarith
    generalize k * M = m at *
    generalize k * S = t at *
    norm_num at *
    linarith
  have := round_mono key
  unfold Draw.satI32
  split_ifs <;> omega

/-- The limit that `svg_path` computes from its configuration against the draw speed. -/
theorem slow_config {cfg : Xy} {i : Axis} (hT : cfg.ticksPerSecond ≠ 0) (hs : |(cfg.stepper i).stepsPerMillimeter| ≤ 2 ^ 390)
    (hM : |(cfg.stepper i).maxVelocity| ≤ 2 ^ 390) {s B : ℝ} (B0 : 0 ≤ B) (hB : B ≤ 2)
    (slow : B * |s| ≤ 999999 / 1000000 * (cfg.stepper i).maxVelocity) (h : 1 ≤ Special.vLimit double cfg none i) :
    Draw.round (|double (s / cfg.ticksPerSecond)| * |(cfg.stepper i).stepsPerMillimeter| / 2 * (B * (1 + 2⁻¹ ^ 40)) + 2⁻¹ ^ 100)
      ≤ Special.vLimit double cfg none i ∨ Special.vLimit double cfg none i = 2147483647 := by
  have hT' : (0 : ℝ) < cfg.ticksPerSecond := by exact_mod_cast Nat.pos_of_ne_zero hT
  have hM0 : 0 ≤ (cfg.stepper i).maxVelocity := by nlinarith [mul_nonneg B0 (abs_nonneg s)]
  rw [abs_of_nonneg hM0] at hM
  have e : Special.vLimit double cfg none i =
      satI32 (Draw.round (double (|double ((cfg.stepper i).stepsPerMillimeter / (2 * cfg.ticksPerSecond))| * (cfg.stepper i).maxVelocity))) := by
    simp only [Special.vLimit, Special.vScale, Num.div, if_neg (show (2 * (cfg.ticksPerSecond : ℝ)) ≠ 0 by positivity), Num.abs, Num.mul,
      Special.round_asI32]
  rw [e] at h ⊢
  clear e
  generalize (cfg.stepper i).stepsPerMillimeter = q at *
  generalize (cfg.stepper i).maxVelocity = M at *
  generalize (cfg.ticksPerSecond : ℝ) = T at *
  have η0 := eta_pos
  -- what the smallest numbers add
  have small : ∀ x : ℝ, 0 ≤ x → x ≤ 2 ^ 390 → eta * x ≤ 2⁻¹ ^ 102 := by
    intro x x0 hx
    have e : eta = 2⁻¹ ^ 685 * 2⁻¹ ^ 390 := eta_eq 390 (by norm_num)
    have e2 : (2⁻¹ : ℝ) ^ 390 * 2 ^ 390 = 1 := by rw [← mul_pow]; norm_num
    have p : (0 : ℝ) < 2⁻¹ ^ 390 := by positivity
    calc eta * x = 2⁻¹ ^ 685 * (2⁻¹ ^ 390 * x) := by rw [e]; ring
      _ ≤ 2⁻¹ ^ 685 * (2⁻¹ ^ 390 * 2 ^ 390) := by gcongr
      _ = 2⁻¹ ^ 685 := by rw [e2, mul_one]
      _ ≤ 2⁻¹ ^ 102 := pow_le_pow_of_le_one (by norm_num) (by norm_num) (by norm_num)
  have sq := small _ (abs_nonneg q) hs
  have sM := small _ hM0 hM
  have s1 := eta_le 102 (by norm_num)
  clear small hs hM
  set k := |q| / (2 * T) with hk
  have k0 : 0 ≤ k := by positivity
  refine slow_enough (k := k) (S := B * |s|) (M := M) k0 ?_ slow ?_ ?_ h
  · have a := fl_high C90_double (s / T)
    rw [abs_div, abs_of_pos hT'] at a
    have b : |double (s / T)| * |q| / 2 ≤ k * |s| * (1 + 2⁻¹ ^ 53) + 2⁻¹ ^ 103 := by
      calc |double (s / T)| * |q| / 2 ≤ (|s| / T * (1 + 2⁻¹ ^ 53) + eta) * |q| / 2 := by gcongr
        _ = k * |s| * (1 + 2⁻¹ ^ 53) + eta * |q| / 2 := by rw [hk]; field_simp
        _ ≤ _ := by
          generalize k * |s| = z at *
          generalize eta * |q| = y at *
          norm_num at sq ⊢
          linarith
    have c : |double (s / T)| * |q| / 2 * (B * (1 + 2⁻¹ ^ 40)) ≤ (k * |s| * (1 + 2⁻¹ ^ 53) + 2⁻¹ ^ 103) * (B * (1 + 2⁻¹ ^ 40)) := by
      gcongr
    have z0 : 0 ≤ k * |s| * B := by positivity
    have : (k * |s| * (1 + 2⁻¹ ^ 53) + 2⁻¹ ^ 103) * (B * (1 + 2⁻¹ ^ 40)) ≤ k * (B * |s|) * (1 + 2⁻¹ ^ 39) + 2⁻¹ ^ 101 := by
      rw [show (k * |s| * (1 + 2⁻¹ ^ 53) + 2⁻¹ ^ 103) * (B * (1 + 2⁻¹ ^ 40)) =
        k * |s| * B * ((1 + 2⁻¹ ^ 53) * (1 + 2⁻¹ ^ 40)) + B * (2⁻¹ ^ 103 * (1 + 2⁻¹ ^ 40)) by ring,
        show k * (B * |s|) = k * |s| * B by ring]
      generalize k * |s| * B = z at *
      norm_num
      linarith
    generalize |double (s / T)| * |q| / 2 * (B * (1 + 2⁻¹ ^ 40)) = x at *
    norm_num at *
    linarith
  · have a := fl_away C90_double (q / (2 * T))
    rw [abs_div, abs_of_pos (show 0 < 2 * T by positivity), ← hk] at a
    have b := fl_low C90_double (mul_nonneg (abs_nonneg (double (q / (2 * T)))) hM0)
    have c := mul_le_mul_of_nonneg_right a hM0
    have z0 : 0 ≤ k * M := by positivity
    rw [show (k * (1 - 2⁻¹ ^ 53) - eta) * M = k * M * (1 - 2⁻¹ ^ 53) - eta * M by ring] at c
    generalize |double (q / (2 * T))| * M = x at *
    generalize eta * M = y at *
    generalize k * M = z at *
    generalize double x = d at *
    generalize eta = η at *
    clear sq h hk
    norm_num at *
    linarith
  · have a := fl_high C90_double (q / (2 * T))
    rw [abs_div, abs_of_pos (show 0 < 2 * T by positivity), ← hk] at a
    have b := (le_abs_self _).trans (fl_high C90_double (|double (q / (2 * T))| * M))
    have c := mul_le_mul_of_nonneg_right a hM0
    have z0 : 0 ≤ k * M := by positivity
    rw [abs_of_nonneg (mul_nonneg (abs_nonneg _) hM0)] at b
    rw [show (k * (1 + 2⁻¹ ^ 53) + eta) * M = k * M * (1 + 2⁻¹ ^ 53) + eta * M by ring] at c
    generalize |double (q / (2 * T))| * M = x at *
    generalize eta * M = y at *
    generalize k * M = z at *
    generalize double x = d at *
    generalize eta = η at *
    clear sq h hk
    norm_num at *
    linarith

/-- What a run of `svg_path` with a device has sent. -/
theorem svgAny_sent {fl : ℝ → ℝ} {lib : Lib} {e : Rounded.Env} {cfg : Xy} {o : SvgNumbers} {layer : Option Cli.Arg} {doc : List XmlEvent}
    {p p' : Port} (h : Special.svgAny fl lib e cfg o layer doc (some p) = some (some p')) : ∃ w path c,
      Rounded.parseDocumentF fl lib (Program.keepOf layer) .identity doc = some (.ok path) ∧ cfg.ticksPerSecond ≠ 0 ∧
      Special.svgEvents fl { e with stepScale := fun i => (cfg.stepper i).stepsPerMillimeter } (Special.svgALimit fl cfg (o.aMax.map (.ofF64 fl)))
        (Special.vLimit fl cfg (o.vMax.map (.ofF64 fl))) w path (Special.drawSpeed fl cfg (o.drawSpeed.map (.ofF64 fl))) (o.repeats.getD 1).toNat =
          some c ∧ Sent c.events p p' := by
  unfold Special.svgAny at h
  obtain ⟨w, -, h⟩ := Option.bind_eq_some_iff.1 h
  split at h
  · rename_i path hp
    obtain ⟨c, hc, h⟩ := Option.bind_eq_some_iff.1 h
    rw [cassert_bind] at h
    obtain ⟨hT, h⟩ := h
    simp only at h
    obtain ⟨⟨r, q⟩, hr, h⟩ := Option.bind_eq_some_iff.1 h
    cases r with
    | error err => cases h
    | ok u =>
      cases h
      exact ⟨w, path, c, hp, hT, hc, C35_accepted _ _ _ hr⟩
  · cases h

/-- A speed that is not above a limit is not too large for the bounds of `start_speed`. -/
theorem speed_range {s T M B : ℝ} (hT : 1 ≤ T) (hB : 1 ≤ B) (hM : |M| ≤ 2 ^ 390) (slow : B * |s| ≤ 999999 / 1000000 * M) :
    |double (s / T)| ≤ 2 ^ 390 := by
  have a := fl_high C90_double (s / T)
  have b := eta_le 100 (by norm_num)
  have c : |s / T| ≤ |s| := by
    rw [abs_div, abs_of_pos (show 0 < T by linarith)]
    exact div_le_self (abs_nonneg s) hT
  have d := (le_abs_self M).trans hM
  have d2 : |s| ≤ 999999 / 1000000 * M := le_trans (by nlinarith [abs_nonneg s]) slow
  have f : (1 : ℝ) ≤ 2 ^ 390 := one_le_pow₀ (by norm_num)
  clear slow hM
  generalize (2 : ℝ) ^ 390 = P at *
  generalize eta = η at *
  generalize |double (s / T)| = y at *
  generalize |s / T| = x at *
  norm_num at *
  linarith

/-- C125: `svg_path` with a device and any document, without `--v-max`.  If the draw speed (20 mm/s if it is not given) is not more
than three quarters of what the configuration allows for either axis, then no axis is ever faster than its limit. -/
theorem C125_svg (lib : Lib) (e : Rounded.Env) (E : Computes lib.sin lib.cos e) (cfg : Xy) (o : SvgNumbers) (ho : o.vMax = none)
    (layer : Option Cli.Arg) (doc : List XmlEvent) (s : ℝ) (hs : (o.drawSpeed.map (.ofF64 double)).getD (.fin 20) = Num.fin s)
    (hc : ∀ i, |(cfg.stepper i).stepsPerMillimeter| ≤ 2 ^ 390 ∧ |(cfg.stepper i).maxVelocity| ≤ 2 ^ 390 ∧
      |s| ≤ 3 / 4 * (cfg.stepper i).maxVelocity) (p p' : Port)
    (h : Special.svgAny double lib e cfg o layer doc (some p) = some (some p')) :
    ∃ es, Sent es p p' ∧ KeepsSpeeds (Special.vLimit double cfg none) es := by
  obtain ⟨w, path, c, -, hT, hr, sent⟩ := svgAny_sent h
  have hT1 : (1 : ℝ) ≤ cfg.ticksPerSecond := by exact_mod_cast Nat.one_le_iff_ne_zero.2 hT
  have slow : ∀ i, 5 / 4 * |s| ≤ 999999 / 1000000 * (cfg.stepper i).maxVelocity := fun i => by
    have := (hc i).2.2
    have := abs_nonneg s
    linarith
  have hd : Special.drawSpeed double cfg (o.drawSpeed.map (.ofF64 double)) = .fin (double (s / cfg.ticksPerSecond)) := by
    rw [Special.drawSpeed, hs]
    simp [Num.div, hT]
  rw [hd, ho] at hr
  have L := Limits.of_svg (svgALimit_nonneg _ _ _) (vLimit_lt _ _ _) hr
  have hv := speed_range hT1 (by norm_num) (hc .x).2.1 (slow .x)
  have k := fun i => slow_config hT (hc i).1 (hc i).2.1 (by norm_num) (by norm_num) (slow i) (L.one i)
  exact ⟨_, sent, C125_svg_events lib.sin lib.cos { e with stepScale := fun i => (cfg.stepper i).stepsPerMillimeter } ⟨E.trig, E.arc, E.bezier⟩
    (fun i => (hc i).1) _ _ (svgALimit_nonneg _ _ _) (vLimit_lt _ _ _) _ _ _ hv _ k _ hr⟩

/-- C125: for documents with lines only the draw speed may be up to the limit (but for rounding). -/
theorem C125_svg_lines (lib : Lib) (e : Rounded.Env) (cfg : Xy) (o : SvgNumbers) (ho : o.vMax = none)
    (layer : Option Cli.Arg) (doc : List XmlEvent)
    (G : ∀ path, Rounded.parseDocumentF double lib (Program.keepOf layer) .identity doc = some (.ok path) → OnGrid path)
    (s : ℝ) (hs : (o.drawSpeed.map (.ofF64 double)).getD (.fin 20) = Num.fin s)
    (hc : ∀ i, |(cfg.stepper i).stepsPerMillimeter| ≤ 2 ^ 390 ∧ |(cfg.stepper i).maxVelocity| ≤ 2 ^ 390 ∧
      |s| ≤ 99999 / 100000 * (cfg.stepper i).maxVelocity) (p p' : Port)
    (h : Special.svgAny double lib e cfg o layer doc (some p) = some (some p')) :
    ∃ es, Sent es p p' ∧ KeepsSpeeds (Special.vLimit double cfg none) es := by
  obtain ⟨w, path, c, hp, hT, hr, sent⟩ := svgAny_sent h
  have hT1 : (1 : ℝ) ≤ cfg.ticksPerSecond := by exact_mod_cast Nat.one_le_iff_ne_zero.2 hT
  have slow : ∀ i, (1 + 2⁻¹ ^ 40) * |s| ≤ 999999 / 1000000 * (cfg.stepper i).maxVelocity := fun i => by
    have := (hc i).2.2
    have := abs_nonneg s
    norm_num
    linarith
  have hd : Special.drawSpeed double cfg (o.drawSpeed.map (.ofF64 double)) = .fin (double (s / cfg.ticksPerSecond)) := by
    rw [Special.drawSpeed, hs]
    simp [Num.div, hT]
  rw [hd, ho] at hr
  have L := Limits.of_svg (svgALimit_nonneg _ _ _) (vLimit_lt _ _ _) hr
  have hv := speed_range hT1 (by norm_num) (hc .x).2.1 (slow .x)
  have k := fun i => slow_config hT (hc i).1 (hc i).2.1 (by norm_num) (by norm_num) (slow i) (L.one i)
  exact ⟨_, sent, C125_lines_events { e with stepScale := fun i => (cfg.stepper i).stepsPerMillimeter } (fun i => (hc i).1) _ _
    (svgALimit_nonneg _ _ _) (vLimit_lt _ _ _) _ _ (G path hp) _ hv _ k _ hr⟩

/-! ### Examples -/

/-- The document of C103, whose draw speed is a hundredth of the limit. -/
example (pw : ℝ → ℝ → ℝ) (hpw : FloatPow pw) (lib : Lib) (hlib : FloatLib lib) (hang : FloatAngles lib)
    (hat : ∀ y x, double (lib.atan2 y x) = lib.atan2 y x) (e : Rounded.Env) (he : e.stepScale = fun _ => 80)
    (hf : Searches e) (hC : FloatCurves double pw lib.sin lib.cos e) (E : Computes lib.sin lib.cos e) :
    ∃ p p', Special.svgAny double lib e quickXy ⟨none, none, none, some 1, some 100⟩ none roundDoc.events (some p) = some (some p') ∧
      ∃ es, Sent es p p' ∧ KeepsSpeeds (Special.vLimit double quickXy none) es := by
  obtain ⟨p, p', -, h, -⟩ := round_burns pw hpw lib hlib hang hat e he hf hC
  refine ⟨p, p', h, C125_svg lib e E quickXy ⟨none, none, none, some 1, some 100⟩ rfl none roundDoc.events 20 rfl (fun i => ⟨?_, ?_, ?_⟩) p p' h⟩
  · have : (80 : ℝ) ≤ 2 ^ 7 := by norm_num
    simp only [quickXy, abs_of_nonneg (show (0 : ℝ) ≤ 80 by norm_num)]
    exact this.trans (pow_le_pow_right₀ (by norm_num) (by norm_num))
  · have : (2000 : ℝ) ≤ 2 ^ 11 := by norm_num
    simp only [quickXy, abs_of_nonneg (show (0 : ℝ) ≤ 2000 by norm_num)]
    exact this.trans (pow_le_pow_right₀ (by norm_num) (by norm_num))
  · simp only [quickXy, abs_of_nonneg (show (0 : ℝ) ≤ 20 by norm_num)]
    norm_num

/-- The run of C122 once more, with the limit at its speed (and with less it is above, C122). -/
example : (∃ c, Special.svgEvents double tenSteps (fun _ => 20) (fun _ => 50) 12 [.goTo ⟨-100, 0⟩, .lineTo ⟨-105, 0⟩] (.fin 20) 1 = some c ∧
      ¬ KeepsSpeeds (fun _ => 50) c.events) ∧
    ∀ vMax : Axis → ℤ, (∀ i, 101 ≤ vMax i ∧ vMax i < 2 ^ 31) → ∀ c,
      Special.svgEvents double tenSteps (fun _ => 20) vMax 12 [.goTo ⟨-100, 0⟩, .lineTo ⟨-105, 0⟩] (.fin 20) 1 = some c → KeepsSpeeds vMax c.events := by
  constructor
  · obtain ⟨c, h, τ, hτ⟩ := fast_runs.1
    refine ⟨c, h, fun k => ?_⟩
    have := k .x τ
    rw [hτ] at this
    norm_num at this
  · intro vMax hv c h
    have g : ∀ k : ℤ, Grid (k : ℝ) := fun k => ⟨k * 2 ^ 452, by
      push_cast
      rw [mul_assoc, ← mul_pow, mul_inv_cancel₀ (by norm_num), one_pow, mul_one]⟩
    have g' : ∀ k : ℤ, ∀ i, Grid (coord ⟨(k : ℝ), 0⟩ i) := fun k i => by
      cases i
      · exact g k
      · simpa [coord] using g 0
    refine C125_lines_events tenSteps (fun i => ?_) (fun _ => 20) vMax (fun _ => by norm_num) (fun i => (hv i).2) 12 _ ?_ 20 ?_ 1 (fun i => .inl ?_) c h
    · have : (10 : ℝ) ≤ 2 ^ 4 := by norm_num
      simp only [tenSteps, abs_of_nonneg (show (0 : ℝ) ≤ 10 by norm_num)]
      exact this.trans (pow_le_pow_right₀ (by norm_num) (by norm_num))
    · intro seg hm
      simp only [List.mem_cons, List.not_mem_nil, or_false] at hm
      rcases hm with rfl | rfl
      · exact ⟨_, .inl rfl, by simpa using g' (-100)⟩
      · exact ⟨_, .inr (.inl rfl), by simpa using g' (-105)⟩
    · have : (20 : ℝ) ≤ 2 ^ 5 := by norm_num
      rw [abs_of_nonneg (show (0 : ℝ) ≤ 20 by norm_num)]
      exact this.trans (pow_le_pow_right₀ (by norm_num) (by norm_num))
    · refine le_trans (round_mono (y := ((101 : ℤ) : ℝ)) ?_) ((Draw.round_int 101).trans_le (hv i).1)
      norm_num [tenSteps]

end StepperPaths.Props
