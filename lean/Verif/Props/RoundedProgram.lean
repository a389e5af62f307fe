import Verif.Proof.RoundedPass
import Verif.Proof.Config
import Verif.Proof.Tracking
import Verif.Props.RoundedSvg
import Verif.Props.Picture
import Verif.Props.RoundedBezier

/-! # C100: the program `svg_path` with rounding, from the document to what is burnt -/

namespace StepperPaths.Props
open Coords Curves Context IntegerCurve Spec Draw Program Config Control StepperPaths.Svg Spec.Svg Rounded

theorem drawTimesF_id (e : Draw.Env) (path : List Seg) (v : ℝ) (n : ℕ) :
    ∀ c, drawTimesF id (exactEnv e) path v n c = drawTimes e path v n c := by
  induction n with
  | zero => exact fun _ => rfl
  | succ n ih =>
    intro c
    rw [drawTimesF, drawTimes, drawCurves_id]
    simp only [ih]

/-- C100: without rounding, the model with rounding is the exact model. -/
theorem C100_exact (cfg : Xy) (o : Options) (layer : Option (List Char)) (e : Draw.Env) (doc : List XmlEvent) (port : Port) :
    svgProgramF id exactLib cfg o layer (exactEnv e) doc port = svgProgram cfg o layer e doc port := by
  unfold svgProgramF svgProgram
  simp only
  split
  · rfl
  next hn =>
    rw [C98_exact]
    rcases parseDocument (keepOf layer) .identity doc with _ | (_ | _ | path)
    · rfl
    · rfl
    · rfl
    · simp only
      have hv : vLimitF id cfg o.vMax = vLimit cfg o.vMax := by
        funext i
        cases h : o.vMax <;> simp [vLimitF, vLimit, cfgVScale, Config.vScale]
      have ha : svgALimitF id cfg o.aMax = svgALimit cfg o.aMax := by
        funext i
        cases h : o.aMax <;> simp [svgALimitF, svgALimit, svgAScaleF, svgAScale, cfgVScale, Config.vScale]
      unfold svgMain svgEventsF svgEvents
      simp only
      rw [if_neg hn, hv, ha]
      have ee : ({ exactEnv e with stepScale := fun i => (cfg.stepper i).stepsPerMillimeter } : Rounded.Env) =
          exactEnv { e with stepScale := fun i => (cfg.stepper i).stepsPerMillimeter } := rfl
      rw [ee]
      simp only [drawTimesF_id, drawSpeedF, id]
      rfl

theorem near_100 {fl : ℝ → ℝ} (R : FloatRounding fl) (x : ℝ) : |fl x - x| ≤ 1 / 2 ^ 53 * |x| + 1 / 2 ^ 100 := by
  have h1 : (2⁻¹ : ℝ) ^ 1075 ≤ 2⁻¹ ^ 100 := pow_le_pow_of_le_one (by norm_num) (by norm_num) (by norm_num)
  have h2 : (2⁻¹ : ℝ) ^ 100 = 1 / 2 ^ 100 := by rw [inv_pow, one_div]
  have h3 : (2⁻¹ : ℝ) ^ 53 = 1 / 2 ^ 53 := by rw [inv_pow, one_div]
  have h4 := R.near x
  rw [h2] at h1
  rw [h3] at h4
  generalize (2⁻¹ : ℝ) ^ 1075 = y at *
  linarith

theorem product_near {fl : ℝ → ℝ} (R : FloatRounding fl) {b x m : ℝ} (h : |b - x| ≤ 3 * (1 / 2 ^ 53 * |x| + 1 / 2 ^ 100))
    (hm : |m| ≤ 2 ^ 40) (hx : |x * m| ≤ 2 ^ 31) : |fl (b * m) - x * m| ≤ 1 / 1000 := by
  have h1 : |b * m - x * m| ≤ 3 * (1 / 2 ^ 53 * 2 ^ 31 + 1 / 2 ^ 100 * 2 ^ 40) := by
    rw [← sub_mul, abs_mul]
    refine (mul_le_mul_of_nonneg_right h (abs_nonneg m)).trans ?_
    rw [mul_assoc, add_mul, mul_assoc, ← abs_mul]
    have : (1 : ℝ) / 2 ^ 53 * |x * m| ≤ 1 / 2 ^ 53 * 2 ^ 31 := mul_le_mul_of_nonneg_left hx (by norm_num)
    have : (1 : ℝ) / 2 ^ 100 * |m| ≤ 1 / 2 ^ 100 * 2 ^ 40 := mul_le_mul_of_nonneg_left hm (by norm_num)
    linarith
  have h2 : |b * m| ≤ 2 ^ 32 := by
    rw [abs_le] at h1 hx ⊢
    norm_num at h1 hx ⊢
    constructor <;> linarith
  have h3 := near_100 R (b * m)
  have h4 : (1 : ℝ) / 2 ^ 53 * |b * m| ≤ 1 / 2 ^ 53 * 2 ^ 32 := mul_le_mul_of_nonneg_left h2 (by norm_num)
  have h5 : |fl (b * m) - b * m| ≤ 1 / 2 ^ 53 * 2 ^ 32 + 1 / 2 ^ 100 := by linarith
  rw [abs_le] at h1 h5 ⊢
  norm_num at h1 h5 ⊢
  constructor <;> linarith

theorem satI32_near {x y : ℝ} {z : ℤ} (h : |y - x| ≤ 1 / 1000) (hx : |x| ≤ 2 ^ 31 - 3) {d : ℝ} (hz : |(z : ℝ) - y| ≤ d) (hd : d ≤ 1) :
    |(satI32 z : ℝ) - x| ≤ d + 1 / 1000 := by
  rw [abs_le] at h hx hz
  have h1 : (-2 ^ 31 : ℝ) ≤ z := by linarith
  have h2 : (z : ℝ) < 2 ^ 31 := by linarith
  rw [satI32_eq (by exact_mod_cast h1) (by exact_mod_cast h2), abs_le]
  constructor <;> linarith

/-- C100: the largest velocity, in steps per two ticks, is the configured one or the one that is asked for, up to
half a step when it is rounded and one step when it is truncated. -/
theorem C100_velocity (fl : ℝ → ℝ) (R : FloatRounding fl) (c : Xy) (i : Axis) (opt : Option ℝ)
    (hm : |opt.getD (c.stepper i).maxVelocity| ≤ 2 ^ 40)
    (hx : |(|(c.stepper i).stepsPerMillimeter| / (2 * c.ticksPerSecond) * opt.getD (c.stepper i).maxVelocity)| ≤ 2 ^ 31 - 3) :
    |(vLimitF fl c opt i : ℝ) - |(c.stepper i).stepsPerMillimeter| / (2 * c.ticksPerSecond) * opt.getD (c.stepper i).maxVelocity| ≤
      (if opt = none then 1 / 2 else 1) + 1 / 1000 := by
  have e1 : |(c.stepper i).stepsPerMillimeter| / (2 * c.ticksPerSecond) = |(c.stepper i).stepsPerMillimeter / (2 * c.ticksPerSecond)| := by
    rw [abs_div, abs_of_nonneg (by positivity : (0 : ℝ) ≤ 2 * c.ticksPerSecond)]
  rw [e1] at hx ⊢
  have key : |(|cfgVScale fl c i|) - (|(c.stepper i).stepsPerMillimeter / (2 * c.ticksPerSecond)|)| ≤
      3 * (1 / 2 ^ 53 * |(|(c.stepper i).stepsPerMillimeter / (2 * c.ticksPerSecond)|)| + 1 / 2 ^ 100) := by
    rw [abs_abs]
    refine (abs_abs_sub_abs_le _ _).trans ((near_100 R _).trans ?_)
    have : 0 ≤ 1 / 2 ^ 53 * |(c.stepper i).stepsPerMillimeter / (2 * c.ticksPerSecond)| + 1 / 2 ^ 100 := by positivity
    linarith
  have hp := product_near R key hm (hx.trans (by norm_num))
  cases opt with
  | none => exact satI32_near hp hx (Picture.round_half _) (by norm_num)
  | some value => exact satI32_near hp hx (Tracking.trunc_near _) le_rfl

theorem aScale_near {fl : ℝ → ℝ} (R : FloatRounding fl) (c : Xy) (i : Axis) (ht : 1 ≤ c.ticksPerSecond) :
    |svgAScaleF fl c i - (c.stepper i).stepsPerMillimeter / (2 * c.ticksPerSecond) / c.ticksPerSecond| ≤
      3 * (1 / 2 ^ 53 * |(c.stepper i).stepsPerMillimeter / (2 * c.ticksPerSecond) / c.ticksPerSecond| + 1 / 2 ^ 100) := by
  have ht' : (1 : ℝ) ≤ c.ticksPerSecond := by exact_mod_cast ht
  unfold svgAScaleF cfgVScale
  generalize (c.stepper i).stepsPerMillimeter / (2 * (c.ticksPerSecond : ℝ)) = a at *
  generalize (c.ticksPerSecond : ℝ) = t at *
  have t0 : 0 < t := by linarith
  have h1 : |fl a / t - a / t| ≤ 1 / 2 ^ 53 * |a / t| + 1 / 2 ^ 100 := by
    rw [← sub_div, abs_div, abs_of_pos t0, div_le_iff₀ t0, abs_div, abs_of_pos t0, add_mul, mul_assoc, div_mul_cancel₀ _ t0.ne']
    refine (near_100 R a).trans ?_
    have : (1 : ℝ) / 2 ^ 100 * 1 ≤ 1 / 2 ^ 100 * t := mul_le_mul_of_nonneg_left ht' (by norm_num)
    linarith
  have h2 := near_100 R (fl a / t)
  have h3 : |fl a / t| ≤ |a / t| + (1 / 2 ^ 53 * |a / t| + 1 / 2 ^ 100) := by
    have := abs_add_le (fl a / t - a / t) (a / t)
    rw [sub_add_cancel] at this
    linarith
  have h4 := abs_add_le (fl (fl a / t) - fl a / t) (fl a / t - a / t)
  rw [sub_add_sub_cancel] at h4
  have := abs_nonneg (a / t)
  linarith

/-- C100: the largest acceleration, in steps per two square ticks. -/
theorem C100_acceleration (fl : ℝ → ℝ) (R : FloatRounding fl) (c : Xy) (i : Axis) (opt : Option ℝ) (ht : 1 ≤ c.ticksPerSecond)
    (hm : |opt.getD (c.stepper i).maxAcceleration| ≤ 2 ^ 40)
    (hx : |(c.stepper i).stepsPerMillimeter / (2 * c.ticksPerSecond) / c.ticksPerSecond * opt.getD (c.stepper i).maxAcceleration| ≤ 2 ^ 31 - 3) :
    |(svgALimitF fl c opt i : ℝ) -
        (|(c.stepper i).stepsPerMillimeter / (2 * c.ticksPerSecond) / c.ticksPerSecond * opt.getD (c.stepper i).maxAcceleration|)| ≤
      (if opt = none then 1 / 2 else 1) + 1 / 1000 := by
  have key := aScale_near R c i ht
  have hp := product_near R key hm (hx.trans (by norm_num))
  have hp' := (abs_abs_sub_abs_le _ _).trans hp
  have hx' : |(|(c.stepper i).stepsPerMillimeter / (2 * c.ticksPerSecond) / c.ticksPerSecond * opt.getD (c.stepper i).maxAcceleration|)| ≤ 2 ^ 31 - 3 := by
    rw [abs_abs]
    exact hx
  cases opt with
  | none => exact satI32_near hp' hx' (Picture.round_half _) (by norm_num)
  | some value =>
    rw [mul_comm] at hp'
    exact satI32_near hp' hx' (Tracking.trunc_near _) le_rfl

/-- C100: the events of the program burn the picture `n` times and bring the machine home. -/
theorem C100_events (fl : ℝ → ℝ) (R : FloatRounding fl) (odd : ∀ x, fl (-x) = -fl x) (pw : ℝ → ℝ → ℝ) (hpw : FloatPow pw)
    (sn cs : ℝ → ℝ) (Tr : FloatTrig sn cs) (aMax vMax : Axis → ℤ) (hM : Machine aMax vMax) (e : Rounded.Env) (hf : Searches e)
    (he : FloatCurves fl pw sn cs e)
    (v S M D ε κ : ℝ) (N m : ℕ) (L : CurveLimits e aMax vMax v S M D ε κ N m)
    (hr : ∀ i, M * e.stepScale i ≤ 2 ^ 26)
    (ρ : Axis → ℝ) (hρ : ∀ i, 387 / 100 * S + 1 / 2 + 3 * (N * (1 / 1000000 + 1 / 10 ^ 12) * e.stepScale i) ≤ ρ i)
    (p0 : Vec) (rest : List Seg) (hN : rest.length < N) (w : ℤ) (hw : w ≠ 0) (n : ℕ)
    (hF : FloatFits fl e.stepScale M (m * v) D ε κ (v / 100) ρ p0 rest (fun _ => 0))
    (hF' : 2 ≤ n → ∀ P, AtEnd e.stepScale ρ p0 rest P → FloatFits fl e.stepScale M (m * v) D ε κ (v / 100) ρ p0 rest P)
    (pic : List (ℝ → Vec)) (δ θ : Axis → ℝ) (hpic : List.Forall₂ (CloseLines δ) (linesOf p0 rest) pic)
    (hθ : ∀ i, 101 / 200 + δ i * e.stepScale i ≤ θ i) :
    ∃ (c' : Ctx) (t : ℕ → ℕ) (T : ℕ), svgEventsF fl e aMax vMax w (.goTo p0 :: rest) v n = some c' ∧
      c'.ticks = some T ∧ t 0 = 0 ∧ t n < T ∧
      (∀ k < n, Burnt e.stepScale w aMax vMax c'.events (t k) (t (k + 1)) pic
        (fun i => 2 * θ i + e.stepScale i / 1000000)
        (fun i => 386 / 100 * S + θ i + (N * (1 / 1000000 + 1 / 10 ^ 12) + N * D) * e.stepScale i)
        (fun i => 386 / 100 * S + θ i + (N * (1 / 1000000 + 1 / 10 ^ 12) + N * D + 13 / 10 * v) * e.stepScale i)) ∧
      (∀ w0 τ, t n ≤ τ → weightAt w0 c'.events τ = 0) ∧
      (∀ i τ, t n ≤ τ → |accAt i c'.events τ| ≤ aMax i ∧ |velAt i c'.events (τ + 1)| ≤ vMax i) ∧
      ∀ i τ, T ≤ τ → velAt i c'.events τ = 0 ∧ posAt i c'.events τ = 0 := by
  have hs : ∀ i, 0 < e.stepScale i := fun i => lt_of_lt_of_le (by norm_num) (L.scale i)
  have hM0 : 0 ≤ M := (abs_nonneg _).trans (hF.bounded .x)
  have hp0 : ∀ i, |(((((Ctx.new aMax vMax).setWeight w).channels i).pos : ℤ) : ℝ)| ≤ 2 * M * e.stepScale i + 4 * S + 2 := by
    intro i
    have := hs i
    have := L.one
    simp only [Ctx.setWeight, Ctx.new, Int.cast_zero, abs_zero]
    positivity
  obtain ⟨c1, t, g1, g2, -, g4, g5, g6, g7, g8, g9⟩ := Picture.passesF_burnt R odd hpw Tr hM hf he L hr hρ hN hpic hθ n
    (c := (Ctx.new aMax vMax).setWeight w) (.step (op := .setWeight w) .new trivial rfl)
    (fun i => by simpa [Ctx.setWeight, Ctx.new] using (zero_le_one.trans (hM.v1 i))) hp0 hw (fun _ => hF) hF'
  obtain ⟨c2, c', T, e1, e2, e3, e4, k1, k2, k3, k4, k5, k6⟩ := Picture.home hM g2 g4 (by
    intro i
    have h1 := g5 i
    have h2 : (3 : ℝ) * M * e.stepScale i + 5 * S + 5 ≤ vMax i * 65535 := L.reach i
    have h3 := mul_nonneg hM0 (hs i).le
    have h4 := L.one
    have : |((c1.channels i).pos : ℝ)| ≤ ((vMax i * 65535 : ℤ) : ℝ) := by
      push_cast
      linarith
    exact_mod_cast this)
  refine ⟨c', t, T, ?_, e4, by rw [g6]; rfl, by rw [g7]; exact k1, fun k hk => ?_, by rw [g7]; exact k4, by rw [g7]; exact k5, k6⟩
  · unfold svgEventsF
    simp only [g1, e1, e2, e3, Option.bind_eq_bind, Option.bind_some]
  · have := g8 k hk
    rw [g7] at this
    exact Picture.burnt_later (g9 k hk) this k2 k3

/-- C100: the program `svg_path` with rounding, for a document whose computed lines and curves are within `δ` of a picture. -/
theorem C100_read (fl : ℝ → ℝ) (R : FloatRounding fl) (odd : ∀ x, fl (-x) = -fl x) (pw : ℝ → ℝ → ℝ) (hpw : FloatPow pw)
    (lib : Lib) (hlib : FloatLib lib) (cfg : Xy) (o : Options) (layer : Option (List Char)) (e : Rounded.Env)
    (hes : e.stepScale = fun i => (cfg.stepper i).stepsPerMillimeter)
    (hM : Machine (svgALimitF fl cfg o.aMax) (vLimitF fl cfg o.vMax)) (hf : Searches e) (he : FloatCurves fl pw lib.sin lib.cos e)
    (v : ℝ) (hvd : drawSpeedF fl cfg o.drawSpeed = v) (S M D ε κ : ℝ) (N m : ℕ)
    (L : CurveLimits e (svgALimitF fl cfg o.aMax) (vLimitF fl cfg o.vMax) v S M D ε κ N m)
    (hr : ∀ i, M * e.stepScale i ≤ 2 ^ 26)
    (ρ : Axis → ℝ) (hρ : ∀ i, 387 / 100 * S + 1 / 2 + 3 * (N * (1 / 1000000 + 1 / 10 ^ 12) * e.stepScale i) ≤ ρ i)
    (n : ℕ) (hn : o.repeats.getD 1 = n) (hn1 : 1 ≤ n) (hi : 1 ≤ o.intensity.getD 5 ∧ o.intensity.getD 5 ≤ 100)
    (htps : cfg.ticksPerSecond ≠ 0)
    (f : Forest) (l : List Drawing) (δ : Axis → ℝ)
    (hread : ∃ p0 rest, parseDocumentF fl lib (keepOf layer) .identity f.events = some (.ok (.goTo p0 :: rest)) ∧
      List.Forall₂ (CloseLines δ) (linesOf p0 rest) (picture l))
    (hfit : ∀ p0 rest, parseDocumentF fl lib (keepOf layer) .identity f.events = some (.ok (.goTo p0 :: rest)) →
      rest.length < N ∧ ∀ P : Axis → ℤ, ((∀ i, P i = 0) ∨ 2 ≤ n ∧ AtEnd e.stepScale ρ p0 rest P) →
        FloatFits fl e.stepScale M (m * v) D ε κ (v / 100) ρ p0 rest P)
    (θ : Axis → ℝ) (hθ : ∀ i, 101 / 200 + δ i * e.stepScale i ≤ θ i) :
    ∃ (es : List Event) (t : ℕ → ℕ) (T : ℕ), t 0 = 0 ∧ t n < T ∧
      (∀ k < n, Burnt e.stepScale (weightOf (o.intensity.getD 5)) (svgALimitF fl cfg o.aMax) (vLimitF fl cfg o.vMax) es (t k) (t (k + 1))
        (picture l) (fun i => 2 * θ i + e.stepScale i / 1000000)
        (fun i => 386 / 100 * S + θ i + (N * (1 / 1000000 + 1 / 10 ^ 12) + N * D) * e.stepScale i)
        (fun i => 386 / 100 * S + θ i + (N * (1 / 1000000 + 1 / 10 ^ 12) + N * D + 13 / 10 * v) * e.stepScale i)) ∧
      (∀ w0 τ, t n ≤ τ → weightAt w0 es τ = 0) ∧
      (∀ i τ, t n ≤ τ → |accAt i es τ| ≤ svgALimitF fl cfg o.aMax i ∧ |velAt i es (τ + 1)| ≤ vLimitF fl cfg o.vMax i) ∧
      (∀ i τ, T ≤ τ → velAt i es τ = 0 ∧ posAt i es τ = 0) ∧
      (∀ port port', svgProgramF fl lib cfg o layer e f.events port = some (some port') →
        ∃ (r0 : List Char) (t0 : ℤ) (rs : List Round), readInt r0 = some t0 ∧
          (accepted rs).map decodeLine = (Spec.absolute (t0 + 128) es).map some ∧
          port'.log = port.log ++ ((['T'], r0) :: rs).flatMap Round.acts) ∧
      ∀ (port : Port) (r0 : List Char) (t0 : ℤ) (full : List ℕ) (d : ℕ), full.length = es.length → '\n' ∉ r0 →
        readInt r0 = some t0 → i64Min ≤ t0 ∧ t0 ≤ i64Max →
        Delivers port.input port.reads (r0 ++ '\n' :: full.flatMap answers) d → (∀ n, port.writeOk n = true) →
        ∃ port', svgProgramF fl lib cfg o layer e f.events port = some (some port') := by
  subst hvd
  obtain ⟨p0, rest, d1, d2⟩ := hread
  obtain ⟨hN, hF⟩ := hfit p0 rest d1
  have hw : weightOf (o.intensity.getD 5) ≠ 0 := by
    have := (C85_weight (o.intensity.getD 5) (by omega) hi.2).2.2.2.1
    omega
  obtain ⟨c', t, T, h1, h2, h3, h4, h5, h6, h7, h8⟩ := C100_events fl R odd pw hpw _ _ hlib.trig _ _ hM e hf he _ S M D ε κ N m L hr ρ hρ
    p0 rest hN _ hw n (hF _ (.inl fun _ => rfl)) (fun h2 P hP => hF P (.inr ⟨h2, hP⟩)) (picture l) δ θ d2 hθ
  have ee : ({ e with stepScale := fun i => (cfg.stepper i).stepsPerMillimeter } : Rounded.Env) = e := by
    rw [← hes]
  have nn : (o.repeats.getD 1).toNat = n := by omega
  have prog : ∀ port, svgProgramF fl lib cfg o layer e f.events port = (playEvents port c'.events).bind fun r =>
      match r with
      | (.ok (), port) => some (some port)
      | (.error _, _) => none := by
    intro port
    unfold svgProgramF
    simp only
    rw [if_neg (by omega), d1]
    simp only [ee, nn, h1, cassert, htps, ne_eq, not_false_eq_true, if_true, Option.bind_eq_bind, Option.bind_some]
    rfl
  refine ⟨c'.events, t, T, h3, h4, h5, h6, h7, h8, fun port port' h => ?_, fun port r0 t0 full d a1 a2 a3 a4 a5 a6 => ?_⟩
  · rw [prog] at h
    obtain ⟨⟨r, q⟩, h2, h⟩ := Option.bind_eq_some_iff.1 h
    cases r with
    | error _ => simp at h
    | ok _ =>
      simp at h
      cases h
      obtain ⟨r0, t0, rs, k1, k2, k3⟩ := C35_accepted _ _ _ h2
      exact ⟨r0, t0, rs, k1, k2, k3⟩
  · obtain ⟨p', k1, -⟩ := C35_returns port r0 t0 (c'.events.zip full) d a2 a3 a4 (by
      rw [← List.flatMap_map Prod.snd, List.map_snd_zip (by omega)]
      exact a5) a6
    rw [List.map_fst_zip (by omega)] at k1
    exact ⟨p', by rw [prog, k1]; rfl⟩

/-- C100: the program `svg_path` with rounding.  For a document without arcs whose paths mean some lines and
curves, and a machine that can follow the computed ones, there are events such that a controller that
plays them burns these lines and curves `n` times and then returns to the origin with the laser off.
What rounding changes in the reading of the document is `δ`.  When the program ends normally the controller
has accepted exactly these events; and it ends normally if the controller reports its time and accepts
every event, after any number of queue-full replies. -/
theorem C100_program (fl : ℝ → ℝ) (R : FloatRounding fl) (odd : ∀ x, fl (-x) = -fl x) (pw : ℝ → ℝ → ℝ) (hpw : FloatPow pw)
    (lib : Lib) (hlib : FloatLib lib) (cfg : Xy) (o : Options) (layer : Option (List Char)) (e : Rounded.Env)
    (hes : e.stepScale = fun i => (cfg.stepper i).stepsPerMillimeter)
    (hM : Machine (svgALimitF fl cfg o.aMax) (vLimitF fl cfg o.vMax)) (hf : Searches e) (he : FloatCurves fl pw lib.sin lib.cos e)
    (v : ℝ) (hvd : drawSpeedF fl cfg o.drawSpeed = v) (S M D ε κ : ℝ) (N m : ℕ)
    (L : CurveLimits e (svgALimitF fl cfg o.aMax) (vLimitF fl cfg o.vMax) v S M D ε κ N m)
    (hr : ∀ i, M * e.stepScale i ≤ 2 ^ 26)
    (ρ : Axis → ℝ) (hρ : ∀ i, 387 / 100 * S + 1 / 2 + 3 * (N * (1 / 1000000 + 1 / 10 ^ 12) * e.stepScale i) ≤ ρ i)
    (n : ℕ) (hn : o.repeats.getD 1 = n) (hn1 : 1 ≤ n) (hi : 1 ≤ o.intensity.getD 5 ∧ o.intensity.getD 5 ≤ 100)
    (htps : cfg.ticksPerSecond ≠ 0)
    (f : Forest) (l : List Drawing) (hl : l ≠ []) (hv : ∀ d ∈ l, d.Valid)
    (hp : f.paths (keepOf layer) .identity = some (l.map fun d => (d.tr, d.text)))
    (z : List Size) (hz : f.sizes (keepOf layer) ⟨.identity, 0⟩ = some z) (δ : Axis → ℝ) (hread : List.Forall₂ (Readable δ) l z)
    (hfit : ∀ p0 rest, parseDocumentF fl lib (keepOf layer) .identity f.events = some (.ok (.goTo p0 :: rest)) →
      rest.length < N ∧ ∀ P : Axis → ℤ, ((∀ i, P i = 0) ∨ 2 ≤ n ∧ AtEnd e.stepScale ρ p0 rest P) →
        FloatFits fl e.stepScale M (m * v) D ε κ (v / 100) ρ p0 rest P)
    (θ : Axis → ℝ) (hθ : ∀ i, 101 / 200 + δ i * e.stepScale i ≤ θ i) :
    ∃ (es : List Event) (t : ℕ → ℕ) (T : ℕ), t 0 = 0 ∧ t n < T ∧
      (∀ k < n, Burnt e.stepScale (weightOf (o.intensity.getD 5)) (svgALimitF fl cfg o.aMax) (vLimitF fl cfg o.vMax) es (t k) (t (k + 1))
        (picture l) (fun i => 2 * θ i + e.stepScale i / 1000000)
        (fun i => 386 / 100 * S + θ i + (N * (1 / 1000000 + 1 / 10 ^ 12) + N * D) * e.stepScale i)
        (fun i => 386 / 100 * S + θ i + (N * (1 / 1000000 + 1 / 10 ^ 12) + N * D + 13 / 10 * v) * e.stepScale i)) ∧
      (∀ w0 τ, t n ≤ τ → weightAt w0 es τ = 0) ∧
      (∀ i τ, t n ≤ τ → |accAt i es τ| ≤ svgALimitF fl cfg o.aMax i ∧ |velAt i es (τ + 1)| ≤ vLimitF fl cfg o.vMax i) ∧
      (∀ i τ, T ≤ τ → velAt i es τ = 0 ∧ posAt i es τ = 0) ∧
      (∀ port port', svgProgramF fl lib cfg o layer e f.events port = some (some port') →
        ∃ (r0 : List Char) (t0 : ℤ) (rs : List Round), readInt r0 = some t0 ∧
          (accepted rs).map decodeLine = (Spec.absolute (t0 + 128) es).map some ∧
          port'.log = port.log ++ ((['T'], r0) :: rs).flatMap Round.acts) ∧
      ∀ (port : Port) (r0 : List Char) (t0 : ℤ) (full : List ℕ) (d : ℕ), full.length = es.length → '\n' ∉ r0 →
        readInt r0 = some t0 → i64Min ≤ t0 ∧ t0 ≤ i64Max →
        Delivers port.input port.reads (r0 ++ '\n' :: full.flatMap answers) d → (∀ n, port.writeOk n = true) →
        ∃ port', svgProgramF fl lib cfg o layer e f.events port = some (some port') :=
  C100_read fl R odd pw hpw lib hlib cfg o layer e hes hM hf he v hvd S M D ε κ N m L hr ρ hρ n hn hn1 hi htps f l δ
    (C98_document fl R lib hlib (keepOf layer) f l hl hv hp z hz δ hread) hfit θ hθ

/-- The numbers of `bendDoc` are computed exactly. -/
theorem bend_computed (lib : Lib) : parseDocumentF double lib (keepOf none) .identity bendDoc.events =
    some (.ok [.goTo ⟨10, 0⟩, .curveTo ⟨30, 30⟩ ⟨10, 0⟩ ⟨0, -20⟩, .lineTo ⟨30, 50⟩]) := by
  have i : ∀ n : ℤ, |n| ≤ 2 ^ 53 → double n = n := C90_double.int
  have z : double 0 = 0 := by simpa using i 0 (by norm_num)
  have n10 : double 10 = 10 := by simpa using i 10 (by norm_num)
  have n20 : double 20 = 20 := by simpa using i 20 (by norm_num)
  have n20' : double (-20) = -20 := by simpa using i (-20) (by norm_num)
  have n30 : double 30 = 30 := by simpa using i 30 (by norm_num)
  have n50 : double 50 = 50 := by simpa using i 50 (by norm_num)
  have hv : (bendCmds.map fun c => (c.letter, c.args.values.map fun q : ℚ => double (q : ℝ))) =
      [('M', [10, 0]), ('C', [20, 0, 30, 10, 30, 30]), ('L', [30, 50])] := by
    have h := congrArg (List.map fun c : Char × List ℝ => (c.1, c.2.map double)) bend_values
    unfold Drawing.values at h
    rw [List.map_map] at h
    have e : (bendCmds.map fun c => (c.letter, c.args.values.map fun q : ℚ => double (q : ℝ))) =
        List.map ((fun c : Char × List ℝ => (c.1, c.2.map double)) ∘ fun c : Cmd => (c.letter, c.args.values.map fun q : ℚ => (q : ℝ)))
          bendDrawing.cmds := by simp [bendDrawing, Function.comp_def]
    rw [e, h]
    simp [z, n10, n20, n30, n50]
  have hb : Acc.buildAllF double lib .identity true [('M', [10, 0]), ('C', [20, 0, 30, 10, 30, 30]), ('L', [30, 50])] .new =
      some (.ok (), ⟨⟨30, 50⟩, ⟨10, 0⟩, none, [.goTo ⟨10, 0⟩, .curveTo ⟨30, 30⟩ ⟨10, 0⟩ ⟨0, -20⟩, .lineTo ⟨30, 50⟩]⟩) := by
    simp [Acc.buildAllF, buildPathF, checkArgs, moveCmdF, moveFirstF, lineLoopF, cubicLoopF, targetF, offset, tapply, PathState.push,
      PathState.new, PathState.noControl, Transform.identity, Rounded.vsub, Rounded.vadd, z, n10, n20, n30, n50]
    norm_num [n10, n20', z]
  rw [← hv] at hb
  have hp := Acc.pathLoopF_cmds (t := []) .identity bendCmds bend_valid.cmds (by simp [White]) true .new _ hb
  rw [List.append_nil] at hp
  have ht : pathText bendCmds = "M10,00C20,00,30,10,30,30L30,50".toList := by decide
  rw [ht] at hp
  generalize hq : "M10,00C20,00,30,10,30,30L30,50".toList = text at hp
  unfold parseDocumentF bendDoc
  rw [hq]
  simp [Forest.events, docLoopF, docStepF, keepOf, noFilter, svgNs, collectAllF, collectF, parsePathF, hp]

/-- The limits of this machine. -/
theorem quick_limitsF : svgALimitF double quickXy none = (fun _ => 10) ∧ vLimitF double quickXy none = fun _ => 100 := by
  constructor
  · funext i
    have h := C100_acceleration double C90_double quickXy i none (by decide) (by norm_num [quickXy]) (by norm_num [quickXy, abs_of_pos])
    have e : (|(quickXy.stepper i).stepsPerMillimeter / (2 * quickXy.ticksPerSecond) / quickXy.ticksPerSecond *
        Option.getD none (quickXy.stepper i).maxAcceleration|) = (10 : ℤ) := by norm_num [quickXy]
    rw [e] at h
    have h2 : |((svgALimitF double quickXy none i - 10 : ℤ) : ℝ)| < 1 := by
      push_cast at h ⊢
      refine lt_of_le_of_lt h ?_
      norm_num
    have : |svgALimitF double quickXy none i - 10| < 1 := by exact_mod_cast h2
    have := Int.abs_lt_one_iff.1 this
    omega
  · funext i
    have h := C100_velocity double C90_double quickXy i none (by norm_num [quickXy]) (by norm_num [quickXy, abs_of_pos])
    have e : (|(quickXy.stepper i).stepsPerMillimeter| / (2 * quickXy.ticksPerSecond) *
        Option.getD none (quickXy.stepper i).maxVelocity) = (100 : ℤ) := by norm_num [quickXy]
    rw [e] at h
    have h2 : |((vLimitF double quickXy none i - 100 : ℤ) : ℝ)| < 1 := by
      push_cast at h ⊢
      refine lt_of_le_of_lt h ?_
      norm_num
    have : |vLimitF double quickXy none i - 100| < 1 := by exact_mod_cast h2
    have := Int.abs_lt_one_iff.1 this
    omega

/-- The document of the example of C95, in `f64` arithmetic. -/
example (pw : ℝ → ℝ → ℝ) (hpw : FloatPow pw) (lib : Lib) (hlib : FloatLib lib) (e : Rounded.Env) (he : e.stepScale = fun _ => 80)
    (hf : Searches e) (hC : FloatCurves double pw lib.sin lib.cos e) :
    ∃ (es : List Event) (t : ℕ → ℕ) (T : ℕ), t 0 = 0 ∧ t 2 < T ∧
      (∀ k < 2, ∃ τ, t k ≤ τ ∧ τ < t (k + 1) ∧ (∀ w, weightAt w es τ = 254) ∧ ∃ τ', (τ' = τ ∨ τ' = τ + 1) ∧
        |posAt .x es τ' - 1900| ≤ 6 ∧ |posAt .y es τ' - 600| ≤ 6) ∧
      (∀ i τ, T ≤ τ → velAt i es τ = 0 ∧ posAt i es τ = 0) ∧
      ∃ port port', svgProgramF double lib quickXy ⟨none, none, none, some 2, some 100⟩ none e bendDoc.events port = some (some port') := by
  have R := C90_double
  obtain ⟨v, hvd⟩ : ∃ v, drawSpeedF double quickXy none = v := ⟨_, rfl⟩
  have hv : |v - 1 / 40| ≤ 1 / 10 ^ 9 := by
    have := near_100 R (20 / (quickXy.ticksPerSecond : ℝ))
    rw [show (20 : ℝ) / (quickXy.ticksPerSecond : ℝ) = 1 / 40 by norm_num [quickXy]] at this
    have e1 : v = double (1 / 40) := by
      rw [← hvd, drawSpeedF]
      norm_num [quickXy]
    rw [e1]
    refine this.trans ?_
    rw [abs_of_pos (by norm_num)]
    norm_num
  obtain ⟨v1, v2⟩ := abs_le.1 hv
  have he' : ∀ i, e.stepScale i = 80 := fun i => by rw [he]
  have hb : bezierOf ⟨10, 0⟩ ⟨30, 30⟩ ⟨10, 0⟩ ⟨0, -20⟩ = bend := by
    simp only [bezierOf, bend, vec_sub, vec_add]
    norm_num
  have hpt : ∀ x y : ℤ, |x| ≤ 100 → |y| ≤ 100 → FloatPoint double 100 ⟨x, y⟩ := by
    intro x y hx hy i
    cases i
    · exact ⟨by show |(x : ℝ)| ≤ 100; exact_mod_cast hx, R.int x (hx.trans (by norm_num))⟩
    · exact ⟨by show |(y : ℝ)| ≤ 100; exact_mod_cast hy, R.int y (hy.trans (by norm_num))⟩
  have p1 : FloatPoint double 100 ⟨10, 0⟩ := by simpa using hpt 10 0 (by norm_num) (by norm_num)
  have p2 : FloatPoint double 100 ⟨30, 30⟩ := by simpa using hpt 30 30 (by norm_num) (by norm_num)
  have p3 : FloatPoint double 100 ⟨30, 50⟩ := by simpa using hpt 30 50 (by norm_num) (by norm_num)
  have l2 : ((⟨30, 50⟩ : Vec) - ⟨30, 30⟩).length = 20 := by
    show √((30 - 30) * (30 - 30) + (50 - 30) * (50 - 30)) = 20
    rw [show ((30 : ℝ) - 30) * (30 - 30) + (50 - 30) * (50 - 30) = 20 ^ 2 by norm_num]
    exact Real.sqrt_sq (by norm_num)
  have hE : curveError 300 3 60 0 (3 / 20) ≤ 355 / 10 ^ 8 := by
    norm_num [curveError, tableError, tableOps, Finset.sum_range_succ]
  obtain ⟨ha, hb'⟩ := quick_limitsF
  have L : CurveLimits e (fun _ => 10) (fun _ => 100) v 1 100 (36 / 10 ^ 7) (1 / 10 ^ 6) (1 / 15) 3 8 := by
    refine ⟨by norm_num, by linarith, by linarith, by norm_num, by push_cast; linarith, by norm_num, by norm_num, by norm_num, by linarith,
      ?_, ?_, ?_, ?_, by norm_num, by norm_num, by norm_num, ?_, ?_, ?_⟩ <;>
      (intro i; rw [he'])
    · norm_num
    · norm_num
    · norm_num
    · linarith
    · push_cast; linarith
    · have : v ≤ 1 / 39 := by linarith
      have v0 : 0 ≤ v := by linarith
      push_cast
      have : v * 80 * (89 / 1000 + 11 / (20 * 8) + 5 * (1 / 15 * v)) ≤ 1 / 39 * 80 * (89 / 1000 + 11 / (20 * 8) + 5 * (1 / 15 * (1 / 39))) := by
        gcongr
      refine this.trans ?_
      norm_num
    · norm_num
  have fits : ∀ P : Axis → ℤ, ((∀ i, P i = 0) ∨ AtEnd (fun _ => 80) (fun _ => 5) ⟨10, 0⟩
      [.curveTo ⟨30, 30⟩ ⟨10, 0⟩ ⟨0, -20⟩, .lineTo ⟨30, 50⟩] P) →
      FloatFits double (fun _ => 80) 100 ((8 : ℕ) * v) (36 / 10 ^ 7) (1 / 10 ^ 6) (1 / 15) (v / 100) (fun _ => 5) ⟨10, 0⟩
        [.curveTo ⟨30, 30⟩ ⟨10, 0⟩ ⟨0, -20⟩, .lineTo ⟨30, 50⟩] P := by
    intro P hP
    have hx : (P .x = 0 ∨ 2395 ≤ P .x) ∧ ∀ i, |(P i : ℝ)| ≤ 5000 := by
      rcases hP with h | ⟨q, hq, h⟩
      · simp [h]
      · have hq : q = ⟨30, 30⟩ ∨ q = ⟨30, 50⟩ := by simpa [lineEnds, segEnd] using hq
        have h1 := h .x
        have h2 := h .y
        have hx : |(P .x : ℝ) - 2400| ≤ 5 := by
          rcases hq with rfl | rfl <;> (simp only [coord] at h1; norm_num at h1 ⊢; exact h1)
        have hy : |(P .y : ℝ) - 3200| ≤ 805 := by
          rcases hq with rfl | rfl <;> (simp only [coord] at h2; norm_num at h2 ⊢; rw [abs_le] at h2 ⊢; constructor <;> linarith)
        rw [abs_le] at hx hy
        refine ⟨.inr ?_, fun i => ?_⟩
        · have : (2395 : ℝ) ≤ P .x := by linarith
          exact_mod_cast this
        · cases i <;> exact abs_le.2 ⟨by linarith, by linarith⟩
    have rx : Draw.round (double (coord (⟨10, 0⟩ : Vec) .x * 80)) = 800 := by
      rw [show coord (⟨10, 0⟩ : Vec) .x * 80 = ((800 : ℤ) : ℝ) by norm_num [coord], R.int 800 (by norm_num)]
      exact Draw.round_int 800
    have far : ¬ ∀ i : Axis, Draw.round (double (coord (⟨10, 0⟩ : Vec) i * (fun _ => (80 : ℝ)) i)) = P i := by
      intro h
      have := h .x
      simp only [rx] at this
      omega
    have far' : ¬ Beside double (fun _ => 80) (fun _ => 5) P [] ⟨10, 0⟩ := by
      rintro (h | ⟨q, hq, -⟩)
      · exact far h
      · simp at hq
    have hB : ∀ i, |double (double (P i) / 80)| ≤ 100 := by
      intro i
      have h1 := hx.2 i
      have h2 : |P i| ≤ 2 ^ 53 := by
        have : |P i| ≤ 5000 := by exact_mod_cast h1
        exact this.trans (by norm_num)
      rw [R.int _ h2]
      have h3 := near_100 R ((P i : ℝ) / 80)
      have h4 : |(P i : ℝ) / 80| ≤ 5000 / 80 := by
        rw [abs_div, abs_of_pos (by norm_num : (0 : ℝ) < 80)]
        linarith
      have h5 := abs_add_le (double ((P i : ℝ) / 80) - (P i : ℝ) / 80) ((P i : ℝ) / 80)
      rw [sub_add_cancel] at h5
      have : (1 : ℝ) / 2 ^ 100 ≤ 1 := by norm_num
      linarith
    refine ⟨fun i => ?_, ⟨p1, ?_, fun h => absurd h far'⟩, trivial, fun h => absurd h far⟩
    · cases i
      · exact hB .x
      · exact hB .y
    · simp only [TractablePath, hb, l2, bend_arc]
      exact ⟨p2, ⟨60, 30, 0, 30, 3 / 20, bendTerms, 300, 3, bend_fits, bend_rounds, by linarith, by linarith⟩, by push_cast; linarith,
        by norm_num, p3, by push_cast; linarith, by norm_num, trivial⟩
  have hread : Readable (fun _ => 1 / 10 ^ 10) bendDrawing ⟨.identity, 0⟩ := by
    refine ⟨?_, by norm_num, ?_, ?_⟩
    · intro c hc
      simp only [bendDrawing, bendCmds, List.mem_cons, List.not_mem_nil, or_false] at hc
      rcases hc with rfl | rfl | rfl <;> decide
    · rw [show bendDrawing.cmds = bendCmds from rfl, bend_extent.2]; norm_num
    · intro i
      unfold Size.error Size.reach
      rw [show bendDrawing.cmds = bendCmds from rfl, bend_extent.2, bend_extent.1]
      cases i <;> norm_num [Transform.identity]
  have hz : bendDoc.sizes (keepOf none) ⟨.identity, 0⟩ = some [⟨.identity, 0⟩] := by
    unfold bendDoc
    generalize "M10,00C20,00,30,10,30,30L30,50".toList = text
    simp [Forest.sizes, keepOf, noFilter, Size.inside, texts]
  obtain ⟨es, t, T, h1, h2, h3, -, -, h5, -, h6⟩ := C100_program double R C93_double_odd pw hpw lib hlib quickXy
    ⟨none, none, none, some 2, some 100⟩ none e (by rw [he]; rfl)
    (by rw [ha, hb']; exact ⟨by norm_num, by norm_num, by norm_num, by norm_num, by norm_num⟩) hf hC v hvd
    1 100 (36 / 10 ^ 7) (1 / 10 ^ 6) (1 / 15) 3 8 (by rw [ha, hb']; exact L) (fun i => by rw [he]; norm_num)
    (fun _ => 5) (fun i => by rw [he]; norm_num) 2 rfl (by norm_num) (by simp) (by decide)
    bendDoc [bendDrawing] (by simp) (by simpa using bend_valid) bend_paths _ hz _ (.cons hread .nil) (by
      intro p0 rest h
      rw [bend_computed] at h
      cases h
      refine ⟨by simp, fun P hP => ?_⟩
      rw [he] at hP ⊢
      exact fits P (hP.imp_right And.right)) (fun _ => 506 / 1000) (fun i => by rw [he]; norm_num)
  have hw : weightOf (Option.getD (some 100) 5) = 254 := by decide
  simp only [hw, he] at h3
  have mem0 : Svg.cubic ⟨10, 0⟩ ⟨20, 0⟩ ⟨30, 10⟩ ⟨30, 30⟩ ∈ picture [bendDrawing] := by
    simp only [picture, bendDrawing, List.flatMap_cons, List.flatMap_nil, List.append_nil, moved, List.map_cons, List.map_nil]
    refine List.mem_cons.2 (.inl ?_)
    funext u
    ext <;> simp [Transform.identity]
  refine ⟨es, t, T, h1, h2, fun k hk => ?_, h5, ?_⟩
  · obtain ⟨τ, a1, a2, a3, τ', a4, a5⟩ := (h3 k hk).all _ mem0 (fun ht => by
      have := ht 0 1 le_rfl zero_le_one zero_le_one le_rfl .x
      norm_num [coord, Svg.cubic, Svg.quadratic, Svg.line] at this) (1 / 2) (by norm_num) (by norm_num)
    refine ⟨τ, a1, a2, a3, τ', a4, ?_, ?_⟩
    · have := a5 .x
      have h2 : |((posAt .x es τ' - 1900 : ℤ) : ℝ)| < 7 := by
        push_cast
        refine lt_of_le_of_lt (le_of_eq ?_) (lt_of_le_of_lt this ?_)
        · congr 2; norm_num [coord, Svg.cubic, Svg.quadratic, Svg.line]
        · push_cast; linarith
      have : |posAt .x es τ' - 1900| < 7 := by exact_mod_cast h2
      omega
    · have := a5 .y
      have h2 : |((posAt .y es τ' - 600 : ℤ) : ℝ)| < 7 := by
        push_cast
        refine lt_of_le_of_lt (le_of_eq ?_) (lt_of_le_of_lt this ?_)
        · congr 2; norm_num [coord, Svg.cubic, Svg.quadratic, Svg.line]
        · push_cast; linarith
      have : |posAt .y es τ' - 600| < 7 := by exact_mod_cast h2
      omega
  · refine ⟨quickPort (String.ofList ("17\n".toList ++ (List.replicate es.length 0).flatMap answers)), ?_⟩
    refine h6 _ ['1', '7'] 17 (List.replicate es.length 0) _ (by simp) (by decide) (by decide)
      (by decide) (delivers_quick _ _ 0 ?_) (fun _ => rfl)
    intro i hi
    simp only [quickPort, String.toList_ofList, Nat.zero_add]
    have : "17\n".toList ++ (List.replicate es.length 0).flatMap answers =
        ['1', '7'] ++ '\n' :: (List.replicate es.length 0).flatMap answers := rfl
    rw [this, List.getElem?_eq_getElem hi]

end StepperPaths.Props
