import Verif.Proof.Backwards
import Verif.Props.RoundedProgram

/-! Strokes that leave no mark (C110). -/

namespace StepperPaths.Props
open StepperPaths Coords Curves Context IntegerCurve Draw Spec Rounded Program Config Control StepperPaths.Svg

/-- Rounding to the nearest `f64` does not change the sign. -/
theorem double_nonneg (x : ℝ) (h : 0 ≤ x) : 0 ≤ double x := by
  have key : ∀ y : ℝ, 0 ≤ y → 0 ≤ nearestEven y := by
    intro y hy
    have h2 : 0 ≤ ⌊y⌋ := Int.floor_nonneg.2 hy
    have h3 : 0 ≤ ⌊y + 1 / 2⌋ := Int.floor_nonneg.2 (by linarith)
    unfold nearestEven
    split <;> omega
  unfold double
  exact mul_nonneg (by exact_mod_cast key _ (by positivity)) (by positivity)

/-- C110: when every stroke is shorter than half of the way of one tick, or the speed is less than
zero, `draw_curves` burns nothing: the laser is off all the time. -/
theorem C110_dark (fl : ℝ → ℝ) (aMax vMax : Axis → ℤ) (e : Rounded.Env) (c c' : Ctx) (h : Sync aMax vMax c)
    (segs : List Seg) (hne : segs ≠ []) (v : ℝ) (err : Axis → ℤ)
    (hr : Rounded.drawCurves fl e c segs v = some (c', err)) (t : ℕ) (ht : c.ticks = some t)
    (hs : ∀ s, Rounded.drawPen fl e c segs v = some s → ∀ st ∈ s.drawn, st.2 ≠ [] →
      fl (Concat.totalLength st.2 / v) < 1 / 2) (w : ℤ) (τ : ℕ) (hτ : t ≤ τ) :
    weightAt w c'.events τ = 0 := by
  have et : (c.channels .x).ticks = t := (ticks_some.1 ht).1
  refine (draw_dark (t := t) h ⟨et.ge, fun w τ q1 q2 => by omega⟩ hr fun s q1 st q2 q3 => ?_).2.2 hne w τ hτ
  exact steps_zero.2 (hs s q1 st q2 q3)

/-- C110: with a speed less than zero nothing is burnt, whatever the segments are. -/
theorem C110_negative (fl : ℝ → ℝ) (R : FloatRounding fl) (hpos : ∀ x, 0 ≤ x → 0 ≤ fl x) (aMax vMax : Axis → ℤ)
    (e : Rounded.Env) (c c' : Ctx) (h : Sync aMax vMax c) (segs : List Seg) (hne : segs ≠ []) (v : ℝ) (hv : v < 0)
    (hl : ∀ seg ∈ segs, ∀ p info next, e.other p seg = some (info, next) → 0 ≤ info.length) (err : Axis → ℤ)
    (hr : Rounded.drawCurves fl e c segs v = some (c', err)) (t : ℕ) (ht : c.ticks = some t) (w : ℤ) (τ : ℕ) (hτ : t ≤ τ) :
    weightAt w c'.events τ = 0 := by
  refine C110_dark fl aMax vMax e c c' h segs hne v err hr t ht (fun s hs st hst _ => ?_) w τ hτ
  have := finish_length hpos hl (s := Rounded.init fl e c) hs (by simp [Rounded.init, Concat.totalLength])
    (by simp [Rounded.init]) st hst
  exact small_of_nonpos R (div_nonpos_of_nonneg_of_nonpos this hv.le)

/-- C110: with a speed within the limits, something is burnt exactly if one of the strokes is at least
half as long as the way of one tick. -/
theorem C110_mark (fl : ℝ → ℝ) (R : FloatRounding fl) (aMax vMax : Axis → ℤ) (e : Rounded.Env) (c c' : Ctx)
    (h : Sync aMax vMax c) (ha : ∀ i, 1 ≤ aMax i) (hv : ∀ i, 1 ≤ vMax i ∧ vMax i ≤ 2 ^ 59)
    (hc : ∀ i, |(c.channels i).v| ≤ vMax i) (segs : List Seg) (hne : segs ≠ []) (v : ℝ) (err : Axis → ℤ)
    (hr : Rounded.drawCurves fl e c segs v = some (c', err)) (t t' : ℕ) (ht : c.ticks = some t)
    (ht' : c'.ticks = some t') (hw : c.curveWeight ≠ 0)
    (hp : ∀ i, |(c.channels i).pos| + 2 * vMax i * (t' - t : ℤ) ≤ 2 ^ 61)
    (hst : ∀ s, Rounded.drawPen fl e c segs v = some s → ∀ st ∈ s.drawn, st.2 ≠ [] →
      ∀ i, |fl (coord st.1 i * e.stepScale i)| ≤ 2 ^ 60 ∧
        |floatVel fl e (Rounded.concatInfo fl e st.2) v i 0| + 1 / 2 ≤ vMax i) :
    (∃ w τ, t ≤ τ ∧ weightAt w c'.events τ ≠ 0) ↔
      ∃ s, Rounded.drawPen fl e c segs v = some s ∧ ∃ st ∈ s.drawn, st.2 ≠ [] ∧ 1 / 2 ≤ fl (Concat.totalLength st.2 / v) := by
  obtain ⟨s, h1, h2, -⟩ := C90_timeline fl R aMax vMax e c c' h ha hv hc segs hne v err hr t t' ht ht' hp hst
  constructor
  · rintro ⟨w, τ, q1, q2⟩
    refine ⟨s, h1, ?_⟩
    by_contra hno
    push Not at hno
    refine q2 (C110_dark fl aMax vMax e c c' h segs hne v err hr t ht (fun s' hs' st hst' hn => ?_) w τ q1)
    rw [h1] at hs'
    cases hs'
    exact hno st hst' hn
  · rintro ⟨s', h1', st, q1, q2, q3⟩
    rw [h1] at h1'
    cases h1'
    have mem : st ∈ strokes s.drawn := List.mem_filter.2 ⟨q1, by simpa using q2⟩
    have key : ∀ t0 ss T, FloatTimeline fl e v c.curveWeight aMax vMax c'.events err t0 ss T → st ∈ ss →
        ∃ w τ, t0 ≤ τ ∧ weightAt w c'.events τ ≠ 0 := by
      intro t0 ss T htl
      induction htl with
      | nil => simp
      | @cons t0 a b T s0 ss hs0 _ ih =>
        intro hm
        have hab : a ≤ b := by rw [hs0.len]; omega
        rcases List.mem_cons.1 hm with rfl | hm
        · have hk : approxSteps fl (concatInfo fl e st.2) v ≠ 0 := fun hk => absurd (steps_zero.1 hk) (not_lt.2 q3)
          exact ⟨0, a, hs0.move.le, by rw [hs0.on 0 a le_rfl (by rw [hs0.len]; omega)]; exact hw⟩
        · obtain ⟨w, τ, g1, g2⟩ := ih hm
          exact ⟨w, τ, by have := hs0.move; omega, g2⟩
    exact key _ _ _ h2 mem

/-- C110 (finding): the program `svg_path` accepts a drawing speed less than zero.  Whatever the document
and the other options are, when it ends normally the controller has accepted events with which the
laser is off all the time. -/
theorem C110_program (fl : ℝ → ℝ) (R : FloatRounding fl) (hpos : ∀ x, 0 ≤ x → 0 ≤ fl x) (lib : Lib) (cfg : Xy) (o : Options)
    (layer : Option (List Char)) (e : Rounded.Env) (doc : List XmlEvent) (hv : drawSpeedF fl cfg o.drawSpeed < 0)
    (hl : ∀ path, parseDocumentF fl lib (keepOf layer) .identity doc = some (.ok path) →
      ∀ seg ∈ path, ∀ p info next, e.other p seg = some (info, next) → 0 ≤ info.length)
    (port port' : Port) (hr : svgProgramF fl lib cfg o layer e doc port = some (some port')) :
    ∃ (es : List Event) (r0 : List Char) (t0 : ℤ) (rs : List Round), (∀ w τ, weightAt w es τ = 0) ∧ readInt r0 = some t0 ∧
      (accepted rs).map decodeLine = (Spec.absolute (t0 + 128) es).map some ∧
      port'.log = port.log ++ ((['T'], r0) :: rs).flatMap Round.acts := by
  unfold svgProgramF at hr
  simp only at hr
  split at hr
  · simp at hr
  · split at hr
    · next path hd =>
      obtain ⟨c', h1, hr⟩ := Option.bind_eq_some_iff.1 hr
      obtain ⟨-, -, hr⟩ := Option.bind_eq_some_iff.1 hr
      obtain ⟨⟨r, q⟩, h2, hr⟩ := Option.bind_eq_some_iff.1 hr
      cases r with
      | error _ => simp at hr
      | ok _ =>
        simp at hr
        cases hr
        obtain ⟨r0, t0, rs, k1, k2, k3⟩ := C35_accepted _ _ _ h2
        refine ⟨c'.events, r0, t0, rs, ?_, k1, k2, k3⟩
        unfold svgEventsF at h1
        obtain ⟨c1, g1, h1⟩ := Option.bind_eq_some_iff.1 h1
        obtain ⟨c2, g2, h1⟩ := Option.bind_eq_some_iff.1 h1
        obtain ⟨_, -, g3⟩ := Option.bind_eq_some_iff.1 h1
        have y0 := Sync.step (op := .setWeight (weightOf (o.intensity.getD 5)))
          (.new (aMax := svgALimitF fl cfg o.aMax) (vMax := vLimitF fl cfg o.vMax)) trivial rfl
        obtain ⟨y1, d1⟩ := times_dark (t := 0) (fun c s hs st hst _ => by
          have := finish_length hpos (e := { e with stepScale := fun i => (cfg.stepper i).stepsPerMillimeter }) (hl path hd)
            (s := Rounded.init fl _ c) hs (by simp [Rounded.init, Concat.totalLength])
            (by simp [Rounded.init]) st hst
          exact steps_zero.2 (small_of_nonpos R (div_nonpos_of_nonneg_of_nonpos this hv.le))) _ y0
          ⟨Nat.zero_le _, fun w τ _ q => by simp [Ctx.setWeight, Ctx.new] at q⟩ g1
        have y2 : Sync _ _ c2 := .step (op := .goto 0 0 0 0) y1 trivial g2
        intro w τ
        obtain ⟨a1, a2⟩ := C28_goto_weight _ _ _ _ y1.reach _ _ _ _ g2 _ (ticks_of_sync y1) w τ
        obtain ⟨b1, b2, -⟩ := C28_end_of_events _ _ _ _ y2.reach g3 _ (ticks_of_sync y2) w τ
        rcases lt_or_ge τ (c2.channels .x).ticks with q | q
        · rw [(b2 q).1]
          rcases lt_or_ge τ (c1.channels .x).ticks with q' | q'
          · rw [a1 q', d1.2 w τ (Nat.zero_le _) q']
          · exact a2 q'
        · exact (b1 q).1
    · simp at hr

/-- C110: a speed less than zero on the command line is one per tick. -/
theorem C110_speed (fl : ℝ → ℝ) (R : FloatRounding fl) (cfg : Xy) (s : ℝ) (h : s / cfg.ticksPerSecond ≤ -(1 / 2 ^ 200)) :
    drawSpeedF fl cfg (some s) < 0 := by
  have h1 := (abs_le.1 (R.near (s / cfg.ticksPerSecond))).2
  have hp : (0 : ℝ) < 1 / 2 ^ 200 := by positivity
  have hn : s / cfg.ticksPerSecond ≤ 0 := by linarith
  rw [abs_of_nonpos hn] at h1
  have h2 : (2⁻¹ : ℝ) ^ 53 ≤ 1 / 4 := by norm_num
  have h3 : (2⁻¹ : ℝ) ^ 1075 ≤ 1 / 2 ^ 200 * (1 / 4) := by
    rw [show (2⁻¹ : ℝ) ^ 1075 = 2⁻¹ ^ 200 * 2⁻¹ ^ 875 by rw [← pow_add], inv_pow (2 : ℝ) 200, one_div]
    exact mul_le_mul_of_nonneg_left ((pow_le_pow_of_le_one (by norm_num) (by norm_num) (by norm_num : 2 ≤ 875)).trans
      (by norm_num)) (by positivity)
  have h4 := mul_le_mul_of_nonneg_right h2 (neg_nonneg.2 hn)
  unfold drawSpeedF
  simp only [Option.getD_some]
  generalize (2⁻¹ : ℝ) ^ 53 * -(s / cfg.ticksPerSecond) = a at *
  generalize (2⁻¹ : ℝ) ^ 1075 = b at *
  generalize (1 : ℝ) / 2 ^ 200 = d at *
  linarith

/-- `--draw-speed=-20` with 128 ticks per second. -/
example (steppers : Axis → Stepper) : drawSpeedF double ⟨128, steppers⟩ (some (-20)) < 0 := by
  refine C110_speed double C90_double _ _ ?_
  have : (1 : ℝ) / 2 ^ 200 ≤ 1 / 2 ^ 10 := one_div_le_one_div_of_le (by norm_num) (pow_le_pow_right₀ (by norm_num) (by norm_num))
  norm_num only at this ⊢

/-- The machine of the example. -/
noncomputable def backEnv : Rounded.Env := ⟨fun _ => 1, fun _ _ => 0, fun _ _ => none⟩

/-- A line 100 mm long at -4 mm per tick: the machine is asked to move, and nothing is drawn. -/
theorem back_line {C : Ctx} (S : Sync (fun _ => 10) (fun _ => 100) C) (hp : ∀ j, (C.channels j).pos = 0)
    (hv : ∀ j, (C.channels j).v = 0) :
    ∃ c' err, Rounded.drawCurves double backEnv C [.lineTo ⟨100, 0⟩] (-4) = some (c', err) := by
  have i : ∀ n : ℤ, |n| ≤ 2 ^ 53 → double n = n := C90_double.int
  have z : double 0 = 0 := by simpa using i 0 (by norm_num)
  have o : double 1 = 1 := by simpa using i 1 (by norm_num)
  have n100 : double 100 = 100 := by simpa using i 100 (by norm_num)
  have n10000 : double 10000 = 10000 := by simpa using i 10000 (by norm_num)
  have m4 : double (-4) = -4 := by simpa using i (-4) (by norm_num)
  have m2 : double (-2) = -2 := by simpa using i (-2) (by norm_num)
  have hf : double (1 / 2) = 1 / 2 := by
    have := double_exact (k := 1) (j := -1) (by norm_num) (by norm_num)
    norm_num at this ⊢
    exact this
  have sq : √(10000 : ℝ) = 100 := by
    rw [show (10000 : ℝ) = 100 ^ 2 by norm_num]
    exact Real.sqrt_sq (by norm_num)
  have hlen : vlength double ⟨100, 0⟩ = 100 := by
    simp only [vlength, mul_zero, z, add_zero]
    rw [show (100 : ℝ) * 100 = 10000 by norm_num, n10000, n10000, sq, n100]
  have hu : vunit double ⟨100, 0⟩ = ⟨1, 0⟩ := by
    simp [vunit, hlen, o, z]
  have hdir : ((concatInfo double backEnv (concatAdd double [] (line double ⟨100, 0⟩))).value 0).2 = ⟨1, 0⟩ := by
    have := (single_value C90_double backEnv (d := ⟨100, 0⟩) (by rw [hlen]; norm_num) 0).1
    rw [z, hu] at this
    exact this
  have M : Machine (fun _ => 10) (fun _ => 100) := ⟨by norm_num, by norm_num, by norm_num, by norm_num, by norm_num⟩
  obtain ⟨c1, err, h1⟩ := drawCurve_ok (fl := double) (e := backEnv) (start := ⟨0, 0⟩) (v := -4) M S
    (curve := concatAdd double [] (line double ⟨100, 0⟩)) (by simp [concatAdd])
    (by simp [hv]) (by intro j; cases j <;> simp [coord, z]) (by
      intro j
      rw [hdir]
      cases j <;> simp [stepV, Rounded.vScale, coord, backEnv, m4, z]
      · rw [show (2⁻¹ : ℝ) = 1 / 2 by norm_num, hf, show (-(4 * (1 / 2)) : ℝ) = -2 by norm_num, m2]
        norm_num
      · norm_num) (by
      intro j
      cases j <;> simp [coord, z, hp, Draw.round] <;> norm_num)
  have S1 := (Rounded.drawCurve_past S h1).1
  obtain ⟨c2, h2⟩ : ∃ c2, c1.addWeightChange c1.moveWeight (c1.channels .x).ticks = some c2 := by
    rw [← Option.ne_none_iff_exists', Ne, C29_panics_iff _ _ c1 S1 _ (ticks_of_sync S1)]
    omega
  have c0 : coordFromSteps double backEnv 0 = fun _ => 0 := by
    funext j
    simp [coordFromSteps, backEnv, z]
  have p0 : Rounded.init double backEnv C = ⟨C, fun _ => 0, ⟨0, 0⟩, ⟨0, 0⟩, none, [], [], []⟩ := by
    simp [Rounded.init, hp, c0]
  refine ⟨c2, fun i => accMax 0 (err i), ?_⟩
  simp only [Rounded.drawCurves, Rounded.drawPen, p0, Rounded.run, Rounded.step, Rounded.segInfo, Rounded.add, Rounded.turns,
    Rounded.flush, Rounded.vsub, sub_zero, n100, z, reduceCtorEq, false_and, exists_false, if_false, List.isEmpty_cons,
    Option.bind_eq_bind, Option.bind_some, Option.pure_def, h1, h2, Bool.false_eq_true]

example : ∃ c' err, Rounded.drawCurves double backEnv
    ((Ctx.new (fun _ => 10) (fun _ => 100)).setWeight 254) [.lineTo ⟨100, 0⟩] (-4) = some (c', err) ∧
    ∀ w τ, weightAt w c'.events τ = 0 := by
  have S : Sync (fun _ => 10) (fun _ => 100) ((Ctx.new (fun _ => 10) (fun _ => 100)).setWeight 254) :=
    .step (op := .setWeight 254) .new trivial rfl
  obtain ⟨c', err, h⟩ := back_line S (fun _ => rfl) (fun _ => rfl)
  exact ⟨c', err, h, fun w τ => C110_negative double C90_double double_nonneg _ _ backEnv _ c' S _ (by simp) (-4)
    (by norm_num) (by simp [backEnv]) err h 0 rfl w τ (Nat.zero_le _)⟩

end StepperPaths.Props
