import Verif.Proof.RoundedLine
import Verif.Proof.DrawReturns

/-! Curves with rounding: `draw_curve` returns, and a line is smooth. -/

namespace StepperPaths.Rounded
open Coords Curves Context IntegerCurve Spec Props Draw

/-- One pass: it returns, and the limits still hold. -/
theorem approxPass_ok (fl : ℝ → ℝ) (e : Env) (start : Vec) (curve : Curve) (v p : ℝ) {s : Approx}
    (h : InStep s.ctx) (hv : ∀ i, |(s.ctx.channels i).v| ≤ s.ctx.vMax i)
    (hm : ∀ i, s.ctx.vMax i ≤ 2147450879) :
    ∃ s', approxPass fl e start curve v p s = some s' ∧ InStep s'.ctx ∧
      (∀ i, |(s'.ctx.channels i).v| ≤ s'.ctx.vMax i) ∧ s'.ctx.vMax = s.ctx.vMax ∧
      s'.ctx.aMax = s.ctx.aMax := by
  have key : ∃ s', approxPass fl e start curve v p s = some s' := by
    unfold approxPass
    simp only
    generalize hax : wantedAcc fl (s.ctx.channels .x) _ _ _ _ = ax
    generalize hay : wantedAcc fl (s.ctx.channels .y) _ _ _ _ = ay
    have bx : -32768 ≤ ax ∧ ax ≤ 32767 := by rw [← hax]; exact (satI16_abs _).2
    have yb : -32768 ≤ ay ∧ ay ≤ 32767 := by rw [← hay]; exact (satI16_abs _).2
    obtain ⟨a, ha⟩ := limitSpeed_ok (hv .x) (hm .x) bx.1 bx.2
    obtain ⟨b, hb⟩ := limitSpeed_ok (hv .y) (hm .y) yb.1 yb.2
    obtain ⟨x1, x2, -⟩ := limitSpeed_spec (hv .x) bx.1 bx.2 ha
    obtain ⟨y1, y2, -⟩ := limitSpeed_spec (hv .y) yb.1 yb.2 hb
    have hmx := hm .x
    have hmy := hm .y
    obtain ⟨c', hc⟩ := addAcc_ok (ax := a) (ay := b) h
      ⟨x2.trans (by rw [abs_le]; omega), by omega⟩ ⟨y2.trans (by rw [abs_le]; omega), by omega⟩
    unfold Ctx.approxTick
    rw [ha, hb]
    simp only [Option.bind_eq_bind, Option.bind_some, hc]
    exact ⟨_, rfl⟩
  obtain ⟨s', hs⟩ := key
  obtain ⟨hc, -, -⟩ := approxPass_eq hs
  obtain ⟨a, b, ha, hb, hc⟩ := approxTick_eq hc
  obtain ⟨x1, -, -⟩ := limitSpeed_spec (hv .x) (satI16_abs _).2.1 (satI16_abs _).2.2 ha
  obtain ⟨y1, -, -⟩ := limitSpeed_spec (hv .y) (satI16_abs _).2.1 (satI16_abs _).2.2 hb
  obtain ⟨M, -⟩ := addAccInterval_spec h.near (by norm_num) hc
  refine ⟨s', hs, addAcc_inStep h hc, fun i => ?_, M.vMax, M.aMax⟩
  rw [M.vMax, M.ch i]
  cases i
  · simpa [endVel, both] using x1
  · simpa [endVel, both] using y1

theorem approxLoop_ok (fl : ℝ → ℝ) (e : Env) (start : Vec) (curve : Curve) (v len : ℝ) (t n : ℕ) {s : Approx}
    (h : InStep s.ctx) (hv : ∀ i, |(s.ctx.channels i).v| ≤ s.ctx.vMax i)
    (hm : ∀ i, s.ctx.vMax i ≤ 2147450879) :
    ∃ s', approxLoop fl e start curve v len t n s = some s' := by
  induction n generalizing t s with
  | zero => exact ⟨s, rfl⟩
  | succ n ih =>
    obtain ⟨s1, e1, h1, v1, m1, a1⟩ := approxPass_ok fl e start curve v (fl (t * len)) h hv hm
    obtain ⟨s2, e2⟩ := ih (t + 1) h1 v1 (by rw [m1]; exact hm)
    refine ⟨s2, ?_⟩
    simp only [approxLoop, e1, Option.bind_eq_bind, Option.bind_some, e2]

theorem approxCurve_ok (fl : ℝ → ℝ) {aMax vMax : Axis → ℤ} {c : Ctx} (e : Env) (start : Vec) (curve : Curve) (v : ℝ)
    (h : Sync aMax vMax c) (hv : ∀ i, |(c.channels i).v| ≤ vMax i) (hm : ∀ i, vMax i ≤ 2147450879) :
    ∃ c' err, approxCurve fl e c start curve v = some (c', err) := by
  obtain ⟨hn, hxy, hle⟩ := h.inv
  obtain ⟨-, -, ea, ev, -⟩ := h.reach.inv
  obtain ⟨s, hs⟩ := approxLoop_ok fl e start curve v (fl (curve.length / Draw.round (fl (curve.length / v)))) 1
    (approxSteps fl curve v) (s := ⟨c, fun _ => 0, fun _ => 0⟩) ⟨hn, hxy, hle⟩ (by rw [ev]; exact hv)
    (by rw [ev]; exact hm)
  refine ⟨s.ctx, s.maxErr, ?_⟩
  unfold approxCurve
  simp only [hs, Option.bind_eq_bind, Option.bind_some]
  rfl

theorem toSteps_ok {fl : ℝ → ℝ} {e : Env} {x : ℝ} {i : Axis} (h : |fl (x * e.stepScale i)| ≤ 2 ^ 60) :
    toSteps fl e x i = some (Draw.round (fl (x * e.stepScale i))) := by
  have h1 : |Draw.round (fl (x * e.stepScale i))| ≤ 2 ^ 61 := by
    apply abs_round_le
    push_cast
    norm_num at *
    linarith
  rw [abs_le] at h1
  unfold toSteps
  rw [cassert_bind]
  exact ⟨by norm_num at *; omega, rfl⟩

theorem toStepV_ok {fl : ℝ → ℝ} {e : Env} {x : ℝ} {i : Axis} {n : ℤ} (hn : n < 2 ^ 30)
    (h : |fl (x * vScale fl e i)| + 1 / 2 ≤ n) :
    toStepV fl e x i = some (Draw.round (fl (x * vScale fl e i))) := by
  have h1 := abs_round_le h
  rw [abs_le] at h1
  unfold toStepV
  rw [cassert_bind]
  exact ⟨by norm_num at *; omega, rfl⟩

theorem drawCurve_ok {fl : ℝ → ℝ} {aMax vMax : Axis → ℤ} {e : Env} {c : Ctx} {start : Vec} {curve : Concat}
    {v : ℝ} (hM : Machine aMax vMax) (h : Sync aMax vMax c) (hne : curve ≠ [])
    (hc : ∀ i, |(c.channels i).v| ≤ vMax i)
    (hs : ∀ i, |fl (coord start i * e.stepScale i)| ≤ 2 ^ 60)
    (hd : ∀ i, |stepV fl e ((concatInfo fl e curve).value 0).2 v i| + 1 / 2 ≤ vMax i)
    (hf : ∀ i, |Draw.round (fl (coord start i * e.stepScale i)) - (c.channels i).pos| ≤ vMax i * 65535) :
    ∃ c' err, drawCurve fl e c start curve v = some (c', err) := by
  obtain ⟨hn, hxy, hle⟩ := h.inv
  have ht : c.ticks = some (c.channels .x).ticks := ticks_some.2 ⟨rfl, hxy.symm⟩
  obtain ⟨c1, h1⟩ : ∃ c1, c.addWeightChange c.moveWeight (c.channels .x).ticks = some c1 := by
    rw [← Option.ne_none_iff_exists', Ne, C29_panics_iff aMax vMax c h _ ht]
    omega
  obtain ⟨s1, ch1, p1, k1, m1, a1, w1⟩ := weight_now h h1
  have lim : ∀ i, InLimits (Draw.round (fl (coord start i * e.stepScale i)) - (c1.channels i).pos) (c1.channels i).v
      (Draw.round (stepV fl e ((concatInfo fl e curve).value 0).2 v i)) (aMax i) (vMax i) := by
    intro i
    have h0 := hM.v2 i
    rw [ch1]
    refine ⟨hM.a1 i, hM.v1 i, by norm_num at *; omega, hc i, abs_round_le (hd i), ?_⟩
    refine (hf i).trans ?_
    norm_num at *
    omega
  obtain ⟨c2, h2⟩ := C25_returns_in_time aMax vMax c1 s1 _ _ _ _ (lim .x) (lim .y) hM.a2 hM.v2 hM.r
    (by rw [ch1]; exact hf .x) (by rw [ch1]; exact hf .y)
  have s2 : Sync aMax vMax c2 := .step (op := .goto _ _ _ _) s1 trivial h2
  have ht2 : c2.ticks = some (c2.channels .x).ticks := ticks_some.2 ⟨rfl, s2.inv.2.1.symm⟩
  obtain ⟨c3, h3⟩ : ∃ c3, c2.addWeightChange c2.curveWeight (c2.channels .x).ticks = some c3 := by
    rw [← Option.ne_none_iff_exists', Ne, C29_panics_iff aMax vMax c2 s2 _ ht2]
    omega
  obtain ⟨s3, ch3, p3, k3, m3, a3, w3⟩ := weight_now s2 h3
  obtain ⟨ar, -⟩ := C25_arrives aMax vMax c1 c2 s1.reach _ _ _ _ (lim .x) (lim .y) h2
  have hv3 : ∀ i, |(c3.channels i).v| ≤ vMax i := by
    intro i
    rw [ch3]
    have e1 := congrArg Prod.fst ar
    have e2 := congrArg Prod.snd ar
    simp only [Ctx.velocity] at e1 e2
    cases i
    · rw [e1]; exact (lim .x).stop
    · rw [e2]; exact (lim .y).stop
  obtain ⟨c', err, h4⟩ := approxCurve_ok fl e start (concatInfo fl e curve) v s3 hv3
    (fun i => by have := hM.v2 i; norm_num at *; omega)
  refine ⟨c', err, ?_⟩
  unfold drawCurve
  rw [if_neg (by simpa using hne)]
  have g : gotoSpeed fl e c1 start.x start.y (vmul fl ((concatInfo fl e curve).value 0).2 v).x
      (vmul fl ((concatInfo fl e curve).value 0).2 v).y = some c2 := by
    unfold gotoSpeed
    rw [toSteps_ok (x := start.x) (hs .x), toSteps_ok (x := start.y) (hs .y),
      toStepV_ok (x := (vmul fl ((concatInfo fl e curve).value 0).2 v).x) (hM.v2 .x) (hd .x),
      toStepV_ok (x := (vmul fl ((concatInfo fl e curve).value 0).2 v).y) (hM.v2 .y) (hd .y)]
    exact h2
  simp only [h1, Option.bind_eq_bind, Option.bind_some, g, h3, h4]

/-! ### One line -/

/-- A line alone in a `ConcatCurve`. -/
theorem single_length {fl : ℝ → ℝ} (R : FloatRounding fl) (e : Env) (d : Vec) :
    (concatInfo fl e (concatAdd fl [] (line fl d))).length = vlength fl d := by
  simp only [concatInfo, concatAdd, Concat.totalLength, line, List.nil_append, List.getLast?_singleton,
    List.getLast?_nil]
  simp only [add_zero]
  exact R.idem _

theorem single_value {fl : ℝ → ℝ} (R : FloatRounding fl) (e : Env) {d : Vec} (hd : vlength fl d ≠ 0) (p : ℝ) :
    ((concatInfo fl e (concatAdd fl [] (line fl d))).value (fl p)).2 = vunit fl d ∧
    ∀ i, coord ((concatInfo fl e (concatAdd fl [] (line fl d))).value (fl p)).1 i =
      fl (coord (vunit fl d) i * fl p) := by
  have e1 : (concatInfo fl e (concatAdd fl [] (line fl d))).value (fl p) =
      (vadd fl (vmul fl (vunit fl d) (fl p)) ⟨0, 0⟩, vunit fl d) := by
    simp only [concatInfo, concatAdd, line, if_neg hd, List.nil_append, concatValue, List.length_singleton,
      one_ne_zero, if_false]
    simp [sub_zero, R.idem]
  rw [e1]
  refine ⟨rfl, fun i => ?_⟩
  cases i <;> simp [vadd, vmul, coord, R.idem]

theorem _root_.StepperPaths.Spec.FloatLine.count {fl : ℝ → ℝ} (R : FloatRounding fl) {e : Env} {s p : Vec} {v S : ℝ} {i : Axis} {aMax vMax : ℤ}
    (h : FloatLine e s p v S i aMax vMax) :
    Draw.round (fl (vlength fl (vsub fl p s) / v)) =
      approxSteps fl (concatInfo fl e (concatAdd fl [] (line fl (vsub fl p s)))) v ∧
    |(approxSteps fl (concatInfo fl e (concatAdd fl [] (line fl (vsub fl p s)))) v : ℝ) - (p - s).length / v| ≤
      1 / 2 + 1 / 2 ^ 18 ∧
    0 < approxSteps fl (concatInfo fl e (concatAdd fl [] (line fl (vsub fl p s)))) v ∧
    approxSteps fl (concatInfo fl e (concatAdd fl [] (line fl (vsub fl p s)))) v ≤ 2 ^ 31 := by
  have hc := count_near R h.pos h.tick h.ticks (line_near R h.long).1
  have q1 : 1 ≤ (p - s).length / v := (one_le_div h.pos).2 h.tick
  have q2 : (p - s).length / v ≤ 2 ^ 30 := by rw [div_le_iff₀ h.pos]; exact h.ticks
  set N := Draw.round (fl (vlength fl (vsub fl p s) / v)) with hN
  obtain ⟨a1, a2⟩ := abs_le.1 hc
  have h1 : (0 : ℝ) < N := by linarith
  have h2 : (N : ℝ) < 2 ^ 30 + 1 := by linarith
  have h1' : 0 < N := by exact_mod_cast h1
  have h2' : N < 2 ^ 30 + 1 := by exact_mod_cast h2
  have e1 : N = approxSteps fl (concatInfo fl e (concatAdd fl [] (line fl (vsub fl p s)))) v := by
    unfold approxSteps
    rw [single_length R, ← hN]
    unfold satI32
    rw [if_neg (by omega), if_neg (by omega)]
    omega
  refine ⟨e1, ?_, by omega, by omega⟩
  have : ((approxSteps fl (concatInfo fl e (concatAdd fl [] (line fl (vsub fl p s)))) v : ℤ) : ℝ) = N := by rw [e1]
  rw [Int.cast_natCast] at this
  rw [this]
  exact hc

theorem _root_.StepperPaths.Spec.FloatLine.points {fl : ℝ → ℝ} (R : FloatRounding fl) {e : Env} {s p : Vec} {v S : ℝ} {i : Axis} {aMax vMax : ℤ}
    (h : FloatLine e s p v S i aMax vMax) :
    (∀ k ≤ approxSteps fl (concatInfo fl e (concatAdd fl [] (line fl (vsub fl p s)))) v,
      |floatPos fl e s (concatInfo fl e (concatAdd fl [] (line fl (vsub fl p s)))) v i k -
        (coord s i + coord (p - s) i *
          (k / approxSteps fl (concatInfo fl e (concatAdd fl [] (line fl (vsub fl p s)))) v)) * e.stepScale i| ≤
        1 / 2 ^ 15) ∧
    ∀ k, floatVel fl e (concatInfo fl e (concatAdd fl [] (line fl (vsub fl p s)))) v i k =
        floatVel fl e (concatInfo fl e (concatAdd fl [] (line fl (vsub fl p s)))) v i 0 ∧
      |floatVel fl e (concatInfo fl e (concatAdd fl [] (line fl (vsub fl p s)))) v i k -
        coord (p - s) i / (p - s).length * v * e.stepScale i / 2| ≤ 1 / 2 ^ 16 := by
  obtain ⟨hN, -, hn0, hn⟩ := h.count R
  obtain ⟨hL, hu⟩ := line_near R h.long
  have hℓ0 : 0 < (p - s).length := lt_of_lt_of_le (by norm_num) h.long
  have hg0 : 0 < e.stepScale i := lt_of_lt_of_le (by norm_num) h.scale
  have hne : vlength fl (vsub fl p s) ≠ 0 := by
    have := (abs_le.1 hL).1
    have : 0 < vlength fl (vsub fl p s) := by linarith
    exact this.ne'
  have hw : |coord (p - s) i / (p - s).length| ≤ 1 := by
    rw [abs_div, abs_of_pos hℓ0, div_le_one hℓ0]
    exact le_length _ _
  constructor
  · intro k hk
    unfold floatPos
    rw [single_length R, (single_value R e hne _).2 i, hN, Int.cast_natCast]
    exact point_near R hk hn0 hn h.long (le_length _ _) hL (hu i) hg0 h.range (le_trans (by norm_num) h.scale)
  · intro k
    have e1 : ∀ k, floatVel fl e (concatInfo fl e (concatAdd fl [] (line fl (vsub fl p s)))) v i k =
        fl (fl (coord (vunit fl (vsub fl p s)) i * v) * fl (e.stepScale i / 2)) := by
      intro k
      unfold floatVel
      rw [(single_value R e hne _).1]
    refine ⟨by rw [e1, e1], ?_⟩
    rw [e1]
    refine speed_near R (hu i) hw ?_ (le_trans (by norm_num) h.scale) ?_
    · have h1 := h.long.trans h.ticks
      have : (1 : ℝ) / 2 ^ 40 / 2 ^ 30 ≤ v := by rw [div_le_iff₀ (by norm_num)]; linarith
      exact le_trans (by norm_num) this
    · have h1 := h.range
      have h2 : v * e.stepScale i ≤ ((p - s).length + |coord s i|) * e.stepScale i := by
        apply mul_le_mul_of_nonneg_right _ hg0.le
        have := h.tick
        have := abs_nonneg (coord s i)
        linarith
      exact h2.trans h1

theorem _root_.StepperPaths.Spec.FloatLine.smooth {fl : ℝ → ℝ} (R : FloatRounding fl) {e : Env} {s p : Vec} {v S : ℝ} {i : Axis} {aMax vMax : ℤ}
    (h : FloatLine e s p v S i aMax vMax) :
    FloatSmooth (floatPos fl e s (concatInfo fl e (concatAdd fl [] (line fl (vsub fl p s)))) v i)
      (floatVel fl e (concatInfo fl e (concatAdd fl [] (line fl (vsub fl p s)))) v i)
      (approxSteps fl (concatInfo fl e (concatAdd fl [] (line fl (vsub fl p s)))) v) aMax vMax S := by
  obtain ⟨-, hN, hn0, hn⟩ := h.count R
  obtain ⟨hP, hV⟩ := h.points R
  set P := floatPos fl e s (concatInfo fl e (concatAdd fl [] (line fl (vsub fl p s)))) v i with hPdef
  set V := floatVel fl e (concatInfo fl e (concatAdd fl [] (line fl (vsub fl p s)))) v i with hVdef
  set n := approxSteps fl (concatInfo fl e (concatAdd fl [] (line fl (vsub fl p s)))) v with hndef
  have hℓ0 : 0 < (p - s).length := lt_of_lt_of_le (by norm_num) h.long
  have hg0 : 0 < e.stepScale i := lt_of_lt_of_le (by norm_num) h.scale
  have hD := le_length (p - s) i
  have hrange := h.range
  have htick := h.tick
  have hslow := h.slow
  have hspeed := h.speed
  have hv0 := h.pos
  have hone := h.one
  set ℓ := (p - s).length with hℓ
  set D := coord (p - s) i with hDdef
  set g := e.stepScale i with hg
  have hn0' : (0 : ℝ) < n := by exact_mod_cast hn0
  have q1 : 1 ≤ ℓ / v := (one_le_div hv0).2 htick
  obtain ⟨n1, n2⟩ := abs_le.1 hN
  refine ⟨hone, h.big, h.acc, ?_, ?_, ?_, ?_⟩
  · intro k hk
    have h1 := hP (k + 1) hk
    have fr0 : (0 : ℝ) ≤ ((k + 1 : ℕ) : ℝ) / n := by positivity
    have fr1 : ((k + 1 : ℕ) : ℝ) / n ≤ 1 := by
      rw [div_le_one hn0']
      exact_mod_cast hk
    have h2 : |(coord s i + D * (((k + 1 : ℕ) : ℝ) / n)) * g| ≤ 2 ^ 31 := by
      rw [abs_mul, abs_of_pos hg0]
      refine le_trans (mul_le_mul_of_nonneg_right ?_ hg0.le) hrange
      refine (abs_add_le _ _).trans ?_
      rw [abs_mul, abs_of_nonneg fr0]
      have := mul_le_mul hD fr1 fr0 hℓ0.le
      linarith
    obtain ⟨a1, a2⟩ := abs_le.1 h1
    obtain ⟨b1, b2⟩ := abs_le.1 h2
    rw [abs_le]
    constructor <;> linarith
  · intro k hk
    have h1 := hP (k + 1) hk
    have h2 := hP k hk.le
    have h3 := (hV k).2
    have h4 : |(coord s i + D * (((k + 1 : ℕ) : ℝ) / n)) * g - (coord s i + D * ((k : ℝ) / n)) * g -
        2 * (D / ℓ * v * g / 2)| ≤ 49 / 100 * S := by
      have e1 : (coord s i + D * (((k + 1 : ℕ) : ℝ) / n)) * g - (coord s i + D * ((k : ℝ) / n)) * g -
          2 * (D / ℓ * v * g / 2) = D / ℓ * (v * g / n) * (ℓ / v - n) := by
        push_cast
        field_simp
        ring
      rw [e1, abs_mul, abs_mul, abs_sub_comm (ℓ / v)]
      have hw : |D / ℓ| ≤ 1 := by
        rw [abs_div, abs_of_pos hℓ0, div_le_one hℓ0]
        exact hD
      rw [abs_of_pos (a := v * g / n) (by positivity)]
      have h5 : v * g / n ≤ 9 / 10 * S := by
        rw [div_le_iff₀ hn0']
        have h6 : v * g ≤ 2 / 5 * S * (ℓ / v) := by
          rw [mul_div_assoc', le_div_iff₀ hv0]
          linarith [mul_comm (v * g) v, show v * (v * g) = v ^ 2 * g by ring]
        have h7 : ℓ / v ≤ 9 / 4 * n := by linarith
        have h8 : 2 / 5 * S * (ℓ / v) ≤ 2 / 5 * S * (9 / 4 * n) := by
          apply mul_le_mul_of_nonneg_left h7
          linarith
        linarith
      have h9 : |D / ℓ| * (v * g / n) ≤ 1 * (9 / 10 * S) :=
        mul_le_mul hw h5 (by positivity) (by norm_num)
      have := mul_le_mul h9 hN (abs_nonneg _) (by linarith)
      refine this.trans ?_
      linarith
    obtain ⟨a1, a2⟩ := abs_le.1 h1
    obtain ⟨b1, b2⟩ := abs_le.1 h2
    obtain ⟨c1, c2⟩ := abs_le.1 h3
    obtain ⟨d1, d2⟩ := abs_le.1 h4
    rw [abs_le]
    constructor <;> linarith
  · intro k _
    rw [(hV (k + 1)).1, (hV k).1, sub_self, abs_zero]
    linarith
  · intro k _
    have h3 := (hV (k + 1)).2
    have h4 : |D / ℓ * v * g / 2| ≤ v * g / 2 := by
      rw [show D / ℓ * v * g / 2 = D / ℓ * (v * g / 2) by ring, abs_mul, abs_of_pos (a := v * g / 2) (by positivity)]
      have hw : |D / ℓ| ≤ 1 := by
        rw [abs_div, abs_of_pos hℓ0, div_le_one hℓ0]
        exact hD
      exact (mul_le_mul_of_nonneg_right hw (by positivity)).trans (by rw [one_mul])
    obtain ⟨c1, c2⟩ := abs_le.1 h3
    obtain ⟨d1, d2⟩ := abs_le.1 h4
    have : |V (k + 1)| ≤ v * g / 2 + 1 / 2 ^ 16 := by rw [abs_le]; constructor <;> linarith
    linarith

end StepperPaths.Rounded
