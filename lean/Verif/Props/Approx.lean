import Verif.Proof.Draw

/-! Properties of `approx_curve` (C32, C62, C63). -/

namespace StepperPaths.Props
open StepperPaths Coords Curves Context IntegerCurve Draw Spec

/-- `approx_curve` needs a state where the axes can move, or it does nothing. -/
theorem approx_near {aMax vMax : Axis → ℤ} {e : Env} {c c' : Ctx} {start : Vec} {curve : Curve} {v : ℝ}
    {err : Axis → ℤ} (h : Reach aMax vMax c) (hr : approxCurve e c start curve v = some (c', err))
    (hk : 0 < approxSteps curve v) : Near c := by
  obtain ⟨hti, -⟩ := h.inv
  rcases hti with hn | hfu
  · exact hn
  · unfold approxCurve at hr
    obtain ⟨s, hs, -⟩ := Option.bind_eq_some_iff.1 hr
    obtain ⟨r, -, hc⟩ := approxLoop_request hs
    rw [(future_blocks hfu).2.2.2.1 r 1 _ hk] at hc
    cases hc

/-! ### C32 -/

/-- C32: while a curve is followed, the acceleration during the tick number `k` (counted from
0) is at most `a_max·(1 + (k+1)/20)`, rounded: the integral of the position error, which is not
bounded, comes on top of `a_max`. -/
theorem C32_bound (aMax vMax : Axis → ℤ) (e : Env) (c c' : Ctx) (start : Vec) (curve : Curve) (v : ℝ)
    (err : Axis → ℤ) (h : Reach aMax vMax c) (ha : ∀ i, 0 ≤ aMax i)
    (hv : ∀ i, |(c.channels i).v| ≤ vMax i)
    (hr : approxCurve e c start curve v = some (c', err)) (i : Axis) (k : ℕ)
    (hk : k < approxSteps curve v) :
    |(accAt i c'.events ((c.channels i).ticks + k) : ℝ)| ≤
      (aMax i : ℝ) * (1 + ((k : ℝ) + 1) / 20) + 1 / 2 := by
  have hn := approx_near h hr (by omega)
  obtain ⟨-, -, ea, ev, -⟩ := h.inv
  unfold approxCurve at hr
  obtain ⟨s, hs, hr⟩ := Option.bind_eq_some_iff.1 hr
  cases hr
  obtain ⟨l, M, hl, hb, -⟩ := approxLoop_spec hn le_rfl (by rw [ea]; exact ha) (by rw [ev]; exact hv)
    (by simp) hs
  have := hb i k (by rw [hl]; exact hk)
  rw [M.accAt i (by rw [hl]; exact hk), ← ea]
  refine this.trans (le_of_eq ?_)
  push_cast
  ring

/-- The acceleration when all errors are at their limits. -/
noncomputable def saturated (a : ℤ) (t : ℕ) : ℤ := Draw.round ((a : ℝ) * (1 + (t : ℝ) / 20))

theorem round_of {x : ℝ} {lo hi : ℤ} (h1 : (lo : ℝ) ≤ x) (h2 : x + 1 / 2 ≤ hi) :
    lo ≤ Draw.round x ∧ Draw.round x ≤ hi := by
  have := Draw.round_near x
  rw [abs_le] at this
  constructor
  · have h : (lo : ℝ) < Draw.round x + 1 := by linarith
    have : lo < Draw.round x + 1 := by exact_mod_cast h
    omega
  · have h : (Draw.round x : ℝ) ≤ hi := by linarith
    exact_mod_cast h

/-- A scale of one step per unit. -/
noncomputable def unitEnv : Env := ⟨fun _ => 1, fun _ => 1, fun _ _ => 0, fun _ _ => 0⟩

/-- A very fast horizontal line. -/
noncomputable def rush (n : ℕ) : Curve := (Line.new ⟨n * 1000000000000000000, 0⟩).info

theorem rush_length (n : ℕ) : (rush n).length = n * 1000000000000000000 := by
  rw [rush, (C43_line _).2.2]
  simp only [Vec.length, mul_zero, add_zero]
  exact Real.sqrt_mul_self (by positivity)

theorem rush_value (n : ℕ) (hn : 1 ≤ n) (p : ℝ) : (rush n).value p = (⟨p, 0⟩, ⟨1, 0⟩) := by
  have h := rush_length n
  have hp : (0 : ℝ) < n * 1000000000000000000 := by
    have : (1 : ℝ) ≤ n := by exact_mod_cast hn
    positivity
  have hl : (Line.new ⟨n * 1000000000000000000, 0⟩).length = n * 1000000000000000000 := h
  have hl2 : (⟨n * 1000000000000000000, 0⟩ : Vec).length = n * 1000000000000000000 := hl
  have hd : (Line.new ⟨n * 1000000000000000000, 0⟩).dir = ⟨1, 0⟩ := by
    simp only [Line.new, hl2]
    rw [if_neg hp.ne']
    simp only [Vec.unit, hl2]
    ext
    · simp only [vmul]; field_simp
    · simp [vmul]
  simp only [rush, Line.info, Line.value, hd]
  congr 1
  ext <;> simp [vmul]

/-- C32: the bound is reached: for every limit `a` and every number of ticks `n` there is a
curve and a speed for which the acceleration during the last of the `n` ticks is
`a·(1 + n/20)`, rounded. -/
theorem C32_exceeded (a : ℤ) (n : ℕ) (ha : 1 ≤ a) (hn : 1 ≤ n) (hn' : n ≤ 60000)
    (hb : (a : ℝ) * (1 + (n : ℝ) / 20) + 1 / 2 ≤ 32767) :
    ∃ (curve : Curve) (v : ℝ) (c' : Ctx) (err : Axis → ℤ), approxSteps curve v = n ∧
      approxCurve unitEnv (Ctx.new (fun _ => a) (fun _ => 2147483647)) ⟨0, 0⟩ curve v = some (c', err) ∧
      accAt .x c'.events (n - 1) = Draw.round ((a : ℝ) * (1 + (n : ℝ) / 20)) := by
  have ha' : (1 : ℝ) ≤ a := by exact_mod_cast ha
  have hnr : (1 : ℝ) ≤ n := by exact_mod_cast hn
  have sat : ∀ t : ℕ, t ≤ n → 0 ≤ saturated a t ∧ saturated a t ≤ 32767 := by
    intro t ht
    have htr : (t : ℝ) ≤ n := by exact_mod_cast ht
    have h0 : (0 : ℝ) ≤ t := by positivity
    refine round_of ?_ ?_
    · push_cast; positivity
    · push_cast; nlinarith
  have loop : ∀ (m t : ℕ) (s : Approx), 1 ≤ t → t + m ≤ n + 1 → InStep s.ctx →
      s.ctx.aMax = (fun _ => a) → s.ctx.vMax = (fun _ => 2147483647) →
      s.err .x = a * ((t : ℝ) - 1) / 10 → s.err .y = 0 →
      0 ≤ (s.ctx.channels .x).v → (s.ctx.channels .x).v ≤ ((t : ℤ) - 1) * 32767 →
      (s.ctx.channels .x).pos ≤ ((t : ℤ) - 1) * ((t : ℤ) - 1) * 32767 →
      (s.ctx.channels .y).v = 0 → (s.ctx.channels .y).pos = 0 →
      ∃ s' l, approxLoop unitEnv ⟨0, 0⟩ (rush n) 1000000000000000000 1000000000000000000 t m s = some s' ∧
        Moved s.ctx s'.ctx l ∧ l .x = (List.range m).map (fun k => saturated a (t + k)) := by
    intro m
    induction m with
    | zero =>
      intro t s _ _ hs _ _ _ _ _ _ _ _ _
      exact ⟨s, _, rfl, Moved.refl hs.near, rfl⟩
    | succ m ih =>
      intro t s ht htm hs hA hV hex hey hv0 hv1 hp1 hyv hyp
      have htn : t ≤ 60000 := by omega
      have htr : (1 : ℝ) ≤ t := by exact_mod_cast ht
      obtain ⟨s0, s1⟩ := sat t (by omega)
      have hvr : ((s.ctx.channels .x).v : ℝ) ≤ 60000 * 32767 := by
        have : (s.ctx.channels .x).v ≤ 60000 * 32767 := by omega
        exact_mod_cast this
      have hpr : (((s.ctx.channels .x).pos + 2 * (s.ctx.channels .x).v : ℤ) : ℝ) ≤ 60000 * 60000 * 32767 * 2 := by
        have h1 : ((t : ℤ) - 1) * ((t : ℤ) - 1) ≤ 60000 * 60000 :=
          mul_le_mul (by omega) (by omega) (by omega) (by omega)
        have : (s.ctx.channels .x).pos + 2 * (s.ctx.channels .x).v ≤ 60000 * 60000 * 32767 * 2 := by omega
        exact_mod_cast this
      have hsp : unitEnv.stepPos ⟨0, 0⟩ ((rush n).value ((t : ℝ) * 1000000000000000000)).1 .x =
          t * 1000000000000000000 := by
        simp [Env.stepPos, rush_value n hn, coord, unitEnv]
      have hspy : unitEnv.stepPos ⟨0, 0⟩ ((rush n).value ((t : ℝ) * 1000000000000000000)).1 .y = 0 := by
        simp [Env.stepPos, rush_value n hn, coord, unitEnv]
      have hsv : unitEnv.stepV ((rush n).value ((t : ℝ) * 1000000000000000000)).2 1000000000000000000 .x =
          500000000000000000 := by
        simp [Env.stepV, rush_value n hn, coord, unitEnv, Env.vScale]
        norm_num
      have hsvy : unitEnv.stepV ((rush n).value ((t : ℝ) * 1000000000000000000)).2 1000000000000000000 .y = 0 := by
        simp [Env.stepV, rush_value n hn, coord, unitEnv]
      have abig : (a : ℝ) ≤ 32767 := by nlinarith
      have apos : accForPos (s.ctx.channels .x) (s.ctx.aMax .x) (t * 1000000000000000000) = a := by
        unfold accForPos Draw.limit
        rw [hA]
        split
        · rfl
        · exfalso; linarith
      have aposy : accForPos (s.ctx.channels .y) (s.ctx.aMax .y) 0 = 0 := by
        unfold accForPos Draw.limit
        rw [hA, hyv, hyp]
        norm_num
        rw [if_neg (by linarith), if_neg (by linarith)]
      have av : accForSpeed (s.ctx.channels .x) (s.ctx.aMax .x) 500000000000000000 = a := by
        unfold accForSpeed Draw.limit
        rw [hA]
        split
        · rfl
        · exfalso; linarith
      have avy : accForSpeed (s.ctx.channels .y) (s.ctx.aMax .y) 0 = 0 := by
        unfold accForSpeed Draw.limit
        rw [hA, hyv]
        norm_num
        rw [if_neg (by linarith), if_neg (by linarith)]
      have ex : nextErr (s.err .x) a = a * t / 10 := by
        unfold nextErr
        rw [hex]
        have : 0 ≤ (a : ℝ) * (t - 1) := mul_nonneg (by linarith) (by linarith)
        simp only
        rw [if_neg (by
          rintro (⟨-, h⟩ | ⟨h, -⟩)
          · linarith
          · linarith)]
        ring
      have ey : nextErr (s.err .y) 0 = 0 := by
        unfold nextErr
        rw [hey]
        simp
      have wx : wantedAcc (s.ctx.channels .x) (s.ctx.aMax .x) (t * 1000000000000000000)
          500000000000000000 (a * t / 10) = saturated a t := by
        unfold wantedAcc
        rw [apos, av, show (a : ℝ) * (1 - 1 / 2) + (a + a * t / 10) * (1 / 2) = a * (1 + t / 20) by ring]
        change satI16 (saturated a t) = _
        unfold satI16
        rw [if_neg (by omega), if_neg (by omega)]
      have wy : wantedAcc (s.ctx.channels .y) (s.ctx.aMax .y) 0 0 0 = 0 := by
        unfold wantedAcc
        rw [aposy, avy]
        norm_num [Draw.round, satI16]
      have lx : limitSpeed (s.ctx.channels .x).v (s.ctx.vMax .x) (saturated a t) = some (saturated a t) := by
        unfold limitSpeed
        rw [if_neg (by omega), hV]
        split
        · rw [toI32_some (by omega) (by omega)]
          simp only [Option.bind_eq_bind, Option.bind_some]
          rw [if_neg (by omega)]
        · rfl
      have ly : limitSpeed (s.ctx.channels .y).v (s.ctx.vMax .y) 0 = some 0 := by simp [limitSpeed]
      obtain ⟨c', hc⟩ := addAcc_ok (ax := saturated a t) (ay := 0) hs
        ⟨by rw [abs_le]; omega, by rw [abs_lt]; omega⟩
        ⟨by norm_num, by rw [hyv]; norm_num⟩
      obtain ⟨M, -⟩ := addAccInterval_spec hs.near (by norm_num) hc
      obtain ⟨s1, hs1⟩ : ∃ s1, approxPass unitEnv ⟨0, 0⟩ (rush n) 1000000000000000000
          (t * 1000000000000000000) s = some s1 ∧ s1.ctx = c' ∧
          s1.err .x = a * t / 10 ∧ s1.err .y = 0 := by
        unfold approxPass
        simp only [hsp, hspy, hsv, hsvy, apos, aposy, ex, ey, wx, wy]
        unfold Ctx.approxTick
        rw [lx, ly]
        simp only [Option.bind_eq_bind, Option.bind_some, hc, Option.pure_def, Option.some.injEq]
        exact ⟨_, rfl, rfl, by simp only [hsp, apos, ex], by simp only [hspy, aposy, ey]⟩
      obtain ⟨e1, rfl, e2, e3⟩ := hs1
      have chx := M.ch .x
      have chy := M.ch .y
      simp only [List.replicate_one, both, Spec.dist, endVel] at chx chy
      obtain ⟨s', l, e4, M2, hl⟩ := ih (t + 1) s1 (by omega) (by omega) (addAcc_inStep hs hc)
        (by rw [M.aMax, hA]) (by rw [M.vMax, hV]) (by rw [e2]; push_cast; ring) e3
        (by rw [chx]; simp only; omega)
        (by rw [chx]; simp only; push_cast; omega)
        (by
          rw [chx]
          simp only
          push_cast
          have : ((t : ℤ) + 1 - 1) * ((t : ℤ) + 1 - 1) * 32767 =
            ((t : ℤ) - 1) * ((t : ℤ) - 1) * 32767 + 2 * ((t - 1) * 32767) + 32767 := by ring
          omega)
        (by rw [chy]; simp [hyv]) (by rw [chy]; simp [hyv, hyp])
      refine ⟨s', _, ?_, M.trans M2, ?_⟩
      · simp only [approxLoop, e1, Option.bind_eq_bind, Option.bind_some, e4]
      · simp only [hl, List.replicate_one, both, List.cons_append, List.nil_append]
        rw [List.range_succ_eq_map, List.map_cons, List.map_map]
        congr 1
        apply List.map_congr_left
        intro k _
        simp only [Function.comp, Nat.succ_eq_add_one]
        congr 1
        omega
  have steps : approxSteps (rush n) 1000000000000000000 = n := by
    unfold approxSteps
    rw [rush_length, mul_div_assoc, div_self (by norm_num), mul_one]
    have : Draw.round (n : ℝ) = n := by
      have := Draw.round_int n
      push_cast at this
      exact this
    rw [this]
    unfold satI32
    rw [if_neg (by omega), if_neg (by omega)]
    simp
  obtain ⟨s', l, hl, M, hx⟩ := loop n 1 ⟨Ctx.new (fun _ => a) (fun _ => 2147483647), fun _ => 0, fun _ => 0⟩
    le_rfl (by omega) ⟨near_new _ _, rfl, le_rfl⟩ rfl rfl (by simp) rfl le_rfl (by simp [Ctx.new])
    (by simp [Ctx.new]) rfl rfl
  refine ⟨rush n, 1000000000000000000, s'.ctx, s'.maxErr, steps, ?_, ?_⟩
  · unfold approxCurve
    rw [steps]
    have hlen : (rush n).length / (Draw.round ((rush n).length / 1000000000000000000) : ℝ) =
        1000000000000000000 := by
      have : Draw.round (n : ℝ) = n := by
        have := Draw.round_int n
        push_cast at this
        exact this
      rw [rush_length, mul_div_cancel_right₀ _ (by norm_num), this]
      push_cast
      field_simp
    simp only [hlen, hl, Option.bind_eq_bind, Option.bind_some]
    rfl
  · have := M.accAt .x (k := n - 1) (by rw [hx]; simp; omega)
    simp only [Ctx.new, Nat.zero_add] at this
    rw [this]
    simp only [hx, List.getElem_map, List.getElem_range]
    rw [show 1 + (n - 1) = n by omega]
    rfl

/-- With a limit of 10 the acceleration reaches 60 after 100 ticks. -/
example : ∃ (curve : Curve) (v : ℝ) (c' : Ctx) (err : Axis → ℤ), approxSteps curve v = 100 ∧
    approxCurve unitEnv (Ctx.new (fun _ => 10) (fun _ => 2147483647)) ⟨0, 0⟩ curve v = some (c', err) ∧
    accAt .x c'.events 99 = 60 := by
  obtain ⟨curve, v, c', err, h1, h2, h3⟩ := C32_exceeded 10 100 (by norm_num) (by norm_num) (by norm_num)
    (by norm_num)
  refine ⟨curve, v, c', err, h1, h2, h3.trans ?_⟩
  rw [show ((10 : ℤ) : ℝ) * (1 + ((100 : ℕ) : ℝ) / 20) = ((60 : ℤ) : ℝ) by norm_num, Draw.round_int]

/-! ### C62 -/

/-- C62: from every state in lock-step with both speeds within their limits, `approx_curve`
returns, whatever the curve and the speed; it takes one tick for each speed unit of length. -/
theorem C62_returns (aMax vMax : Axis → ℤ) (e : Env) (c : Ctx) (start : Vec) (curve : Curve) (v : ℝ)
    (h : Sync aMax vMax c) (hv : ∀ i, |(c.channels i).v| ≤ vMax i) (hm : ∀ i, vMax i ≤ 2147450879)
    (t : ℕ) (ht : c.ticks = some t) :
    ∃ c' err, approxCurve e c start curve v = some (c', err) ∧ Sync aMax vMax c' ∧
      c'.ticks = some (t + approxSteps curve v) := by
  obtain ⟨hn, hxy, hle⟩ := h.inv
  obtain ⟨-, -, ea, ev, -⟩ := h.reach.inv
  obtain ⟨s, hs, -⟩ := approxLoop_ok e start curve v (curve.length / Draw.round (curve.length / v)) 1
    (approxSteps curve v) (s := ⟨c, fun _ => 0, fun _ => 0⟩) ⟨hn, hxy, hle⟩ (by rw [ev]; exact hv)
    (by rw [ev]; exact hm)
  obtain ⟨r, -, hc⟩ := approxLoop_request hs
  refine ⟨s.ctx, s.maxErr, ?_, .step (op := .approx r (approxSteps curve v)) h trivial hc, ?_⟩
  · unfold approxCurve
    simp only [hs, Option.bind_eq_bind, Option.bind_some]
    rfl
  · obtain ⟨l, M, hl⟩ := approxCurve_spec hn hc
    obtain ⟨h1, h2⟩ := ticks_some.1 ht
    exact ticks_some.2 ⟨by rw [M.ch .x]; simp [hl, h1], by rw [M.ch .y]; simp [hl, h2]⟩

/-- The largest of the values `f 0`, …, `f (n-1)`, not less than 0. -/
def Greatest (f : ℕ → ℤ) (n : ℕ) (m : ℤ) : Prop :=
  (∀ k < n, f k ≤ m) ∧ (m = 0 ∨ ∃ k < n, f k = m)

theorem foldl_greatest (f : ℕ → ℤ) (n : ℕ) (hf : ∀ k, 0 ≤ f k) :
    Greatest f n ((List.range n).foldl (fun m k => max m (f k)) 0) := by
  induction n with
  | zero => exact ⟨by simp, .inl rfl⟩
  | succ n ih =>
    obtain ⟨h1, h2⟩ := ih
    rw [List.range_succ, List.foldl_append]
    simp only [List.foldl_cons, List.foldl_nil]
    generalize (List.range n).foldl (fun m k => max m (f k)) 0 = m at h1 h2
    constructor
    · intro k hk
      rcases Nat.lt_succ_iff_lt_or_eq.1 hk with hk | rfl
      · exact (h1 k hk).trans (le_max_left _ _)
      · exact le_max_right _ _
    · rcases le_total m (f n) with h | h
      · rw [max_eq_right h]
        exact .inr ⟨n, by omega, rfl⟩
      · rw [max_eq_left h]
        rcases h2 with h2 | ⟨k, hk, h2⟩
        · exact .inl h2
        · exact .inr ⟨k, by omega, h2⟩

/-- C62: the number `approx_curve` returns for an axis is the largest distance, over all ticks,
between the position of the controller after the tick and the point of the curve for that tick,
with the fraction of a step cut off. -/
theorem C62_reported_error (aMax vMax : Axis → ℤ) (e : Env) (c c' : Ctx) (start : Vec) (curve : Curve)
    (v : ℝ) (err : Axis → ℤ) (h : Reach aMax vMax c) (ha : ∀ i, 0 ≤ aMax i)
    (hv : ∀ i, |(c.channels i).v| ≤ vMax i)
    (hr : approxCurve e c start curve v = some (c', err)) (i : Axis) :
    Greatest (fun k => |posAt i c'.events ((c.channels i).ticks + (k + 1)) -
        trunc ((coord start i + coord (curve.value
          (((k : ℝ) + 1) * (curve.length / Draw.round (curve.length / v)))).1 i) * e.stepScale i)|)
      (approxSteps curve v) (err i) := by
  have htr := h.inv.2.1
  obtain ⟨-, -, ea, ev, -⟩ := h.inv
  have hr' := hr
  unfold approxCurve at hr'
  obtain ⟨s, hs, hr'⟩ := Option.bind_eq_some_iff.1 hr'
  cases hr'
  rcases Nat.eq_zero_or_pos (approxSteps curve v) with h0 | h0
  · rw [h0] at hs ⊢
    cases hs
    exact ⟨by simp, .inl rfl⟩
  have hn := approx_near h hr h0
  obtain ⟨l, M, hl, -, -, -, hm⟩ := approxLoop_spec hn le_rfl (by rw [ea]; exact ha)
    (by rw [ev]; exact hv) (by simp) hs
  have := foldl_greatest (fun k => |(c.channels i).pos + Spec.dist (c.channels i).v ((l i).take (k + 1)) -
    trunc (e.stepPos start (curve.value ((1 + k : ℕ) * (curve.length / Draw.round (curve.length / v)))).1 i)|)
    (approxSteps curve v) (fun _ => abs_nonneg _)
  rw [← hm i] at this
  have key : ∀ k < approxSteps curve v,
      |(c.channels i).pos + Spec.dist (c.channels i).v ((l i).take (k + 1)) -
        trunc (e.stepPos start (curve.value ((1 + k : ℕ) *
          (curve.length / Draw.round (curve.length / v)))).1 i)| =
      |posAt i s.ctx.events ((c.channels i).ticks + (k + 1)) -
        trunc ((coord start i + coord (curve.value
          (((k : ℝ) + 1) * (curve.length / Draw.round (curve.length / v)))).1 i) * e.stepScale i)| := by
    intro k hk
    have e1 : posAt i s.ctx.events ((c.channels i).ticks + (k + 1)) =
        (c.channels i).pos + Spec.dist (c.channels i).v ((l i).take (k + 1)) := by
      have := posAt_follows ((M.acc i).take (k := k + 1) (by rw [hl]; omega))
      rw [List.length_take, min_eq_left (by rw [hl]; omega)] at this
      rw [this, htr.pos, htr.vel]
    rw [e1]
    unfold Env.stepPos
    push_cast
    rw [add_comm (1 : ℝ), add_comm (coord start i)]
  refine ⟨fun k hk => ?_, ?_⟩
  · simp only
    rw [← key k hk]
    exact this.1 k hk
  · rcases this.2 with h | ⟨k, hk, h⟩
    · exact .inl h
    · refine .inr ⟨k, hk, ?_⟩
      simp only
      rw [← key k hk]
      exact h

/-- C62: during and after `approx_curve` the weight is the one before. -/
theorem C62_weight (aMax vMax : Axis → ℤ) (e : Env) (c c' : Ctx) (start : Vec) (curve : Curve) (v : ℝ)
    (err : Axis → ℤ) (h : Reach aMax vMax c) (ha : ∀ i, 0 ≤ aMax i)
    (hv : ∀ i, |(c.channels i).v| ≤ vMax i)
    (hr : approxCurve e c start curve v = some (c', err)) (w : ℤ) (τ : ℕ) :
    weightAt w c'.events τ = weightAt w c.events τ := by
  obtain ⟨-, -, ea, ev, -⟩ := h.inv
  have hr' := hr
  unfold approxCurve at hr'
  obtain ⟨s, hs, hr'⟩ := Option.bind_eq_some_iff.1 hr'
  cases hr'
  rcases Nat.eq_zero_or_pos (approxSteps curve v) with h0 | h0
  · rw [h0] at hs
    cases hs
    rfl
  obtain ⟨l, -, -, -, -, hw, -⟩ := approxLoop_spec (approx_near h hr h0) le_rfl (by rw [ea]; exact ha)
    (by rw [ev]; exact hv) (by simp) hs
  exact hw w τ

/-- A line of 1000 steps at speed 4. -/
example : ∃ c' err, approxCurve unitEnv (Ctx.new (fun _ => 10) (fun _ => 100)) ⟨0, 0⟩
    (Line.new ⟨600, 800⟩).info 4 = some (c', err) ∧ c'.ticks = some 250 := by
  obtain ⟨c', err, h1, -, h2⟩ := C62_returns _ _ unitEnv (Ctx.new (fun _ => 10) (fun _ => 100)) ⟨0, 0⟩
    (Line.new ⟨600, 800⟩).info 4 .new (by simp [Ctx.new]) (by norm_num) 0 rfl
  refine ⟨c', err, h1, h2.trans ?_⟩
  have : (Line.new ⟨600, 800⟩).info.length = 1000 := by
    rw [(C43_line _).2.2]
    simp only [Vec.length]
    rw [show (600 : ℝ) * 600 + 800 * 800 = 1000 * 1000 by norm_num]
    exact Real.sqrt_mul_self (by norm_num)
  unfold approxSteps
  rw [this, show (1000 : ℝ) / 4 = ((250 : ℤ) : ℝ) by norm_num, Draw.round_int]
  rfl

end StepperPaths.Props
