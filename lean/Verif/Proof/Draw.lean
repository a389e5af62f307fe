import Verif.Spec.Draw
import Verif.Props.StepperContext
import Verif.Props.Curves
import Mathlib.Algebra.Order.Floor.Ring
import Mathlib.Tactic.Linarith
import Mathlib.Tactic.FieldSimp

/-! Lemmas about `approx_curve` and `draw_curves`. -/

namespace StepperPaths.Draw
open Coords Curves Context IntegerCurve Spec Props

/-! ### Numbers -/

theorem round_near (x : ℝ) : |(round x : ℝ) - x| ≤ 1 / 2 := by
  unfold round
  split
  · have h1 := Int.floor_le (x + 1 / 2)
    have h2 := Int.lt_floor_add_one (x + 1 / 2)
    rw [abs_le]
    constructor <;> linarith
  · have h1 := Int.floor_le (-x + 1 / 2)
    have h2 := Int.lt_floor_add_one (-x + 1 / 2)
    push_cast
    rw [abs_le]
    constructor <;> linarith

theorem round_int (n : ℤ) : round n = n := by
  have := round_near n
  rw [← Int.cast_sub, ← Int.cast_abs] at this
  have h : ((|round n - n| : ℤ) : ℝ) < 1 := by linarith
  have : |round (n : ℝ) - n| < 1 := by exact_mod_cast h
  rw [abs_lt] at this
  omega

theorem satI16_abs (n : ℤ) : |satI16 n| ≤ |n| ∧ -32768 ≤ satI16 n ∧ satI16 n ≤ 32767 := by
  unfold satI16
  split
  · rw [abs_of_pos (by norm_num), abs_of_pos (by omega)]; omega
  · split
    · rw [abs_of_neg (by norm_num), abs_of_neg (by omega)]; omega
    · exact ⟨le_rfl, by omega, by omega⟩

theorem limit_abs {a : ℝ} (h : 0 ≤ a) (x : ℝ) : |limit x (-a) a| ≤ a := by
  unfold limit
  split
  · rw [abs_of_nonneg h]
  · split
    · rw [abs_neg, abs_of_nonneg h]
    · rw [abs_le]; constructor <;> linarith

theorem nextErr_abs {err a b B : ℝ} (h1 : |err| ≤ B) (h2 : |a| ≤ b) :
    |nextErr err a| ≤ B + b / 10 := by
  unfold nextErr
  have hb := (abs_nonneg a).trans h2
  have hB := (abs_nonneg err).trans h1
  simp only
  split
  · rw [abs_zero]; linarith
  · rw [abs_le] at *
    constructor <;> linarith [h1.1, h1.2, h2.1, h2.2]

theorem wantedAcc_abs (ch : Channel) {aMax : ℤ} (ha : 0 ≤ aMax) (p v : ℝ) {err B : ℝ} (he : |err| ≤ B) :
    |(wantedAcc ch aMax p v err : ℝ)| ≤ aMax + B / 2 + 1 / 2 := by
  have ha' : (0 : ℝ) ≤ aMax := by exact_mod_cast ha
  have h1 := limit_abs ha' (v - (ch.v : ℝ))
  have h2 := limit_abs ha' ((p - ((ch.pos + 2 * ch.v : ℤ) : ℝ)) / 2)
  change |accForSpeed ch aMax v| ≤ _ at h1
  change |accForPos ch aMax p| ≤ _ at h2
  have h3 : |((wantedAcc ch aMax p v err : ℤ) : ℝ)| ≤
      |((round (accForSpeed ch aMax v * (1 - 1 / 2) + (accForPos ch aMax p + err) * (1 / 2)) : ℤ) : ℝ)| := by
    have := (satI16_abs (round (accForSpeed ch aMax v * (1 - 1 / 2) + (accForPos ch aMax p + err) * (1 / 2)))).1
    exact_mod_cast this
  refine h3.trans ?_
  have h4 := round_near (accForSpeed ch aMax v * (1 - 1 / 2) + (accForPos ch aMax p + err) * (1 / 2))
  rw [abs_le] at *
  constructor <;> linarith [h1.1, h1.2, h2.1, h2.2, h4.1, h4.2, he.1, he.2]

theorem accMax_eq (a b : ℤ) : accMax a b = max a b := by
  unfold accMax
  split <;> omega

/-! ### The loop of approx_curve -/

theorem approxPass_eq {e : Env} {start : Vec} {curve : Curve} {v p : ℝ} {s s' : Approx}
    (h : approxPass e start curve v p s = some s') :
    s.ctx.approxTick
      (wantedAcc (s.ctx.channels .x) (s.ctx.aMax .x) (e.stepPos start (curve.value p).1 .x)
        (e.stepV (curve.value p).2 v .x) (s'.err .x))
      (wantedAcc (s.ctx.channels .y) (s.ctx.aMax .y) (e.stepPos start (curve.value p).1 .y)
        (e.stepV (curve.value p).2 v .y) (s'.err .y)) = some s'.ctx ∧
    (∀ i, s'.err i = nextErr (s.err i) (accForPos (s.ctx.channels i) (s.ctx.aMax i)
      (e.stepPos start (curve.value p).1 i))) ∧
    ∀ i, s'.maxErr i = max (s.maxErr i)
      |(s'.ctx.channels i).pos - trunc (e.stepPos start (curve.value p).1 i)| := by
  unfold approxPass at h
  obtain ⟨c, hc, h⟩ := Option.bind_eq_some_iff.1 h
  cases h
  exact ⟨hc, fun _ => rfl, fun i => accMax_eq _ _⟩

/-- `approx_curve` is one of the histories covered by C23-C31. -/
theorem approxLoop_request {e : Env} {start : Vec} {curve : Curve} {v len : ℝ} {t n : ℕ}
    {s s' : Approx} (h : approxLoop e start curve v len t n s = some s') :
    ∃ request : Nat → Ctx → Int × Int,
      (∀ t c, (-32768 ≤ (request t c).1 ∧ (request t c).1 ≤ 32767) ∧
        (-32768 ≤ (request t c).2 ∧ (request t c).2 ≤ 32767)) ∧
      s.ctx.approxCurve request t n = some s'.ctx := by
  have congr : ∀ (n t : ℕ) (c : Ctx) (r r' : Nat → Ctx → Int × Int),
      (∀ u c, t ≤ u → r u c = r' u c) → c.approxCurve r t n = c.approxCurve r' t n := by
    intro n
    induction n with
    | zero => intros; rfl
    | succ n ih =>
      intro t c r r' hr
      simp only [Ctx.approxCurve]
      rw [hr t c le_rfl]
      congr 1
      funext c1
      exact ih (t + 1) c1 r r' (fun u c hu => hr u c (by omega))
  induction n generalizing t s with
  | zero =>
    cases h
    exact ⟨fun _ _ => (0, 0), by simp, rfl⟩
  | succ n ih =>
    simp only [approxLoop] at h
    obtain ⟨s1, h1, h⟩ := Option.bind_eq_some_iff.1 h
    obtain ⟨hc, -, -⟩ := approxPass_eq h1
    obtain ⟨r, hr, hrun⟩ := ih h
    generalize ax : wantedAcc (s.ctx.channels .x) _ _ _ _ = a at hc
    generalize ay : wantedAcc (s.ctx.channels .y) _ _ _ _ = b at hc
    have ba : -32768 ≤ a ∧ a ≤ 32767 := by rw [← ax]; exact (satI16_abs _).2
    have bb : -32768 ≤ b ∧ b ≤ 32767 := by rw [← ay]; exact (satI16_abs _).2
    refine ⟨fun u c => if u = t then (a, b) else r u c, fun u c => ?_, ?_⟩
    · by_cases hu : u = t
      · simp only [hu, if_true]; exact ⟨ba, bb⟩
      · simp only [hu, if_false]; exact hr u c
    · simp only [Ctx.approxCurve, if_true]
      rw [hc]
      simp only [Option.bind_eq_bind, Option.bind_some]
      rw [congr n (t + 1) s1.ctx _ r (fun u c hu => if_neg (by omega)), hrun]

/-- Everything about the loop: the accelerations, the speeds, the weights and the reported
errors. -/
theorem approxLoop_spec {e : Env} {start : Vec} {curve : Curve} {v len : ℝ} {t n : ℕ}
    {s s' : Approx} (hn : Near s.ctx) (ht : 1 ≤ t) (ha : ∀ i, 0 ≤ s.ctx.aMax i)
    (hv : ∀ i, |(s.ctx.channels i).v| ≤ s.ctx.vMax i)
    (he : ∀ i, |s.err i| ≤ (s.ctx.aMax i : ℝ) * (t - 1) / 10)
    (h : approxLoop e start curve v len t n s = some s') :
    ∃ l, Moved s.ctx s'.ctx l ∧ (∀ i, (l i).length = n) ∧
      (∀ i k (hk : k < (l i).length), |(((l i)[k] : ℤ) : ℝ)| ≤
        (s.ctx.aMax i : ℝ) * (1 + ((t : ℝ) + k) / 20) + 1 / 2) ∧
      (∀ i, ∀ x ∈ vels (s.ctx.channels i).v (l i), |x| ≤ s.ctx.vMax i) ∧
      (∀ w τ, weightAt w s'.ctx.events τ = weightAt w s.ctx.events τ) ∧
      (∀ i, s'.maxErr i = (List.range n).foldl (fun m k => max m
        |(s.ctx.channels i).pos + Spec.dist (s.ctx.channels i).v ((l i).take (k + 1)) -
          trunc (e.stepPos start (curve.value ((t + k : ℕ) * len)).1 i)|) (s.maxErr i)) := by
  induction n generalizing t s with
  | zero =>
    cases h
    refine ⟨_, Moved.refl hn, fun _ => rfl, fun i k hk => ?_, fun i => by simp [vels], fun _ _ => rfl,
      fun i => rfl⟩
    simp at hk
  | succ n ih =>
    simp only [approxLoop] at h
    obtain ⟨s1, h1, h⟩ := Option.bind_eq_some_iff.1 h
    obtain ⟨hc, he1, hm1⟩ := approxPass_eq h1
    obtain ⟨bx, yb, l1, l2, hc⟩ := approxTick_eq hc
    obtain ⟨M, -, -, -, -, w1⟩ := addAccInterval_spec hn (by norm_num) hc
    have herr : ∀ i, |s1.err i| ≤ (s.ctx.aMax i : ℝ) * t / 10 := by
      intro i
      rw [he1 i]
      have ha' : (0 : ℝ) ≤ s.ctx.aMax i := by exact_mod_cast ha i
      refine (nextErr_abs (he i) (limit_abs ha' _)).trans (le_of_eq ?_)
      ring
    obtain ⟨x1, x2, -⟩ := limitSpeed_spec (hv .x) (satI16_abs _).2.1 (satI16_abs _).2.2 l1
    obtain ⟨y1, y2, -⟩ := limitSpeed_spec (hv .y) (satI16_abs _).2.1 (satI16_abs _).2.2 l2
    have hacc : ∀ i, |((both bx yb i : ℤ) : ℝ)| ≤ (s.ctx.aMax i : ℝ) * (1 + (t : ℝ) / 20) + 1 / 2 := by
      have conv : ∀ {a b : ℤ}, |a| ≤ |b| → |(a : ℝ)| ≤ |(b : ℝ)| := fun h => by exact_mod_cast h
      intro i
      cases i
      · refine (conv x2).trans ((wantedAcc_abs _ (ha .x) _ _ (herr .x)).trans (le_of_eq ?_))
        ring
      · refine (conv y2).trans ((wantedAcc_abs _ (ha .y) _ _ (herr .y)).trans (le_of_eq ?_))
        ring
    have hvel : ∀ i, |(s.ctx.channels i).v + both bx yb i| ≤ s.ctx.vMax i := by
      intro i; cases i
      · exact x1
      · exact y1
    have hch : ∀ i, s1.ctx.channels i = ⟨(s.ctx.channels i).pos + ((s.ctx.channels i).v +
        ((s.ctx.channels i).v + both bx yb i)), (s.ctx.channels i).v + both bx yb i,
        (s.ctx.channels i).ticks + 1⟩ := by
      intro i
      rw [M.ch i]
      simp [Spec.dist, endVel]
    obtain ⟨l, M2, hl, hb, hs, w2, hm⟩ := ih M.near (by omega) (fun i => by rw [M.aMax]; exact ha i)
      (fun i => by rw [M.vMax, hch i]; exact hvel i)
      (fun i => by rw [M.aMax]; push_cast; rw [add_sub_cancel_right]; exact herr i) h
    refine ⟨_, M.trans M2, fun i => ?_, fun i k hk => ?_, fun i => ?_, fun w τ => by rw [w2, w1],
      fun i => ?_⟩
    · simp [hl]
    · rcases k with _ | k
      · simpa using hacc i
      · have := hb i k (by simp at hk; omega)
        rw [M.aMax] at this
        simp only [List.replicate_one, List.cons_append, List.nil_append, List.getElem_cons_succ]
        push_cast at this ⊢
        refine this.trans (le_of_eq ?_)
        ring
    · simp only [List.replicate_one, List.cons_append, List.nil_append, vels, List.mem_cons]
      rintro x (rfl | hx)
      · exact hvel i
      · have := hs i x
        rw [hch i, M.vMax] at this
        exact this hx
    · rw [hm i, hm1 i, List.range_succ_eq_map, List.foldl_cons, List.foldl_map]
      simp only [hch i]
      congr 1
      · funext m k
        simp only [List.replicate_one, List.cons_append, List.nil_append, List.take_succ_cons, Spec.dist,
          Nat.succ_eq_add_one]
        rw [show t + (k + 1) = t + 1 + k by omega]
        congr 2
        ring
      · simp [Spec.dist]

/-! ### No panic -/

/-- The axes are at the same tick and nothing is planned for later. -/
structure InStep (c : Ctx) : Prop where
  near : Near c
  same : (c.channels .x).ticks = (c.channels .y).ticks
  past : c.eventTicks ≤ (c.channels .x).ticks

theorem addAcc_ok {c : Ctx} {ax ay : ℤ} (h : InStep c)
    (hx : |ax| ≤ 32768 ∧ |(c.channels .x).v + ax| < 2147483648)
    (hy : |ay| ≤ 32768 ∧ |(c.channels .y).v + ay| < 2147483648) :
    ∃ c', c.addAccInterval ax ay 1 = some c' := by
  have e1 : asI32 1 = 1 := by decide
  obtain ⟨hx1, hx2⟩ := hx
  obtain ⟨hy1, hy2⟩ := hy
  rw [abs_le] at hx1 hy1
  rw [abs_lt] at hx2 hy2
  have hp := h.past
  have hs := h.same
  have hg := h.near.gap .x
  unfold Ctx.addAccInterval Ctx.addAccChannel cassert
  rw [if_pos (by omega)]
  simp only [e1, one_mul, Option.bind_eq_bind, Option.bind_some, Option.pure_def]
  rw [toI32_some (by omega) (by omega)]
  simp only [Option.bind_some]
  rw [toI32_some (by omega) (by omega)]
  simp only [Option.bind_some]
  rw [push_some hp (by omega)]
  simp only [Option.bind_some, Ctx.setCh, reduceCtorEq, if_false, if_true]
  rw [toI32_some (by omega) (by omega)]
  simp only [Option.bind_some]
  rw [toI32_some (by omega) (by omega)]
  simp only [Option.bind_some]
  rw [push_some (by simp; omega) (by simp; omega)]
  simp [hs]

theorem limitSpeed_ok {v vMax acc : ℤ} (hv : |v| ≤ vMax) (hm : vMax ≤ 2147450879)
    (h1 : -32768 ≤ acc) (h2 : acc ≤ 32767) : ∃ a, limitSpeed v vMax acc = some a := by
  rw [abs_le] at hv
  unfold limitSpeed
  split
  · rw [toI32_some (by omega) (by omega)]
    simp only [Option.bind_eq_bind, Option.bind_some]
    split
    · rw [toI32_some (by omega) (by omega)]
      exact ⟨_, rfl⟩
    · exact ⟨_, rfl⟩
  · split
    · rw [toI32_some (by omega) (by omega)]
      simp only [Option.bind_eq_bind, Option.bind_some]
      split
      · rw [toI32_some (by omega) (by omega)]
        exact ⟨_, rfl⟩
      · exact ⟨_, rfl⟩
    · exact ⟨_, rfl⟩

theorem addAcc_inStep {c c' : Ctx} {ax ay : ℤ} (h : InStep c) (hr : c.addAccInterval ax ay 1 = some c') :
    InStep c' := by
  obtain ⟨M, -, hxy, hle, he, -⟩ := addAccInterval_spec h.near (by norm_num) hr
  refine ⟨M.near, ?_, ?_⟩
  · rw [M.ch .x, M.ch .y]
    simp [hxy]
  · rw [he, M.ch .x]
    simp

/-- One pass: it returns, and the limits still hold. -/
theorem approxPass_ok (e : Env) (start : Vec) (curve : Curve) (v p : ℝ) {s : Approx}
    (h : InStep s.ctx) (hv : ∀ i, |(s.ctx.channels i).v| ≤ s.ctx.vMax i)
    (hm : ∀ i, s.ctx.vMax i ≤ 2147450879) :
    ∃ s', approxPass e start curve v p s = some s' ∧ InStep s'.ctx ∧
      (∀ i, |(s'.ctx.channels i).v| ≤ s'.ctx.vMax i) ∧ s'.ctx.vMax = s.ctx.vMax ∧
      s'.ctx.aMax = s.ctx.aMax := by
  have key : ∃ s', approxPass e start curve v p s = some s' := by
    unfold approxPass
    simp only
    generalize hax : wantedAcc (s.ctx.channels .x) _ _ _ _ = ax
    generalize hay : wantedAcc (s.ctx.channels .y) _ _ _ _ = ay
    have bx : -32768 ≤ ax ∧ ax ≤ 32767 := by rw [← hax]; exact (satI16_abs _).2
    have yb : -32768 ≤ ay ∧ ay ≤ 32767 := by rw [← hay]; exact (satI16_abs _).2
    obtain ⟨a, ha⟩ := limitSpeed_ok (hv .x) (hm .x) bx.1 bx.2
    obtain ⟨b, hb⟩ := limitSpeed_ok (hv .y) (hm .y) yb.1 yb.2
    obtain ⟨x1, x2, -⟩ := limitSpeed_spec (hv .x) bx.1 bx.2 ha
    obtain ⟨y1, y2, -⟩ := limitSpeed_spec (hv .y) yb.1 yb.2 hb
    have hmx := hm .x
    have hmy := hm .y
    obtain ⟨c', hc⟩ := addAcc_ok (ax := a) (ay := b) h
      ⟨x2.trans (by rw [abs_le]; omega), by omega⟩ ⟨y2.trans (by rw [abs_le]; omega), by omega⟩
    unfold Ctx.approxTick
    rw [ha, hb]
    simp only [Option.bind_eq_bind, Option.bind_some, hc]
    exact ⟨_, rfl⟩
  obtain ⟨s', hs⟩ := key
  obtain ⟨hc, -, -⟩ := approxPass_eq hs
  obtain ⟨a, b, ha, hb, hc⟩ := approxTick_eq hc
  obtain ⟨x1, -, -⟩ := limitSpeed_spec (hv .x) (satI16_abs _).2.1 (satI16_abs _).2.2 ha
  obtain ⟨y1, -, -⟩ := limitSpeed_spec (hv .y) (satI16_abs _).2.1 (satI16_abs _).2.2 hb
  obtain ⟨M, -⟩ := addAccInterval_spec h.near (by norm_num) hc
  refine ⟨s', hs, addAcc_inStep h hc, fun i => ?_, M.vMax, M.aMax⟩
  rw [M.vMax, M.ch i]
  cases i
  · simpa [endVel, both] using x1
  · simpa [endVel, both] using y1

theorem approxLoop_ok (e : Env) (start : Vec) (curve : Curve) (v len : ℝ) (t n : ℕ) {s : Approx}
    (h : InStep s.ctx) (hv : ∀ i, |(s.ctx.channels i).v| ≤ s.ctx.vMax i)
    (hm : ∀ i, s.ctx.vMax i ≤ 2147450879) :
    ∃ s', approxLoop e start curve v len t n s = some s' ∧ InStep s'.ctx ∧
      (∀ i, |(s'.ctx.channels i).v| ≤ s'.ctx.vMax i) ∧ s'.ctx.vMax = s.ctx.vMax ∧
      s'.ctx.aMax = s.ctx.aMax := by
  induction n generalizing t s with
  | zero => exact ⟨s, rfl, h, hv, rfl, rfl⟩
  | succ n ih =>
    obtain ⟨s1, e1, h1, v1, m1, a1⟩ := approxPass_ok e start curve v (t * len) h hv hm
    obtain ⟨s2, e2, h2, v2, m2, a2⟩ := ih (t + 1) h1 v1 (by rw [m1]; exact hm)
    refine ⟨s2, ?_, h2, v2, m2.trans m1, a2.trans a1⟩
    simp only [approxLoop, e1, Option.bind_eq_bind, Option.bind_some, e2]

end StepperPaths.Draw
