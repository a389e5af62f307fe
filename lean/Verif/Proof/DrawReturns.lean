import Verif.Proof.DrawPath

/-! `draw_curves` returns when everything stays in reach. -/

namespace StepperPaths.Draw
open Coords Curves Context IntegerCurve Spec Props

theorem abs_round_le {x : ℝ} {n : ℤ} (h : |x| + 1 / 2 ≤ n) : |round x| ≤ n := by
  have := round_near x
  have : |(round x : ℝ)| ≤ n := by
    rw [abs_le] at this ⊢
    have := abs_le.1 (show |x| ≤ n - 1 / 2 by linarith)
    constructor <;> linarith
  exact_mod_cast this

theorem toSteps_ok {e : Env} {x : ℝ} {i : Axis} (h : |x * e.stepScale i| ≤ 2 ^ 60) :
    e.toSteps x i = some (round (x * e.stepScale i)) := by
  have h1 : |round (x * e.stepScale i)| ≤ 2 ^ 61 := by
    apply abs_round_le
    push_cast
    norm_num at *
    linarith
  rw [abs_le] at h1
  unfold Env.toSteps
  rw [cassert_bind]
  exact ⟨by norm_num at *; omega, rfl⟩

theorem toStepV_ok {e : Env} {x : ℝ} {i : Axis} {n : ℤ} (hn : n < 2 ^ 30) (h : |x * e.vScale i| + 1 / 2 ≤ n) :
    e.toStepV x i = some (round (x * e.vScale i)) := by
  have h1 := abs_round_le h
  rw [abs_le] at h1
  unfold Env.toStepV
  rw [cassert_bind]
  exact ⟨by norm_num at *; omega, rfl⟩

/-- The limits are such that every change of speed is possible in 65535 ticks. -/
structure Machine (aMax vMax : Axis → ℤ) : Prop where
  a1 : ∀ i, 1 ≤ aMax i
  a2 : ∀ i, aMax i ≤ 32767
  v1 : ∀ i, 1 ≤ vMax i
  v2 : ∀ i, vMax i < 2 ^ 30
  r : ∀ i, 8 * vMax i + 4 * aMax i ≤ aMax i * 65535

theorem drawCurve_ok {aMax vMax : Axis → ℤ} {e : Env} {c : Ctx} {start : Vec} {curve : Concat} {v : ℝ}
    (hM : Machine aMax vMax) (h : Sync aMax vMax c) (hne : curve ≠ [])
    (hc : ∀ i, |(c.channels i).v| ≤ vMax i) (hp : ∀ i, |(c.channels i).pos| ≤ 2 ^ 61)
    (hs : ∀ i, |coord start i * e.stepScale i| ≤ 2 ^ 60)
    (hd : ∀ i, |coord ((e.concatInfo curve).value 0).2 i * v * e.vScale i| + 1 / 2 ≤ vMax i)
    (hf : ∀ i, |round (coord start i * e.stepScale i) - (c.channels i).pos| ≤ vMax i * 65535) :
    ∃ c' err, drawCurve e c start curve v = some (c', err) ∧ (∀ i, |(c'.channels i).v| ≤ vMax i) ∧
      ∀ i, |((c'.channels i).pos : ℝ) - coord start i * e.stepScale i| ≤
        3 / 2 + 2 * vMax i * approxSteps (e.concatInfo curve) v := by
  obtain ⟨hn, hxy, hle⟩ := h.inv
  have ht : c.ticks = some (c.channels .x).ticks := ticks_some.2 ⟨rfl, hxy.symm⟩
  obtain ⟨c1, h1⟩ : ∃ c1, c.addWeightChange c.moveWeight (c.channels .x).ticks = some c1 := by
    rw [← Option.ne_none_iff_exists', Ne, C29_panics_iff aMax vMax c h _ ht]
    omega
  obtain ⟨s1, ch1, p1, k1, m1, a1, w1⟩ := weight_now h h1
  have lim : ∀ i, InLimits (round (coord start i * e.stepScale i) - (c1.channels i).pos) (c1.channels i).v
      (round (coord ((e.concatInfo curve).value 0).2 i * v * e.vScale i)) (aMax i) (vMax i) := by
    intro i
    have h0 := hM.v2 i
    rw [ch1]
    refine ⟨hM.a1 i, hM.v1 i, by norm_num at *; omega, hc i, abs_round_le (hd i), ?_⟩
    refine (hf i).trans ?_
    norm_num at *
    omega
  obtain ⟨c2, h2⟩ := C25_returns_in_time aMax vMax c1 s1 _ _ _ _ (lim .x) (lim .y) hM.a2 hM.v2 hM.r
    (by rw [ch1]; exact hf .x) (by rw [ch1]; exact hf .y)
  have s2 : Sync aMax vMax c2 := .step (op := .goto _ _ _ _) s1 trivial h2
  have ht2 : c2.ticks = some (c2.channels .x).ticks := ticks_some.2 ⟨rfl, s2.inv.2.1.symm⟩
  obtain ⟨c3, h3⟩ : ∃ c3, c2.addWeightChange c2.curveWeight (c2.channels .x).ticks = some c3 := by
    rw [← Option.ne_none_iff_exists', Ne, C29_panics_iff aMax vMax c2 s2 _ ht2]
    omega
  obtain ⟨s3, ch3, p3, k3, m3, a3, w3⟩ := weight_now s2 h3
  obtain ⟨ar, -⟩ := C25_arrives aMax vMax c1 c2 s1.reach _ _ _ _ (lim .x) (lim .y) h2
  have hv3 : ∀ i, |(c3.channels i).v| ≤ vMax i := by
    intro i
    rw [ch3]
    have e1 := congrArg Prod.fst ar
    have e2 := congrArg Prod.snd ar
    simp only [Ctx.velocity] at e1 e2
    cases i
    · rw [e1]; exact (lim .x).stop
    · rw [e2]; exact (lim .y).stop
  obtain ⟨c', err, h4, -, -⟩ := C62_returns aMax vMax e c3 start (e.concatInfo curve) v s3 hv3
    (fun i => by have := hM.v2 i; norm_num at *; omega) _ (ticks_some.2 ⟨rfl, s3.inv.2.1.symm⟩)
  have hr : drawCurve e c start curve v = some (c', err) := by
    unfold drawCurve
    rw [if_neg (by simpa using hne)]
    have g : gotoSpeed e c1 start.x start.y (((e.concatInfo curve).value 0).2 * v).x
        (((e.concatInfo curve).value 0).2 * v).y = some c2 := by
      unfold gotoSpeed
      rw [toSteps_ok (x := start.x) (hs .x), toSteps_ok (x := start.y) (hs .y),
        toStepV_ok (x := (((e.concatInfo curve).value 0).2 * v).x) (hM.v2 .x) (hd .x),
        toStepV_ok (x := (((e.concatInfo curve).value 0).2 * v).y) (hM.v2 .y) (hd .y)]
      exact h2
    simp only [h1, Option.bind_eq_bind, Option.bind_some, g, h3, h4]
  refine ⟨c', err, hr, ?_⟩
  obtain ⟨a, ha, S, hv', -⟩ := drawCurve_stroke h hne hM.a1 hM.v1
    (fun i => by have := hM.v2 i; norm_num at *; omega) hc hp hs hd hr
  refine ⟨hv', fun i => ?_⟩
  obtain ⟨s', -⟩ := drawCurve_past h hr
  have tr : (c'.channels i).pos = posAt i c'.events (c'.channels .x).ticks := by
    have := s'.reach.inv.2.1.1 i
    have := s'.inv.2.1
    cases i <;> simp_all
  have hb := posAt_bound (i := i) (es := c'.events) (a := a)
    (n := approxSteps (e.concatInfo curve) v) (V := vMax i) (by
      intro τ q1 q2
      have := S.vel i (τ - 1) (by omega) (by have := S.len; simp only at this; omega)
      rwa [show τ - 1 + 1 = τ by omega] at this)
  have hl := S.len
  simp only at hl
  rw [← hl, ← tr] at hb
  have hst := S.start i
  simp only at hst
  have hb' : |((c'.channels i).pos : ℝ) - posAt i c'.events a| ≤
      2 * vMax i * approxSteps (e.concatInfo curve) v := by exact_mod_cast hb
  rw [abs_le] at *
  constructor <;> linarith [hst.1, hst.2, hb'.1, hb'.2]

/-- The points of a path stay in a region: `B` is its size in steps, `ℓ` bounds the length of
every segment. -/
structure InRegion (e : Env) (S : Vec → Prop) (B : Axis → ℝ) (ℓ : ℝ) (segs : List Seg) : Prop where
  box : ∀ p, S p → ∀ i, |coord p i * e.stepScale i| ≤ B i
  move : ∀ p, .goTo p ∈ segs → S p
  short : ∀ p, .closeTo p ∈ segs → S p
  draw : ∀ seg ∈ segs, ∀ p, S p → Draws p seg → ∃ k q, e.segInfo p seg = some (k, q) ∧ S q ∧
    0 ≤ k.length ∧ k.length ≤ ℓ

/-- Moves in the region are possible in 65535 ticks, also from the end of a stroke of `N` ticks. -/
structure Reachable (vMax : Axis → ℤ) (e : Env) (v : ℝ) (B : Axis → ℝ) (N : ℕ) : Prop where
  vpos : 0 < v
  speed : ∀ i, |v * e.vScale i| + 1 / 2 ≤ vMax i
  near : ∀ i, 2 * B i + 2 + 2 * vMax i * N ≤ vMax i * 65535

/-- What holds between the segments. -/
structure PenOK (aMax vMax : Axis → ℤ) (e : Env) (v : ℝ) (S : Vec → Prop) (B : Axis → ℝ) (N : ℕ)
    (rest : ℝ) (s : Pen) : Prop where
  sync : Sync aMax vMax s.ctx
  vel : ∀ i, |(s.ctx.channels i).v| ≤ vMax i
  pos : ∀ i, |((s.ctx.channels i).pos : ℝ)| ≤ B i + 3 / 2 + 2 * vMax i * N
  cur : S s.current
  start : S s.start
  dir : ∀ part ∈ s.curves, ∀ x i, |coord (part.curve.value x).2 i| ≤ 1
  len0 : 0 ≤ s.curves.totalLength
  len : s.curves.totalLength + rest ≤ v * N
  drawn : ∀ st ∈ s.drawn, st.2 ≠ [] → S st.1

theorem flush_ok {aMax vMax : Axis → ℤ} {e : Env} {v : ℝ} {S : Vec → Prop} {B : Axis → ℝ} {N : ℕ}
    {rest : ℝ} {s : Pen} (hM : Machine aMax vMax) (hR : Reachable vMax e v B N)
    (box : ∀ p, S p → ∀ i, |coord p i * e.stepScale i| ≤ B i) (hrest : 0 ≤ rest)
    (h : PenOK aMax vMax e v S B N rest s) :
    ∃ s1, s.flush e v = some s1 ∧ PenOK aMax vMax e v S B N rest s1 ∧ s1.current = s.current := by
  have big : ∀ i, B i ≤ 2 ^ 46 ∧ B i + 3 / 2 + 2 * vMax i * N ≤ 2 ^ 60 := by
    intro i
    have h1 := hR.near i
    have h2 := hM.v2 i
    have h2' : (vMax i : ℝ) < 2 ^ 30 := by exact_mod_cast h2
    have h3 := abs_nonneg (coord s.start i * e.stepScale i)
    have h4 := box _ h.start i
    have h5 : (0 : ℝ) ≤ 2 * vMax i * N := by
      have : (1 : ℝ) ≤ vMax i := by exact_mod_cast hM.v1 i
      positivity
    norm_num at *
    constructor <;> linarith
  have fin : ∀ {c' : Ctx} {err : Axis → ℤ}, drawCurve e s.ctx s.start s.curves v = some (c', err) →
      (∀ i, |(c'.channels i).v| ≤ vMax i) →
      (∀ i, |((c'.channels i).pos : ℝ)| ≤ B i + 3 / 2 + 2 * vMax i * N) →
      ∃ s1, s.flush e v = some s1 ∧ PenOK aMax vMax e v S B N rest s1 ∧ s1.current = s.current := by
    intro c' err hd hv hp
    have hsy := (drawCurve_past h.sync hd).1
    unfold Pen.flush
    rw [hd]
    refine ⟨_, rfl, ⟨hsy, hv, hp, h.cur, h.start, by simp, by simp [Concat.totalLength], ?_, ?_⟩, rfl⟩
    · have := h.len0
      have := h.len
      simp only [Concat.totalLength, List.getLast?_nil]
      linarith
    · intro st hst
      simp only [List.mem_append, List.mem_singleton] at hst
      rcases hst with hst | rfl
      · exact h.drawn st hst
      · exact fun _ => h.start
  by_cases hne : s.curves = []
  · refine fin (c' := s.ctx) (err := fun _ => 0) ?_ h.vel h.pos
    unfold drawCurve
    rw [if_pos (by simp [hne])]
  have hd : ∀ i, |coord ((e.concatInfo s.curves).value 0).2 i * v * e.vScale i| + 1 / 2 ≤ vMax i := by
    intro i
    have h1 := concat_dir (e := e) (c := s.curves) zero_le_one i (fun part hpart x => h.dir part hpart x i) 0
    refine le_trans ?_ (hR.speed i)
    rw [mul_assoc, abs_mul]
    have := mul_le_mul_of_nonneg_right h1 (abs_nonneg (v * e.vScale i))
    linarith
  have hpos : ∀ i, |(s.ctx.channels i).pos| ≤ 2 ^ 61 := by
    intro i
    have : |((s.ctx.channels i).pos : ℝ)| ≤ 2 ^ 61 := by
      have h1 := h.pos i
      have h2 := (big i).2
      norm_num at *
      linarith
    exact_mod_cast this
  obtain ⟨c', err, h1, h2, h3⟩ := drawCurve_ok (e := e) (start := s.start) (v := v) hM h.sync hne h.vel hpos (by
      intro i
      have h1 := box _ h.start i
      have h2 := (big i).1
      norm_num at *
      linarith) hd (by
      intro i
      have h1 := box _ h.start i
      have h2 := h.pos i
      have h3 := hR.near i
      have h4 := round_near (coord s.start i * e.stepScale i)
      have : |((round (coord s.start i * e.stepScale i) - (s.ctx.channels i).pos : ℤ) : ℝ)| ≤
          ((vMax i * 65535 : ℤ) : ℝ) := by
        push_cast
        rw [abs_le] at *
        constructor <;> linarith [h1.1, h1.2, h2.1, h2.2, h4.1, h4.2]
      exact_mod_cast this)
  refine fin h1 h2 (fun i => ?_)
  have steps : (approxSteps (e.concatInfo s.curves) v : ℝ) ≤ N := by
    have hl : (e.concatInfo s.curves).length = s.curves.totalLength := rfl
    have hle : s.curves.totalLength / v ≤ N := by
      rw [div_le_iff₀ hR.vpos]
      linarith [h.len, mul_comm v (N : ℝ)]
    have hr := round_near (s.curves.totalLength / v)
    rw [abs_le] at hr
    have h0 : (round (s.curves.totalLength / v) : ℝ) < N + 1 := by linarith [hr.2]
    have h0' : round (s.curves.totalLength / v) < (N : ℤ) + 1 := by exact_mod_cast h0
    have : approxSteps (e.concatInfo s.curves) v ≤ N := by
      unfold approxSteps
      rw [hl]
      unfold satI32
      split
      · omega
      · split <;> omega
    exact_mod_cast this
  have b1 := box _ h.start i
  have b2 := h3 i
  have b3 : 2 * (vMax i : ℝ) * approxSteps (e.concatInfo s.curves) v ≤ 2 * vMax i * N := by
    have : (1 : ℝ) ≤ vMax i := by exact_mod_cast hM.v1 i
    exact mul_le_mul_of_nonneg_left steps (by linarith)
  rw [abs_le] at *
  constructor <;> linarith [b1.1, b1.2, b2.1, b2.2]

theorem step_ok {aMax vMax : Axis → ℤ} {e : Env} {v : ℝ} {S : Vec → Prop} {B : Axis → ℝ} {N : ℕ}
    {ℓ rest : ℝ} {seg : Seg} {segs : List Seg} {s : Pen} (hM : Machine aMax vMax) (hR : Reachable vMax e v B N)
    (hS : InRegion e S B ℓ (seg :: segs)) (hℓ : 0 ≤ ℓ) (hrest : 0 ≤ rest)
    (h : PenOK aMax vMax e v S B N (ℓ + rest) s) :
    ∃ s1, s.step e v seg = some s1 ∧ PenOK aMax vMax e v S B N rest s1 := by
  obtain ⟨f, hf, hfo, hfc⟩ := flush_ok hM hR hS.box (by linarith) h
  have add : ∀ {k : Curve} {q : Vec}, e.segInfo s.current seg = some (k, q) → S q → 0 ≤ k.length →
      k.length ≤ ℓ → ∃ s1, s.add e v k q = some s1 ∧ PenOK aMax vMax e v S B N rest s1 := by
    intro k q hi hq h0 hl
    have dk : ∀ x i, |coord (k.value x).2 i| ≤ 1 := fun x i => segInfo_dir hi x i
    have tl : ∀ c : Concat, (c.add k).totalLength = k.length + c.totalLength := by
      intro c
      simp [Concat.totalLength, Concat.add]
    have key : ∀ {s : Pen}, PenOK aMax vMax e v S B N (ℓ + rest) s →
        PenOK aMax vMax e v S B N rest { s with current := q, prevDir := some (k.value k.length).2,
                                                 curves := s.curves.add k } := by
      intro s h
      refine ⟨h.sync, h.vel, h.pos, hq, h.start, ?_, ?_, ?_, h.drawn⟩
      · intro part hpart
        simp only [Concat.add, List.mem_append, List.mem_singleton] at hpart
        rcases hpart with hpart | rfl
        · exact h.dir part hpart
        · exact dk
      · simp only [tl]
        linarith [h.len0]
      · simp only [tl]
        linarith [h.len]
    unfold Pen.add
    by_cases ht : s.turns (k.value 0).2
    · rw [if_pos ht, hf]
      refine ⟨_, rfl, key (s := { f with start := f.current }) ?_⟩
      exact ⟨hfo.sync, hfo.vel, hfo.pos, hfo.cur, hfo.cur, hfo.dir, hfo.len0, hfo.len, hfo.drawn⟩
    · rw [if_neg ht]
      exact ⟨_, rfl, key h⟩
  by_cases hd : Draws s.current seg
  · obtain ⟨k, q, hi, hq, h0, hl⟩ := hS.draw seg List.mem_cons_self _ h.cur hd
    obtain ⟨s1, h1, h2⟩ := add hi hq h0 hl
    refine ⟨s1, ?_, h2⟩
    cases seg with
    | goTo p => cases hi
    | closeTo p =>
      simp only [Pen.step]
      rw [if_neg (by simpa [Draws, ShortClose] using hd), hi]
      exact h1
    | lineTo p => simp only [Pen.step]; rw [hi]; exact h1
    | curveTo p c1 c2 => simp only [Pen.step]; rw [hi]; exact h1
    | arc a b c d r => simp only [Pen.step]; rw [hi]; exact h1
  · cases seg with
    | goTo p =>
      have hp := hS.move p List.mem_cons_self
      have b60 : ∀ i, |coord p i * e.stepScale i| ≤ 2 ^ 60 := by
        intro i
        have h1 := hS.box _ hp i
        have h2 := hR.near i
        have h3 := hM.v2 i
        have h3' : (vMax i : ℝ) < 2 ^ 30 := by exact_mod_cast h3
        have h5 : (0 : ℝ) ≤ 2 * vMax i * N := by
          have : (1 : ℝ) ≤ vMax i := by exact_mod_cast hM.v1 i
          positivity
        norm_num at *
        linarith
      obtain ⟨b, hb⟩ : ∃ b, s.atMachine e p = some b := by
        unfold Pen.atMachine
        have e1 := toSteps_ok (b60 .x)
        have e2 := toSteps_ok (b60 .y)
        simp only [coord] at e1 e2
        simp only [e1, e2, Option.bind_eq_bind, Option.bind_some]
        split
        · exact ⟨_, rfl⟩
        · exact ⟨_, rfl⟩
      simp only [Pen.step, Pen.goTo, hb, Option.bind_eq_bind, Option.bind_some]
      cases b
      · simp only [Bool.false_eq_true, if_false, hf, Option.bind_some]
        refine ⟨_, rfl, hfo.sync, hfo.vel, hfo.pos, hp, hp, hfo.dir, hfo.len0, ?_, hfo.drawn⟩
        linarith [hfo.len]
      · simp only [if_true]
        refine ⟨_, rfl, h.sync, h.vel, h.pos, h.cur, h.start, h.dir, h.len0, ?_, h.drawn⟩
        linarith [h.len]
    | closeTo p =>
      simp only [Pen.step]
      rw [if_pos (by simpa [Draws, ShortClose] using hd)]
      refine ⟨_, rfl, h.sync, h.vel, h.pos, hS.short p List.mem_cons_self, h.start, h.dir, h.len0, ?_, h.drawn⟩
      linarith [h.len]
    | lineTo p => exact absurd (by simp [Draws, ShortClose]) hd
    | curveTo p c1 c2 => exact absurd (by simp [Draws, ShortClose]) hd
    | arc a b c d r => exact absurd (by simp [Draws, ShortClose]) hd

theorem finish_ok {aMax vMax : Axis → ℤ} {e : Env} {v : ℝ} {S : Vec → Prop} {B : Axis → ℝ} {N : ℕ}
    {ℓ : ℝ} {segs : List Seg} {s : Pen} (hM : Machine aMax vMax) (hR : Reachable vMax e v B N)
    (hS : InRegion e S B ℓ segs) (hℓ : 0 ≤ ℓ) (h : PenOK aMax vMax e v S B N (segs.length * ℓ) s) :
    ∃ s', s.finish e v segs = some s' ∧ PenOK aMax vMax e v S B N 0 s' := by
  induction segs generalizing s with
  | nil =>
    rw [finish_nil]
    obtain ⟨s1, h1, h2, -⟩ := flush_ok (rest := 0) hM hR hS.box le_rfl (by simpa using h)
    exact ⟨s1, h1, h2⟩
  | cons seg segs ih =>
    obtain ⟨s1, h1, h2⟩ := step_ok (rest := segs.length * ℓ) hM hR hS hℓ (by positivity) (by
      have e1 : ℓ + (segs.length : ℝ) * ℓ = ((seg :: segs).length : ℝ) * ℓ := by
        push_cast [List.length_cons]; ring
      rw [e1]; exact h)
    obtain ⟨s', h3, h4⟩ := ih (s := s1) ⟨hS.box, fun p hp => hS.move p (List.mem_cons_of_mem _ hp),
      fun p hp => hS.short p (List.mem_cons_of_mem _ hp),
      fun seg hs => hS.draw seg (List.mem_cons_of_mem _ hs)⟩ h2
    exact ⟨s', finish_cons.2 ⟨s1, h1, h3⟩, h4⟩

end StepperPaths.Draw
