import Verif.Props.StepperContext
import Verif.Proof.IntegerCurve.Inside

/-!
C136: how far a move leaves the interval between its ends.
-/

namespace StepperPaths.Props
open Context Spec IntegerCurve

/-- `a` times what an axis with speed `v` needs to turn, at most: the way while it brakes with the acceleration `a`, and one tick. -/
def turning (a v : ℤ) : ℤ := v ^ 2 + a * |v|

/-- The sequences of a move and what is known of each. -/
theorem goto_shape (aMax vMax : Axis → ℤ) (c c' : Ctx) (h : Reach aMax vMax c) (x y vx vy : ℤ)
    (hx : InLimits (x - (c.channels .x).pos) (c.channels .x).v vx (aMax .x) (vMax .x))
    (hy : InLimits (y - (c.channels .y).pos) (c.channels .y).v vy (aMax .y) (vMax .y))
    (hr : c.stepGotoSpeed x y vx vy = some c') (t t' : ℕ) (ht : c.ticks = some t)
    (ht' : c'.ticks = some t') (i : Axis) :
    ∃ l : List ℤ, t' = t + l.length ∧
      (∀ k ≤ l.length, posAt i c'.events (t + k) = (c.channels i).pos + dist (c.channels i).v (l.take k) ∧
        velAt i c'.events (t + k) = endVel (c.channels i).v (l.take k)) ∧
      (∀ k, Inside.Near (aMax i) (c.channels i).v (both vx vy i) (dist (c.channels i).v l) (dist (c.channels i).v (l.take k))) ∧
      ((c.channels i).v = 0 → both vx vy i = 0 → (∀ v ∈ vels 0 l, 0 ≤ v) ∨ (∀ v ∈ vels 0 l, v ≤ 0)) := by
  obtain ⟨hti, htr, ha, hv, -⟩ := h.inv
  have hn : Context.Near c := by
    rcases hti with hn | hfu
    · exact hn
    · rw [(future_blocks hfu).2.1] at hr
      cases hr
  obtain ⟨sx, sy, hs, -, M, v1, v2, -, -⟩ := goto_spec hn hr
  have hl : ∀ l ∈ [c.limits .x x vx, c.limits .y y vy], InLimits l.ds l.v0 l.vn l.a l.vmax := by
    intro l hl
    simp only [List.mem_cons, List.not_mem_nil, or_false] at hl
    rcases hl with rfl | rfl
    · simpa [Ctx.limits, ha, hv] using hx
    · simpa [Ctx.limits, ha, hv] using hy
  obtain ⟨T, e, -, -, hc, -⟩ := sequences_T (ls := [c.limits .x x vx, c.limits .y y vy]) (by simp) (fun l m => (hl l m).valid)
  rw [hs] at e
  have f := mapM_some_forall₂ e.symm
  obtain ⟨fx, f⟩ := List.forall₂_cons.1 f
  obtain ⟨fy, -⟩ := List.forall₂_cons.1 f
  have et : (c.channels i).ticks = t := by
    cases i
    · exact (ticks_some.1 ht).1
    · exact (ticks_some.1 ht).2
  have et' : (c'.channels i).ticks = t' := by
    cases i
    · exact (ticks_some.1 ht').1
    · exact (ticks_some.1 ht').2
  rw [M.ch i] at et'
  simp only [et] at et'
  -- one axis
  have one : ∀ j : Axis, ∃ l ∈ [c.limits .x x vx, c.limits .y y vy], l.a = aMax j ∧ l.v0 = (c.channels j).v ∧ l.vn = both vx vy j ∧
      ∃ p, adjustCurve T l.ds l.v0 l.vn l.a = some p ∧ p.accSeq = some (both sx sy j) := by
    intro j
    cases j
    · obtain ⟨p, h1, h2⟩ := Option.bind_eq_some_iff.1 fx
      exact ⟨c.limits .x x vx, by simp, by simp [Ctx.limits, ha], rfl, rfl, p, h1, h2⟩
    · obtain ⟨p, h1, h2⟩ := Option.bind_eq_some_iff.1 fy
      exact ⟨c.limits .y y vy, by simp, by simp [Ctx.limits, ha], rfl, rfl, p, h1, h2⟩
  obtain ⟨l, hm, e1, e2, e3, p, h1, h2⟩ := one i
  obtain ⟨s1, s2⟩ := hc l hm
  refine ⟨expand (both sx sy i), et'.symm, fun k hk => ⟨?_, ?_⟩, fun k => ?_, fun z0 zn => ?_⟩
  · have := posAt_follows ((M.acc i).take hk)
    rw [List.length_take, min_eq_left hk, et] at this
    rw [this, ← et, htr.pos, htr.vel]
  · rw [← et]
    exact M.velAt htr i hk
  · have := Inside.accepted_inside (hl l hm).valid s1 s2 h1 h2 (List.take_append_drop k (expand (both sx sy i)))
    rwa [List.take_append_drop, e1, e2, e3] at this
  · rw [e2, z0, e3, zn] at h1
    have V := (hl l hm).valid
    rw [e2, e3, z0, zn] at s1 s2 V
    exact Inside.accepted_direct V s1 (by simpa using s2) h1 h2

/-- C136: during a move each axis is at each tick between its place at the start and its place at the end, or no farther away than
it moves while it turns from the speed that it has at the start or at the end. -/
theorem C136_move (aMax vMax : Axis → ℤ) (c c' : Ctx) (h : Reach aMax vMax c) (x y vx vy : ℤ)
    (hx : InLimits (x - (c.channels .x).pos) (c.channels .x).v vx (aMax .x) (vMax .x))
    (hy : InLimits (y - (c.channels .y).pos) (c.channels .y).v vy (aMax .y) (vMax .y))
    (hr : c.stepGotoSpeed x y vx vy = some c') (t t' : ℕ) (ht : c.ticks = some t)
    (ht' : c'.ticks = some t') (i : Axis) (τ : ℕ) (h1 : t ≤ τ) (h2 : τ ≤ t') :
    aMax i * min (posAt i c'.events t) (posAt i c'.events t')
        - max (turning (aMax i) (velAt i c'.events t)) (turning (aMax i) (velAt i c'.events t')) ≤ aMax i * posAt i c'.events τ ∧
    aMax i * posAt i c'.events τ ≤ aMax i * max (posAt i c'.events t) (posAt i c'.events t')
        + max (turning (aMax i) (velAt i c'.events t)) (turning (aMax i) (velAt i c'.events t')) := by
  obtain ⟨l, hl, hp, hnear, -⟩ := goto_shape aMax vMax c c' h x y vx vy hx hy hr t t' ht ht' i
  obtain ⟨k, rfl⟩ : ∃ k, τ = t + k := ⟨τ - t, by omega⟩
  obtain ⟨p1, -⟩ := hp k (by omega)
  obtain ⟨p2, w2⟩ := hp l.length le_rfl
  obtain ⟨p0, w0⟩ := hp 0 (by omega)
  rw [List.take_length] at p2 w2
  simp only [List.take_zero, dist, endVel, add_zero] at p0 w0
  have hend : velAt i c'.events t' = both vx vy i := by
    have := (C25_arrives aMax vMax c c' h x y vx vy hx hy hr).1
    have q := (C23_events_reproduce_state aMax vMax c' (.step (op := .goto x y vx vy) h trivial hr) t' ht').2
    rw [this] at q
    cases i
    · exact (congrArg Prod.fst q).symm
    · exact (congrArg Prod.snd q).symm
  obtain ⟨n1, n2⟩ := hnear k
  rw [← hl] at p2 w2
  rw [hend, p1, p0, w0, p2]
  unfold turning
  unfold Inside.turn at n1 n2
  generalize (c.channels i).pos = q at *
  generalize dist (c.channels i).v l = d at *
  generalize dist (c.channels i).v (l.take k) = m at *
  have e1 : min q (q + d) = q + min 0 d := by
    rcases le_total 0 d with hd | hd
    · rw [min_eq_left hd, min_eq_left (by omega)]; ring
    · rw [min_eq_right hd, min_eq_right (by omega)]
  have e2 : max q (q + d) = q + max 0 d := by
    rcases le_total 0 d with hd | hd
    · rw [max_eq_right hd, max_eq_right (by omega)]
    · rw [max_eq_left hd, max_eq_left (by omega)]; ring
  rw [e1, e2, mul_add, mul_add, mul_add]
  constructor <;> omega

/-- C136: a move from rest to rest goes straight: an axis does not turn, and it is never outside of the interval from its place at the
start to its place at the end. -/
theorem C136_rest (aMax vMax : Axis → ℤ) (c c' : Ctx) (h : Reach aMax vMax c) (x y : ℤ)
    (h0 : c.velocity = (0, 0))
    (hx : InLimits (x - (c.channels .x).pos) 0 0 (aMax .x) (vMax .x))
    (hy : InLimits (y - (c.channels .y).pos) 0 0 (aMax .y) (vMax .y))
    (hr : c.stepGotoSpeed x y 0 0 = some c') (t t' : ℕ) (ht : c.ticks = some t)
    (ht' : c'.ticks = some t') (i : Axis) :
    ((∀ τ, t ≤ τ → τ ≤ t' → 0 ≤ velAt i c'.events τ) ∨ (∀ τ, t ≤ τ → τ ≤ t' → velAt i c'.events τ ≤ 0)) ∧
    ∀ τ, t ≤ τ → τ ≤ t' → min (posAt i c'.events t) (posAt i c'.events t') ≤ posAt i c'.events τ ∧
      posAt i c'.events τ ≤ max (posAt i c'.events t) (posAt i c'.events t') := by
  have vz : ∀ j, (c.channels j).v = 0 := by
    intro j
    cases j
    · exact congrArg Prod.fst h0
    · exact congrArg Prod.snd h0
  rw [← vz .x] at hx
  rw [← vz .y] at hy
  nth_rw 2 [vz .x] at hx
  nth_rw 2 [vz .y] at hy
  have ha : 0 < aMax i := by
    cases i
    · exact hx.valid.a_pos
    · exact hy.valid.a_pos
  have bz : both (0 : ℤ) 0 i = 0 := by cases i <;> rfl
  obtain ⟨l, hl, hp, hnear, hd⟩ := goto_shape aMax vMax c c' h x y 0 0 hx hy hr t t' ht ht' i
  constructor
  · have key : ∀ τ, t ≤ τ → τ ≤ t' → velAt i c'.events τ = 0 ∨ velAt i c'.events τ ∈ vels 0 l := by
      intro τ h1 h2
      obtain ⟨k, rfl⟩ : ∃ k, τ = t + k := ⟨τ - t, by omega⟩
      rw [(hp k (by omega)).2, vz i]
      rcases Nat.eq_zero_or_pos k with rfl | hk
      · left; rfl
      · right
        exact endVel_take_mem _ _ hk (by omega)
    refine (hd (vz i) bz).imp (fun g τ h1 h2 => ?_) (fun g τ h1 h2 => ?_)
    · rcases key τ h1 h2 with e | e
      · rw [e]
      · exact g _ e
    · rcases key τ h1 h2 with e | e
      · rw [e]
      · exact g _ e
  · intro τ h1 h2
    obtain ⟨k, rfl⟩ : ∃ k, τ = t + k := ⟨τ - t, by omega⟩
    obtain ⟨p1, -⟩ := hp k (by omega)
    obtain ⟨p2, -⟩ := hp l.length le_rfl
    obtain ⟨p0, -⟩ := hp 0 (by omega)
    obtain ⟨n1, n2⟩ := hnear k
    rw [List.take_length, ← hl] at p2
    simp only [List.take_zero, dist, add_zero] at p0
    rw [vz i, bz] at n1 n2
    rw [vz i] at p1 p2
    have tz : Inside.turn (aMax i) 0 = 0 := by simp [Inside.turn]
    rw [tz, max_self, sub_zero] at n1
    rw [tz, max_self, add_zero] at n2
    have m1 := le_of_mul_le_mul_left n1 ha
    have m2 := le_of_mul_le_mul_left n2 ha
    rw [p0, p1, p2]
    omega

/-- The move of the program in `C25_returns_in_time`: 20000 half steps to one side and 4 to the other, which are never exceeded. -/
example : ∃ c', (Ctx.new (fun _ => 2) (fun _ => 100)).stepGotoSpeed 20000 (-4) 0 0 = some c' ∧ ∀ t', c'.ticks = some t' →
    ∀ τ ≤ t', 0 ≤ posAt .x c'.events τ ∧ posAt .x c'.events τ ≤ 20000 ∧ -4 ≤ posAt .y c'.events τ ∧ posAt .y c'.events τ ≤ 0 := by
  have hx : InLimits (20000 - ((Ctx.new (fun _ => 2) (fun _ => 100)).channels .x).pos) 0 0 2 100 :=
    ⟨by norm_num, by norm_num, by norm_num, by norm_num, by norm_num, by simp [Ctx.new]⟩
  have hy : InLimits (-4 - ((Ctx.new (fun _ => 2) (fun _ => 100)).channels .y).pos) 0 0 2 100 :=
    ⟨by norm_num, by norm_num, by norm_num, by norm_num, by norm_num, by simp [Ctx.new]⟩
  obtain ⟨c', e⟩ := C25_returns_in_time _ _ _ .new 20000 (-4) 0 0 hx hy
    (by norm_num) (by norm_num) (by norm_num) (by simp [Ctx.new]) (by simp [Ctx.new])
  refine ⟨c', e, fun t' ht' τ hτ => ?_⟩
  obtain ⟨-, -, -, a1, a2⟩ := C25_arrives _ _ _ c' .new 20000 (-4) 0 0 hx hy e
  have b1 := a1.2 (by norm_num)
  have b2 := a2.2 (by norm_num)
  have q := (C23_events_reproduce_state _ _ c' (.step (op := .goto 20000 (-4) 0 0) .new trivial e) t' ht').1
  have q1 : c'.position.1 = posAt .x c'.events t' := congrArg Prod.fst q
  have q2 : c'.position.2 = posAt .y c'.events t' := congrArg Prod.snd q
  have gx := (C136_rest _ _ _ c' .new 20000 (-4) rfl hx hy e 0 t' rfl ht' .x).2 τ (by omega) hτ
  have gy := (C136_rest _ _ _ c' .new 20000 (-4) rfl hx hy e 0 t' rfl ht' .y).2 τ (by omega) hτ
  have z : ∀ i, posAt i c'.events 0 = 0 := fun i => rfl
  rw [z, ← q1, b1] at gx
  rw [z, ← q2, b2] at gy
  omega

/-- With a speed of 7 and an acceleration of 2, a move to rest half a step ahead overshoots by at most 31: the way while it brakes and a
tick. -/
example (c c' : Ctx) (h : Reach (fun _ => 2) (fun _ => 100) c) (hv : c.velocity = (7, 0)) (hp : c.position = (7, 0))
    (hr : c.stepGotoSpeed 8 0 0 0 = some c') (t t' : ℕ) (ht : c.ticks = some t) (ht' : c'.ticks = some t') (τ : ℕ) (h1 : t ≤ τ)
    (h2 : τ ≤ t') : posAt .x c'.events τ ≤ 8 + 31 := by
  have vx : (c.channels .x).v = 7 := congrArg Prod.fst hv
  have vy : (c.channels .y).v = 0 := congrArg Prod.snd hv
  have px : (c.channels .x).pos = 7 := congrArg Prod.fst hp
  have py : (c.channels .y).pos = 0 := congrArg Prod.snd hp
  have hx : InLimits (8 - (c.channels .x).pos) (c.channels .x).v 0 2 100 := by
    rw [vx, px]
    exact ⟨by norm_num, by norm_num, by norm_num, by norm_num, by norm_num, by norm_num⟩
  have hy : InLimits (0 - (c.channels .y).pos) (c.channels .y).v 0 2 100 := by
    rw [vy, py]
    exact ⟨by norm_num, by norm_num, by norm_num, by norm_num, by norm_num, by norm_num⟩
  obtain ⟨ve, -, -, a1, -⟩ := C25_arrives _ _ _ c' h 8 0 0 0 hx hy hr
  have b1 := a1.2 (by norm_num)
  have R : Reach (fun _ => 2) (fun _ => 100) c' := .step (op := .goto 8 0 0 0) h trivial hr
  obtain ⟨q, r⟩ := C23_events_reproduce_state _ _ c' R t' ht'
  have q1 : c'.position.1 = posAt .x c'.events t' := congrArg Prod.fst q
  have r1 : c'.velocity.1 = velAt .x c'.events t' := congrArg Prod.fst r
  rw [ve] at r1
  obtain ⟨l, -, hp', -⟩ := goto_shape _ _ c c' h 8 0 0 0 hx hy hr t t' ht ht' .x
  obtain ⟨p0, w0⟩ := hp' 0 (by omega)
  have g := (C136_move _ _ c c' h 8 0 0 0 hx hy hr t t' ht ht' .x τ h1 h2).2
  simp only [List.take_zero, dist, endVel, add_zero, vx, px] at p0 w0
  rw [p0, w0, ← q1, b1, ← r1] at g
  norm_num [turning] at g
  omega

end StepperPaths.Props
