import Verif.Proof.StepperContext
import Verif.Props.IntegerCurve
import Verif.Props.AccVector

/-!
Properties C23-C31, C33 and C34: the stepper context.
-/

namespace StepperPaths.Props
open StepperPaths Spec IntegerCurve Context

/-- The calls a client can make. -/
inductive Op
  | addAcc (ax ay : Int) (interval : Nat)
  | weight (w : Int) (t : Nat)
  | goto (x y vx vy : Int)
  | speed (vx vy : Int)
  | approx (request : Nat → Ctx → Int × Int) (n : Nat)
  | setWeight (w : Int)
  | events
  | reset

/-- Effect of a call; `none` is a panic. -/
def Op.run : Op → Ctx → Option Ctx
  | .addAcc ax ay n, c => c.addAccInterval ax ay n
  | .weight w t, c => c.addWeightChange w t
  | .goto x y vx vy, c => c.stepGotoSpeed x y vx vy
  | .speed vx vy, c => c.speed vx vy
  | .approx request n, c => c.approxCurve request 1 n
  | .setWeight w, c => some (c.setWeight w)
  | .events, c => c.readEvents
  | .reset, c => some c.reset

/-- The sizes for which the arithmetic of a call is right: `add_acc_interval` casts the
interval to `i32`, `speed` casts the number of ticks to `u16` and `a_max` to `i16`. -/
def Op.Fits (c : Ctx) : Op → Prop
  | .addAcc _ _ n => n < 2 ^ 31
  | .speed vx vy => SpeedOk c .x vx ∧ SpeedOk c .y vy
  | _ => True

/-- States after a history of calls none of which panics. -/
inductive Reach (aMax vMax : Axis → Int) : Ctx → Prop
  | new : Reach aMax vMax (Ctx.new aMax vMax)
  | step {c c' : Ctx} {op : Op} : Reach aMax vMax c → op.Fits c → op.run c = some c' →
      Reach aMax vMax c'

/-- As `Op.Fits`, and the call neither moves the axes separately nor changes the weight in
the future. -/
def Op.InStep (c : Ctx) : Op → Prop
  | .addAcc _ _ n => n < 2 ^ 31
  | .speed _ _ => False
  | .weight _ t => c.ticks = some t
  | _ => True

/-- States after such a history. -/
inductive Sync (aMax vMax : Axis → Int) : Ctx → Prop
  | new : Sync aMax vMax (Ctx.new aMax vMax)
  | step {c c' : Ctx} {op : Op} : Sync aMax vMax c → op.InStep c → op.run c = some c' →
      Sync aMax vMax c'

theorem Sync.reach {aMax vMax : Axis → Int} {c : Ctx} (h : Sync aMax vMax c) : Reach aMax vMax c := by
  induction h with
  | new => exact .new
  | step _ hf hr ih =>
    refine .step ih ?_ hr
    rename_i op _
    cases op <;> simp_all [Op.Fits, Op.InStep]

theorem near_new (aMax vMax : Axis → Int) : Near (Ctx.new aMax vMax) :=
  ⟨rfl, fun i => by simp [Ctx.new]⟩

theorem near_reset (c : Ctx) : Near c.reset := ⟨rfl, fun i => by simp [Ctx.reset]⟩

/-- With a weight change in the future nothing but weight changes, `set_weight` and
`reset` is possible. -/
theorem future_blocks {c : Ctx} (h : ∀ i, (c.channels i).ticks < c.eventTicks) :
    (∀ ax ay n, c.addAccInterval ax ay n = none) ∧ (∀ x y vx vy, c.stepGotoSpeed x y vx vy = none) ∧
    c.readEvents = none ∧ (∀ request t n, 0 < n → c.approxCurve request t n = none) ∧
    (∀ vx vy, c.speed vx vy = none) := by
  have h1 : ∀ ax ay n, c.addAccInterval ax ay n = none := by
    intro ax ay n
    by_contra hc
    obtain ⟨c', hc⟩ := Option.ne_none_iff_exists'.1 hc
    unfold Ctx.addAccInterval Ctx.addAccChannel at hc
    rw [cassert_bind] at hc
    obtain ⟨-, hc⟩ := hc
    obtain ⟨c1, hc1, -⟩ := Option.bind_eq_some_iff.1 hc
    obtain ⟨_, -, hc1⟩ := Option.bind_eq_some_iff.1 hc1
    obtain ⟨_, -, hc1⟩ := Option.bind_eq_some_iff.1 hc1
    obtain ⟨_, hc1, -⟩ := Option.bind_eq_some_iff.1 hc1
    rw [push_none (h _)] at hc1
    cases hc1
  refine ⟨h1, ?_, ?_, ?_, ?_⟩
  · intro x y vx vy
    by_contra hc
    obtain ⟨c', hc⟩ := Option.ne_none_iff_exists'.1 hc
    obtain ⟨-, -, c1, -, -, hp, -⟩ := stepGotoSpeed_eq hc
    rw [push_none (h _)] at hp
    cases hp
  · by_contra hc
    obtain ⟨c', hc⟩ := Option.ne_none_iff_exists'.1 hc
    unfold Ctx.readEvents at hc
    rw [cassert_bind] at hc
    obtain ⟨c1, hp, -⟩ := Option.bind_eq_some_iff.1 hc.2
    rw [push_none (h _)] at hp
    cases hp
  · intro request t n hn
    by_contra hc
    obtain ⟨c', hc⟩ := Option.ne_none_iff_exists'.1 hc
    obtain ⟨m, rfl⟩ : ∃ m, n = m + 1 := ⟨n - 1, by omega⟩
    simp only [Ctx.approxCurve] at hc
    obtain ⟨c1, hc1, -⟩ := Option.bind_eq_some_iff.1 hc
    obtain ⟨_, _, -, -, hc1⟩ := approxTick_eq hc1
    rw [h1] at hc1
    cases hc1
  · intro vx vy
    by_contra hc
    obtain ⟨c', hc⟩ := Option.ne_none_iff_exists'.1 hc
    unfold Ctx.speed at hc
    obtain ⟨⟨chx, sx⟩, e1, hc⟩ := Option.bind_eq_some_iff.1 hc
    obtain ⟨⟨chy, sy⟩, e2, hc⟩ := Option.bind_eq_some_iff.1 hc
    simp only at hc
    have ticks : ∀ {ch ch' : Channel} {a v : Int} {s : List AccSegment},
        speedChannel ch a v = some (ch', s) → ch'.ticks = ch.ticks ∧ s ≠ [] := by
      intro ch ch' a v s hs
      unfold speedChannel at hs
      obtain ⟨_, -, hs⟩ := Option.bind_eq_some_iff.1 hs
      obtain ⟨_, -, hs⟩ := Option.bind_eq_some_iff.1 hs
      obtain ⟨_, -, hs⟩ := Option.bind_eq_some_iff.1 hs
      obtain ⟨_, -, hs⟩ := Option.bind_eq_some_iff.1 hs
      obtain ⟨_, -, hs⟩ := Option.bind_eq_some_iff.1 hs
      obtain ⟨_, -, hs⟩ := Option.bind_eq_some_iff.1 hs
      obtain ⟨_, -, hs⟩ := Option.bind_eq_some_iff.1 hs
      obtain ⟨_, -, hs⟩ := Option.bind_eq_some_iff.1 hs
      simp only at hs
      split at hs
      · obtain ⟨_, -, hs⟩ := Option.bind_eq_some_iff.1 hs
        obtain ⟨_, -, hs⟩ := Option.bind_eq_some_iff.1 hs
        cases hs
        exact ⟨rfl, by simp⟩
      · cases hs
        exact ⟨rfl, by simp⟩
    obtain ⟨t1, s1⟩ := ticks e1
    obtain ⟨t2, s2⟩ := ticks e2
    have blocked : ∀ (i : Axis) (seg : AccSegment),
        ((c.setCh .x chx).setCh .y chy).takeSegment i seg = none := by
      intro i seg
      by_contra hc
      obtain ⟨c', hc⟩ := Option.ne_none_iff_exists'.1 hc
      unfold Ctx.takeSegment at hc
      rw [cassert_bind] at hc
      have := hc.1
      have hi := h i
      cases i
      · simp [Ctx.setCh, t1] at this
        omega
      · simp [Ctx.setCh, t2] at this
        omega
    obtain ⟨a, sx, rfl⟩ := List.exists_cons_of_ne_nil s1
    obtain ⟨b, sy, rfl⟩ := List.exists_cons_of_ne_nil s2
    by_cases hlt : (((c.setCh .x chx).setCh .y chy).channels .y).ticks <
        (((c.setCh .x chx).setCh .y chy).channels .x).ticks
    · rw [merge_y hlt, blocked] at hc
      cases hc
    · rw [merge_x hlt, blocked] at hc
      cases hc

/-- What holds in every reachable state. -/
theorem Reach.inv {aMax vMax : Axis → Int} {c : Ctx} (h : Reach aMax vMax c) :
    Timing c ∧ Tracks c ∧ c.aMax = aMax ∧ c.vMax = vMax ∧ c.moveWeight = 0 := by
  induction h with
  | new =>
    exact ⟨.inl (near_new _ _), ⟨fun i => by simp [Ctx.new, posAt, played, dist],
      fun i => by simp [Ctx.new, velAt, played, endVel]⟩, rfl, rfl, rfl⟩
  | step hc hf hr ih =>
    obtain ⟨ht, htr, ha, hv, hm⟩ := ih
    rename_i c c' op
    have of_moved : ∀ {l}, Moved c c' l →
        Timing c' ∧ Tracks c' ∧ c'.aMax = aMax ∧ c'.vMax = vMax ∧ c'.moveWeight = 0 := fun M =>
      ⟨.inl M.near, M.tracks htr, M.aMax.trans ha, M.vMax.trans hv, M.mw.trans hm⟩
    cases op with
    | addAcc ax ay n =>
      rcases ht with hn | hfu
      · exact of_moved (addAccInterval_spec hn (by simpa [Op.Fits] using hf) hr).1
      · have := (future_blocks hfu).1 ax ay n
        simp only [Op.run] at hr
        rw [this] at hr
        cases hr
    | weight w t =>
      refine ⟨addWeightChange_timing ht hr, ?_⟩
      obtain ⟨q1, q2, q3, q4, q5, q6⟩ := push_far (addWeightChange_eq hr).2
      obtain ⟨-, e⟩ := push_eq (addWeightChange_eq hr).2
      exact ⟨tracks_idle htr q1 (fun i τ _ => q6 i τ), q4.trans ha, q5.trans hv, by rw [e]; exact hm⟩
    | goto x y vx vy =>
      rcases ht with hn | hfu
      · obtain ⟨_, _, -, -, M, -⟩ := goto_spec hn hr
        exact of_moved M
      · have := (future_blocks hfu).2.1 x y vx vy
        simp only [Op.run] at hr
        rw [this] at hr
        cases hr
    | speed vx vy =>
      rcases ht with hn | hfu
      · obtain ⟨_, M, -⟩ := speed_spec hn hf.1 hf.2 hr
        exact of_moved M
      · have := (future_blocks hfu).2.2.2.2 vx vy
        simp only [Op.run] at hr
        rw [this] at hr
        cases hr
    | approx request n =>
      rcases ht with hn | hfu
      · obtain ⟨_, M, -⟩ := approxCurve_spec hn hr
        exact of_moved M
      · rcases Nat.eq_zero_or_pos n with rfl | hn
        · simp only [Op.run, Ctx.approxCurve, Option.some.injEq] at hr
          subst hr
          exact ⟨.inr hfu, htr, ha, hv, hm⟩
        · have := (future_blocks hfu).2.2.2.1 request 1 n hn
          simp only [Op.run] at hr
          rw [this] at hr
          cases hr
    | setWeight w =>
      cases hr
      refine ⟨?_, tracks_idle htr rfl (fun _ _ _ => rfl), ha, hv, hm⟩
      rcases ht with hn | hfu
      · exact .inl ⟨hn.timed, hn.gap⟩
      · exact .inr hfu
    | events =>
      rcases ht with hn | hfu
      · obtain ⟨hxy, q0, q1, q2, q3, q4, q5, q6, q7, q8, q9, q10, -⟩ := readEvents_spec hn hr
        refine ⟨.inl q1, tracks_idle htr q2 (fun i τ hτ => ?_), q3.trans ha, q4.trans hv, q5.trans hm⟩
        rw [q9, if_pos]
        cases i <;> omega
      · have := (future_blocks hfu).2.2.1
        simp only [Op.run] at hr
        rw [this] at hr
        cases hr
    | reset =>
      cases hr
      exact ⟨.inl (near_reset c), ⟨fun i => by simp [Ctx.reset, posAt, played, dist],
        fun i => by simp [Ctx.reset, velAt, played, endVel]⟩, ha, hv, hm⟩

/-- What holds in addition when the axes are never moved separately. -/
theorem Sync.inv {aMax vMax : Axis → Int} {c : Ctx} (h : Sync aMax vMax c) :
    Near c ∧ (c.channels .x).ticks = (c.channels .y).ticks ∧ c.eventTicks ≤ (c.channels .x).ticks := by
  have ticks_eq : ∀ {c : Ctx} {t : Nat}, c.ticks = some t → (c.channels .x).ticks = t := by
    intro c t h
    unfold Ctx.ticks at h
    rw [cassert_bind] at h
    cases h.2
    rfl
  have of_near : ∀ {c c' : Ctx} {l : Axis → List Int}, Moved c c' l →
      (c'.channels .x).ticks = (c'.channels .y).ticks →
      c'.eventTicks ≤ (c'.channels .x).ticks →
      Near c' ∧ (c'.channels .x).ticks = (c'.channels .y).ticks ∧
        c'.eventTicks ≤ (c'.channels .x).ticks := fun M h1 h2 => ⟨M.near, h1, h2⟩
  have approx : ∀ (request : Nat → Ctx → Int × Int) (n t : Nat) (c c' : Ctx),
      Near c ∧ (c.channels .x).ticks = (c.channels .y).ticks ∧ c.eventTicks ≤ (c.channels .x).ticks →
      c.approxCurve request t n = some c' →
      Near c' ∧ (c'.channels .x).ticks = (c'.channels .y).ticks ∧
        c'.eventTicks ≤ (c'.channels .x).ticks := by
    intro request n
    induction n with
    | zero =>
      intro t c c' h hr
      simp only [Ctx.approxCurve, Option.some.injEq] at hr
      subst hr
      exact h
    | succ n ih =>
      intro t c c' h hr
      simp only [Ctx.approxCurve] at hr
      obtain ⟨c1, h1, hr⟩ := Option.bind_eq_some_iff.1 hr
      obtain ⟨bx, yb, -, -, h1⟩ := approxTick_eq h1
      obtain ⟨M, -, hxy, hle, he, -⟩ := addAccInterval_spec h.1 (by norm_num) h1
      refine ih (t + 1) c1 c' (of_near M ?_ ?_) hr
      · rw [M.ch .x, M.ch .y]
        simp only [List.length_replicate]
        omega
      · rw [he, M.ch .x]
        simp
  induction h with
  | new => exact ⟨near_new _ _, rfl, le_rfl⟩
  | step hc hf hr ih =>
    obtain ⟨hn, hxy, hle⟩ := ih
    rename_i c c' op
    cases op with
    | addAcc ax ay n =>
      obtain ⟨M, -, -, -, he, -⟩ := addAccInterval_spec hn (by simpa [Op.InStep] using hf) hr
      refine of_near M ?_ ?_
      · rw [M.ch .x, M.ch .y]
        simp only [List.length_replicate]
        omega
      · rw [he, M.ch .x]
        simp
    | weight w t =>
      obtain ⟨h1, hp⟩ := addWeightChange_eq hr
      obtain ⟨q1, q2, -⟩ := push_far hp
      have ht := ticks_eq hf
      have hg := hn.gap .x
      rw [q1, q2]
      exact ⟨near_push hn hp (by omega), hxy, by omega⟩
    | goto x y vx vy =>
      obtain ⟨sx, sy, hs, hle', M, -, -, ht, -⟩ := goto_spec hn hr
      obtain ⟨-, -, c1, sx', sy', hp, hs', hr'⟩ := stepGotoSpeed_eq hr
      refine of_near M ht ?_
      -- the merge ends no later than the axes
      unfold Ctx.gotoFollow Ctx.gotoChannel at hr'
      obtain ⟨c2, e2, hr'⟩ := Option.bind_eq_some_iff.1 hr'
      obtain ⟨⟨s1, v1⟩, d1, f1⟩ := Option.bind_eq_some_iff.1 e2
      clear e2
      simp only at f1
      rw [cassert_bind] at f1
      obtain ⟨-, f1⟩ := f1
      cases f1
      obtain ⟨c3, e3, hr'⟩ := Option.bind_eq_some_iff.1 hr'
      obtain ⟨⟨s2, v2⟩, d2, f2⟩ := Option.bind_eq_some_iff.1 e3
      clear e3
      simp only at f2
      rw [cassert_bind] at f2
      obtain ⟨-, f2⟩ := f2
      cases f2
      obtain ⟨c4, e4, hr'⟩ := Option.bind_eq_some_iff.1 hr'
      rw [cassert_bind] at hr'
      obtain ⟨-, hr'⟩ := hr'
      cases hr'
      have hg := hn.gap .x
      have n1 := near_push hn hp (by omega)
      obtain ⟨q1, q2, -⟩ := push_far hp
      have u := sequences_u16 hs'
      have MM := merge_spec _ _ sx' sy' (by
        refine ⟨?_, fun i => ?_⟩
        · have := n1.timed
          simpa [Timed, Ctx.setCh] using this
        · have := n1.gap i
          cases i <;> simpa [Ctx.setCh] using this) (u sx' (by simp)) (u sy' (by simp)) e4
      have hl := MM.last
      have cx := congrArg Channel.ticks MM.chx
      have cy := congrArg Channel.ticks MM.chy
      simp only [Ctx.setCh, q1, q2] at hl cx cy
      simp at hl cx cy
      omega
    | speed vx vy => exact hf.elim
    | approx request n => exact approx request n 1 c c' ⟨hn, hxy, hle⟩ hr
    | setWeight w =>
      cases hr
      exact ⟨⟨hn.timed, hn.gap⟩, hxy, hle⟩
    | events =>
      obtain ⟨-, q0, q1, q2, q3, q4, q5, q6, q7, -⟩ := readEvents_spec hn hr
      rw [q2]
      exact ⟨q1, hxy, by omega⟩
    | reset =>
      cases hr
      exact ⟨near_reset c, rfl, le_rfl⟩

theorem ticks_some {c : Ctx} {t : Nat} : c.ticks = some t ↔
    (c.channels .x).ticks = t ∧ (c.channels .y).ticks = t := by
  unfold Ctx.ticks
  rw [cassert_bind]
  constructor
  · rintro ⟨h1, h2⟩
    cases h2
    exact ⟨rfl, h1.symm⟩
  · rintro ⟨h1, h2⟩
    exact ⟨by omega, by rw [h1]; rfl⟩

/-! ### C23 -/

/-- C23: after every history of calls, playing the events from rest leads at time `ticks()`
to `position()` and `velocity()`. -/
theorem C23_events_reproduce_state (aMax vMax : Axis → Int) (c : Ctx) (h : Reach aMax vMax c)
    (t : Nat) (ht : c.ticks = some t) :
    c.position = (posAt .x c.events t, posAt .y c.events t) ∧
    c.velocity = (velAt .x c.events t, velAt .y c.events t) := by
  obtain ⟨-, htr, -⟩ := h.inv
  obtain ⟨hx, hy⟩ := ticks_some.1 ht
  have p1 := htr.pos .x
  have p2 := htr.pos .y
  have v1 := htr.vel .x
  have v2 := htr.vel .y
  rw [hx] at p1 v1
  rw [hy] at p2 v2
  simp [Ctx.position, Ctx.velocity, p1, p2, v1, v2]

/-- C23: the condition on the interval is needed: for every longer `u32` interval with
acceleration 1 the tracked velocity is negative, while the controller ends with a
positive one. -/
theorem C23_long_interval_wrong (aMax vMax : Axis → Int) (n : Nat) (h1 : 2 ^ 31 ≤ n)
    (h2 : n < 2 ^ 32) :
    ∃ c', (Ctx.new aMax vMax).addAccInterval 1 0 n = some c' ∧ c'.ticks = some n ∧
      c'.velocity.1 < 0 ∧ velAt .x c'.events n = n := by
  norm_num at h1 h2
  have ea : asI32 n = (n : Int) - 4294967296 := by
    unfold asI32
    have : n % 4294967296 = n := Nat.mod_eq_of_lt h2
    simp only [this]
    rw [if_neg (by omega)]
  have hacc : ∀ τ, accAt .x [⟨0, .acc .x 1⟩, ⟨0, .acc .y 0⟩] τ = 1 := by
    intro τ
    simp [accAt, valueFrom, accAfter]
  have hvel : velAt .x [⟨0, .acc .x 1⟩, ⟨0, .acc .y 0⟩] n = n := by
    unfold velAt played
    rw [show accAt .x [⟨0, .acc .x 1⟩, ⟨0, .acc .y 0⟩] = fun _ => 1 from funext hacc]
    rw [endVel_eq_sum]
    simp
  refine ⟨⟨both ⟨n * n, n - 4294967296, n⟩ ⟨0, 0, n⟩, aMax, vMax,
    [⟨0, .acc .x 1⟩, ⟨0, .acc .y 0⟩], 0, 0, 255⟩, ?_, ticks_some.2 ⟨rfl, rfl⟩, ?_, hvel⟩
  · unfold Ctx.addAccInterval Ctx.addAccChannel Ctx.push tickDiff cassert Ctx.setCh Ctx.new
    rw [if_pos (by omega), ea]
    simp only [mul_one, mul_zero, zero_add]
    rw [toI32_some (by omega) (by omega)]
    simp only [Option.bind_eq_bind, Option.bind_some]
    rw [toI32_some (by omega) (by omega)]
    simp [toI32]
    funext i
    cases i <;> simp [both]
  · simp only [Ctx.velocity, both]; omega

/-! ### C24 -/

/-- C24: as long as the axes are not moved separately and weights change at the current
tick, `ticks()` does not panic and the last event is neither later than `ticks()` nor 2³²
or more ticks earlier. -/
theorem C24_lock_step (aMax vMax : Axis → Int) (c : Ctx) (h : Sync aMax vMax c) :
    ∃ t, c.ticks = some t ∧ duration c.events ≤ t ∧ t < duration c.events + 2 ^ 32 := by
  obtain ⟨hn, hxy, hle⟩ := h.inv
  have hg := hn.gap .x
  have ht := hn.timed
  unfold Timed at ht
  exact ⟨_, ticks_some.2 ⟨rfl, hxy.symm⟩, by omega, by norm_num; omega⟩

/-- C24: the commands of an `add_acc_interval` take effect exactly at the tick of the call. -/
theorem C24_acc_takes_effect (aMax vMax : Axis → Int) (c c' : Ctx) (h : Sync aMax vMax c) (t : Nat)
    (ht : c.ticks = some t) (ax ay : Int) (n : Nat) (hlt : n < 2 ^ 31)
    (hr : c.addAccInterval ax ay n = some c') (τ : Nat) (hτ : τ < t + n) :
    c'.ticks = some (t + n) ∧
    accAt .x c'.events τ = (if τ < t then accAt .x c.events τ else ax) ∧
    accAt .y c'.events τ = (if τ < t then accAt .y c.events τ else ay) ∧
    ∀ w, weightAt w c'.events τ = weightAt w c.events τ := by
  obtain ⟨hn, hxy, hle⟩ := h.inv
  obtain ⟨hx, hy⟩ := ticks_some.1 ht
  obtain ⟨M, -, -, -, -, hw⟩ := addAccInterval_spec hn (by norm_num at hlt; exact hlt) hr
  refine ⟨ticks_some.2 ⟨by rw [M.ch .x]; simp [hx], by rw [M.ch .y]; simp [hy]⟩, ?_, ?_,
    fun w => hw w τ⟩
  · have := M.acc .x τ (by simp; omega)
    rw [this, hx]
    by_cases hlt : τ < t
    · rw [dif_neg (by omega), if_pos hlt]
    · rw [dif_pos (by simp; omega), if_neg hlt]
      simp [both]
  · have := M.acc .y τ (by simp; omega)
    rw [this, hy]
    by_cases hlt : τ < t
    · rw [dif_neg (by omega), if_pos hlt]
    · rw [dif_pos (by simp; omega), if_neg hlt]
      simp [both]

/-- C24: a weight change takes effect exactly at the given tick. -/
theorem C24_weight_takes_effect (aMax vMax : Axis → Int) (c c' : Ctx) (h : Sync aMax vMax c)
    (w : Int) (t : Nat) (hlt : t < duration c.events + 2 ^ 32)
    (hr : c.addWeightChange w t = some c') (τ : Nat) :
    (∀ w0, weightAt w0 c'.events τ = if τ < t then weightAt w0 c.events τ else w) ∧
    ∀ i, accAt i c'.events τ = accAt i c.events τ := by
  obtain ⟨hn, hxy, hle⟩ := h.inv
  have ht := hn.timed
  unfold Timed at ht
  norm_num at hlt
  obtain ⟨h1, hp⟩ := addWeightChange_eq hr
  obtain ⟨q1, q2, q3, q4, q5, q6, q7, q8, q9, q10⟩ := push_spec hp hn.timed (by omega)
  refine ⟨fun w0 => ?_, fun i => ?_⟩
  · rw [q10]; simp [weightAfter]
  · rw [q9]; simp [accAfter]

/-! ### C25 -/

/-- C25: in every reachable state the position has the parity of the velocity. -/
theorem C25_parity (aMax vMax : Axis → Int) (c : Ctx) (h : Reach aMax vMax c) (i : Axis) :
    ((c.channels i).pos - (c.channels i).v) % 2 = 0 := by
  obtain ⟨-, htr, -⟩ := h.inv
  rw [htr.pos, htr.vel]
  have := dist_parity 0 (played i c.events (c.channels i).ticks)
  unfold posAt velAt
  omega

/-- C25: from any reachable state and for any target within the limits `step_goto_speed`
ends with the requested velocity and within one step of the target; it reaches the target
exactly when target and velocity have the same parity. -/
theorem C25_arrives (aMax vMax : Axis → Int) (c c' : Ctx) (h : Reach aMax vMax c) (x y vx vy : Int)
    (hx : InLimits (x - (c.channels .x).pos) (c.channels .x).v vx (aMax .x) (vMax .x))
    (hy : InLimits (y - (c.channels .y).pos) (c.channels .y).v vy (aMax .y) (vMax .y))
    (hr : c.stepGotoSpeed x y vx vy = some c') :
    c'.velocity = (vx, vy) ∧ |c'.position.1 - x| ≤ 1 ∧ |c'.position.2 - y| ≤ 1 ∧
      (c'.position.1 = x ↔ (x - vx) % 2 = 0) ∧ (c'.position.2 = y ↔ (y - vy) % 2 = 0) := by
  obtain ⟨hti, htr, ha, hv, -⟩ := h.inv
  have hn : Near c := by
    rcases hti with hn | hfu
    · exact hn
    · rw [(future_blocks hfu).2.1] at hr
      cases hr
  obtain ⟨sx, sy, hs, -, M, v1, v2, -, -⟩ := goto_spec hn hr
  obtain ⟨T, -, F⟩ := C16_synchronised _ (by simp) (by
    intro l hl
    simp only [List.mem_cons, List.not_mem_nil, or_false] at hl
    rcases hl with rfl | rfl
    · simpa [Ctx.limits, ha, hv] using hx
    · simpa [Ctx.limits, ha, hv] using hy) _ hs
  obtain ⟨rx, F⟩ := List.forall₂_cons.1 F
  obtain ⟨ry, -⟩ := List.forall₂_cons.1 F
  have nx := rx.near
  have ny := ry.near
  simp only [Ctx.limits] at nx ny
  have ex : c'.position.1 = (c.channels .x).pos + dist (c.channels .x).v (expand sx) := by
    simp only [Ctx.position]; rw [M.ch .x]; rfl
  have ey : c'.position.2 = (c.channels .y).pos + dist (c.channels .y).v (expand sy) := by
    simp only [Ctx.position]; rw [M.ch .y]; rfl
  have r' : Reach aMax vMax c' := .step (op := .goto x y vx vy) h trivial hr
  have pvx : (c'.channels .x).v = vx := by rw [M.ch .x]; exact v1
  have pvy : (c'.channels .y).v = vy := by rw [M.ch .y]; exact v2
  have qx := C25_parity aMax vMax c' r' .x
  have qy := C25_parity aMax vMax c' r' .y
  rw [pvx] at qx
  rw [pvy] at qy
  have qx' : (c'.position.1 - vx) % 2 = 0 := qx
  have qy' : (c'.position.2 - vy) % 2 = 0 := qy
  rw [abs_le] at nx ny
  refine ⟨by simp only [Ctx.velocity, pvx, pvy], by rw [abs_le]; omega, by rw [abs_le]; omega, ?_, ?_⟩
  · constructor <;> intro h <;> omega
  · constructor <;> intro h <;> omega

/-- C25: the call returns when the limits fit `i16` and `i32` and some duration of at most
65535 ticks is possible on both axes. -/
theorem C25_returns (aMax vMax : Axis → Int) (c : Ctx) (h : Sync aMax vMax c) (x y vx vy : Int)
    (hx : InLimits (x - (c.channels .x).pos) (c.channels .x).v vx (aMax .x) (vMax .x))
    (hy : InLimits (y - (c.channels .y).pos) (c.channels .y).v vy (aMax .y) (vMax .y))
    (ha : ∀ i, aMax i ≤ 32767) (hv : ∀ i, vMax i < 2 ^ 30) (T : Int) (hT : T ≤ 65535)
    (hcx : ∃ r, shortestCurveLength (x - (c.channels .x).pos) (c.channels .x).v vx (aMax .x)
      (vMax .x) = some r ∧ Contains r.ranges T)
    (hcy : ∃ r, shortestCurveLength (y - (c.channels .y).pos) (c.channels .y).v vy (aMax .y)
      (vMax .y) = some r ∧ Contains r.ranges T) :
    ∃ c', c.stepGotoSpeed x y vx vy = some c' := by
  obtain ⟨hn, hxy, hle⟩ := h.inv
  obtain ⟨-, -, ea, ev, -⟩ := h.reach.inv
  have hin : ∀ l ∈ [c.limits .x x vx, c.limits .y y vy], InLimits l.ds l.v0 l.vn l.a l.vmax := by
    intro l hl
    simp only [List.mem_cons, List.not_mem_nil, or_false] at hl
    rcases hl with rfl | rfl
    · simpa [Ctx.limits, ea, ev] using hx
    · simpa [Ctx.limits, ea, ev] using hy
  obtain ⟨seqs, hs⟩ := C16_returns [c.limits .x x vx, c.limits .y y vy] (by simp) (by
    intro l hl
    refine ⟨hin l hl, ?_⟩
    simp only [List.mem_cons, List.not_mem_nil, or_false] at hl
    rcases hl with rfl | rfl
    · simpa [Ctx.limits, ea] using ha .x
    · simpa [Ctx.limits, ea] using ha .y) T hT (by
    intro l hl
    simp only [List.mem_cons, List.not_mem_nil, or_false] at hl
    rcases hl with rfl | rfl
    · simpa [Ctx.limits, ea, ev] using hcx
    · simpa [Ctx.limits, ea, ev] using hcy)
  obtain ⟨T', -, F⟩ := C16_synchronised _ (by simp) hin _ hs
  obtain ⟨sx, l1, rx, F1, rfl⟩ := List.forall₂_cons_left_iff.1 F
  obtain ⟨sy, l2, ry, F2, rfl⟩ := List.forall₂_cons_left_iff.1 F1
  have : l2 = [] := List.forall₂_nil_left_iff.1 F2
  subst this
  have dist_ok : ∀ (l : PathLimits) (segs : List AccSegment), Realises T' l segs → |l.v0| ≤ l.vmax →
      l.vmax < 2 ^ 30 → accDistance segs l.v0 = some (dist l.v0 (expand segs), l.vn) := by
    intro l segs r h0 hb
    rw [← r.motion.endv]
    apply C21_distance_returns _ _ (by omega)
    intro n hn
    have e : expand segs = expand (segs.take n) ++ expand (segs.drop n) := by
      rw [← expand_append, List.take_append_drop]
    have e2 : expand (segs.take n) = (expand segs).take (expand (segs.take n)).length := by
      conv_rhs => rw [e]
      simp
    rw [e2]
    have := r.motion.take_vel h0 (expand (segs.take n)).length
    omega
  have bx := dist_ok _ _ rx (by simpa [Ctx.limits, ev] using hx.start)
    (by simpa [Ctx.limits, ev] using hv .x)
  have yb := dist_ok _ _ ry (by simpa [Ctx.limits, ev] using hy.start)
    (by simpa [Ctx.limits, ev] using hv .y)
  refine goto_ok hn hxy hle ?_ ?_ hs ?_ bx yb
  · rw [ev]; exact le_trans (le_abs_self _) hx.stop
  · rw [ev]; exact le_trans (le_abs_self _) hy.stop
  · have := rx.ticks
    have := ry.ticks
    omega

/-- C25: an explicit condition for the call to return: within 65535 ticks there is time to
change the velocities, and to go the distance at half of the maximum speed. -/
theorem C25_returns_in_time (aMax vMax : Axis → Int) (c : Ctx) (h : Sync aMax vMax c)
    (x y vx vy : Int)
    (hx : InLimits (x - (c.channels .x).pos) (c.channels .x).v vx (aMax .x) (vMax .x))
    (hy : InLimits (y - (c.channels .y).pos) (c.channels .y).v vy (aMax .y) (vMax .y))
    (ha : ∀ i, aMax i ≤ 32767) (hv : ∀ i, vMax i < 2 ^ 30)
    (hr : ∀ i, 8 * vMax i + 4 * aMax i ≤ aMax i * 65535)
    (hdx : |x - (c.channels .x).pos| ≤ vMax .x * 65535)
    (hdy : |y - (c.channels .y).pos| ≤ vMax .y * 65535) :
    ∃ c', c.stepGotoSpeed x y vx vy = some c' := by
  have key : ∀ {ds v0 vn a vmax : Int}, InLimits ds v0 vn a vmax → 8 * vmax + 4 * a ≤ a * 65535 →
      |ds| ≤ vmax * 65535 → ∃ r, shortestCurveLength ds v0 vn a vmax = some r ∧
        Contains r.ranges 65535 := by
    intro ds v0 vn a vmax hl h1 h2
    obtain ⟨r, e, -, -, hc⟩ := scl_spec hl.valid
    refine ⟨r, e, (hc 65535).2 ⟨SideOK.long hl.valid (by norm_num [i64Max]) h1 h2, ?_⟩⟩
    exact SideOK.long hl.valid.neg (by norm_num [i64Max]) h1 (by rw [abs_neg]; exact h2)
  exact C25_returns aMax vMax c h x y vx vy hx hy ha hv 65535 le_rfl
    (key hx (hr .x) hdx) (key hy (hr .y) hdy)

/-- From rest 20000 and -3 steps can be done with limits 2 and 100. -/
example : ∃ c', (Ctx.new (fun _ => 2) (fun _ => 100)).stepGotoSpeed 20000 (-3) 7 0 = some c' :=
  C25_returns_in_time _ _ _ .new 20000 (-3) 7 0
    ⟨by norm_num, by norm_num, by norm_num, by simp [Ctx.new], by norm_num, by simp [Ctx.new]⟩
    ⟨by norm_num, by norm_num, by norm_num, by simp [Ctx.new], by norm_num, by simp [Ctx.new]⟩
    (by norm_num) (by norm_num) (by norm_num) (by simp [Ctx.new]) (by simp [Ctx.new])

/-! ### C26 -/

/-- C26: while the events of a `step_goto_speed` are played, no axis exceeds its
acceleration or its speed limit during any tick. -/
theorem C26_limits_during_goto (aMax vMax : Axis → Int) (c c' : Ctx) (h : Reach aMax vMax c)
    (x y vx vy : Int)
    (hx : InLimits (x - (c.channels .x).pos) (c.channels .x).v vx (aMax .x) (vMax .x))
    (hy : InLimits (y - (c.channels .y).pos) (c.channels .y).v vy (aMax .y) (vMax .y))
    (hr : c.stepGotoSpeed x y vx vy = some c') (t t' : Nat) (ht : c.ticks = some t)
    (ht' : c'.ticks = some t') (i : Axis) :
    t < t' ∧ ∀ τ, t ≤ τ → τ < t' → |accAt i c'.events τ| ≤ aMax i ∧
      |velAt i c'.events (τ + 1)| ≤ vMax i := by
  obtain ⟨hti, htr, ha, hv, -⟩ := h.inv
  have hn : Near c := by
    rcases hti with hn | hfu
    · exact hn
    · rw [(future_blocks hfu).2.1] at hr
      cases hr
  obtain ⟨sx, sy, hs, -, M, v1, v2, -, -⟩ := goto_spec hn hr
  obtain ⟨T, hT, F⟩ := C16_synchronised _ (by simp) (by
    intro l hl
    simp only [List.mem_cons, List.not_mem_nil, or_false] at hl
    rcases hl with rfl | rfl
    · simpa [Ctx.limits, ha, hv] using hx
    · simpa [Ctx.limits, ha, hv] using hy) _ hs
  obtain ⟨rx, F⟩ := List.forall₂_cons.1 F
  obtain ⟨ry, -⟩ := List.forall₂_cons.1 F
  have mot : Motion (aMax i) (vMax i) (c.channels i).v (both vx vy i) (expand (both sx sy i)) ∧
      ((expand (both sx sy i)).length : Int) = T := by
    cases i
    · have := rx.motion
      rw [← ha, ← hv]
      exact ⟨this, rx.ticks⟩
    · have := ry.motion
      rw [← ha, ← hv]
      exact ⟨this, ry.ticks⟩
  have et : (c.channels i).ticks = t := by
    cases i
    · exact (ticks_some.1 ht).1
    · exact (ticks_some.1 ht).2
  have et' : (c'.channels i).ticks = t' := by
    cases i
    · exact (ticks_some.1 ht').1
    · exact (ticks_some.1 ht').2
  rw [M.ch i] at et'
  simp only [et] at et'
  refine ⟨by omega, fun τ h1 h2 => ?_⟩
  obtain ⟨k, rfl⟩ : ∃ k, τ = t + k := ⟨τ - t, by omega⟩
  rw [← et]
  constructor
  · rw [M.accAt i (by omega)]
    exact mot.1.acc _ (List.getElem_mem _)
  · rw [show (c.channels i).ticks + k + 1 = (c.channels i).ticks + (k + 1) by omega,
      M.velAt htr i (by omega)]
    exact mot.1.vel _ (endVel_take_mem _ _ (by omega) (by omega))

/-! ### C27 -/

/-- C27: merging two segment lists returns and gives each axis exactly its own accelerations
from its own tick on, whatever the lengths of the lists and of the segments. -/
theorem C27_merge_faithful (c : Ctx) (sx sy : List AccSegment)
    (ht : duration c.events = c.eventTicks)
    (hle : ∀ i, c.eventTicks ≤ (c.channels i).ticks)
    (hlt : ∀ i, (c.channels i).ticks < c.eventTicks + 2 ^ 32)
    (hsx : ∀ s ∈ sx, s.interval ≤ 65535) (hsy : ∀ s ∈ sy, s.interval ≤ 65535) :
    ∃ c', c.accSegsToEvents sx sy = some c' ∧
      ∀ i, ∃ l, (l = match i with | .x => expand sx | .y => expand sy) ∧
        (c'.channels i).ticks = (c.channels i).ticks + l.length ∧
        (∀ τ < (c.channels i).ticks, accAt i c'.events τ = accAt i c.events τ) ∧
        ∀ k (hk : k < l.length), accAt i c'.events ((c.channels i).ticks + k) = l[k] := by
  have hn : Near c := ⟨ht, fun i => by have := hlt i; norm_num at this; exact this⟩
  have hsx' : ∀ s ∈ sx, s.interval < 65536 := fun s hs => by have := hsx s hs; omega
  have hsy' : ∀ s ∈ sy, s.interval < 65536 := fun s hs => by have := hsy s hs; omega
  obtain ⟨c', h⟩ := merge_ok c sx sy hn (fun _ => hle .x) (fun _ => hle .y) hsx' hsy'
  have M := merge_spec c c' sx sy hn hsx' hsy' h
  have key : ∀ (i : Axis) (l : List Int),
      Follows (accAt i c.events) (accAt i c'.events) (c.channels i).ticks l →
      (∀ τ < (c.channels i).ticks, accAt i c'.events τ = accAt i c.events τ) ∧
      ∀ k (hk : k < l.length), accAt i c'.events ((c.channels i).ticks + k) = l[k] := by
    intro i l F
    constructor
    · intro τ hτ
      rw [F τ (by omega), dif_neg (by omega)]
    · intro k hk
      rw [F _ (by omega), dif_pos (by omega)]
      congr 1
      omega
  refine ⟨c', h, fun i => ?_⟩
  cases i
  · exact ⟨_, rfl, congrArg Channel.ticks M.chx, key .x _ M.accx⟩
  · exact ⟨_, rfl, congrArg Channel.ticks M.chy, key .y _ M.accy⟩

/-! ### C28 -/

/-- C28: from its first tick on, a `step_goto_speed` is played with weight 0. -/
theorem C28_goto_weight (aMax vMax : Axis → Int) (c c' : Ctx) (h : Reach aMax vMax c)
    (x y vx vy : Int) (hr : c.stepGotoSpeed x y vx vy = some c') (t : Nat) (ht : c.ticks = some t)
    (w0 : Int) (τ : Nat) :
    (τ < t → weightAt w0 c'.events τ = weightAt w0 c.events τ) ∧
    (t ≤ τ → weightAt w0 c'.events τ = 0) := by
  obtain ⟨hti, htr, ha, hv, hm⟩ := h.inv
  have hn : Near c := by
    rcases hti with hn | hfu
    · exact hn
    · rw [(future_blocks hfu).2.1] at hr
      cases hr
  obtain ⟨sx, sy, hs, -, M, v1, v2, -, hw⟩ := goto_spec hn hr
  have hx := (ticks_some.1 ht).1
  constructor
  · intro h1
    rw [hw, if_pos (by omega)]
  · intro h1
    rw [hw, if_neg (by omega), hm]

/-- C28: after `events()` the weight is 0 and both accelerations are 0 from `ticks()` on,
and nothing has changed before. -/
theorem C28_end_of_events (aMax vMax : Axis → Int) (c c' : Ctx) (h : Reach aMax vMax c)
    (hr : c.readEvents = some c') (t : Nat) (ht : c.ticks = some t) (w0 : Int) (τ : Nat) :
    (t ≤ τ → weightAt w0 c'.events τ = 0 ∧ accAt .x c'.events τ = 0 ∧ accAt .y c'.events τ = 0) ∧
    (τ < t → weightAt w0 c'.events τ = weightAt w0 c.events τ ∧
      ∀ i, accAt i c'.events τ = accAt i c.events τ) ∧
    c'.ticks = some t ∧ c'.position = c.position ∧ c'.velocity = c.velocity := by
  obtain ⟨hti, htr, ha, hv, hm⟩ := h.inv
  have hn : Near c := by
    rcases hti with hn | hfu
    · exact hn
    · rw [(future_blocks hfu).2.2.1] at hr
      cases hr
  obtain ⟨hxy, q0, q1, q2, q3, q4, q5, q6, q7, q8, q9, q10, -⟩ := readEvents_spec hn hr
  have hx := (ticks_some.1 ht).1
  rw [hx] at q9 q10
  refine ⟨fun h1 => ⟨?_, ?_, ?_⟩, fun h1 => ⟨?_, fun i => ?_⟩, ?_, ?_, ?_⟩
  · rw [q10, if_neg (by omega), hm]
  · rw [q9, if_neg (by omega)]
  · rw [q9, if_neg (by omega)]
  · rw [q10, if_pos h1]
  · rw [q9, if_pos h1]
  · rw [ticks_some, q2]
    exact ticks_some.1 ht
  · simp [Ctx.position, q2]
  · simp [Ctx.velocity, q2]

/-! ### C29 -/

/-- C29: a weight change panics exactly when it lies before the current tick of an axis or
before an event that has already been emitted. -/
theorem C29_panics_iff (aMax vMax : Axis → Int) (c : Ctx) (h : Sync aMax vMax c) (t : Nat)
    (ht : c.ticks = some t) (w : Int) (when_ : Nat) :
    c.addWeightChange w when_ = none ↔ when_ < t := by
  obtain ⟨hn, hxy, hle⟩ := h.inv
  obtain ⟨hx, hy⟩ := ticks_some.1 ht
  constructor
  · intro h1
    by_contra hc
    unfold Ctx.addWeightChange cassert Ctx.push tickDiff at h1
    rw [if_pos (by omega), if_pos (by omega), if_pos (by omega)] at h1
    cases h1
  · intro h1
    by_contra hc
    obtain ⟨c', hc⟩ := Option.ne_none_iff_exists'.1 hc
    have := (addWeightChange_eq hc).1 .x
    omega

/-- C29: after a weight change in the future every motion call and `events()` panic. -/
theorem C29_future_blocks (c c' : Ctx) (t : Nat)
    (ht : c.ticks = some t) (w : Int) (when_ : Nat) (hw : t < when_)
    (hr : c.addWeightChange w when_ = some c') :
    (∀ ax ay n, c'.addAccInterval ax ay n = none) ∧ (∀ x y vx vy, c'.stepGotoSpeed x y vx vy = none) ∧
    c'.readEvents = none ∧ (∀ request t n, 0 < n → c'.approxCurve request t n = none) ∧
    (∀ vx vy, c'.speed vx vy = none) := by
  obtain ⟨hx, hy⟩ := ticks_some.1 ht
  obtain ⟨q1, q2, -⟩ := push_far (addWeightChange_eq hr).2
  apply future_blocks
  intro i
  rw [q1, q2]
  cases i <;> omega

/-! ### C30 -/

/-- The number of ticks to change the velocity by `d`. -/
def rampTicks (a d : Int) : Int := (|d| + a - 1) / a

/-- C30: when `speed` returns, both velocities are the requested ones and each axis is, at
its own tick, where the events lead; but the axes are at the same tick only if both changes
take the same number of ticks. -/
theorem C30_speed (aMax vMax : Axis → Int) (c c' : Ctx) (h : Reach aMax vMax c) (vx vy : Int)
    (hx : SpeedOk c .x vx) (hy : SpeedOk c .y vy) (hr : c.speed vx vy = some c') :
    c'.velocity = (vx, vy) ∧
    (∀ i, (c'.channels i).pos = posAt i c'.events (c'.channels i).ticks ∧
      (c'.channels i).v = velAt i c'.events (c'.channels i).ticks) ∧
    ∀ t, c.ticks = some t → (c'.ticks = none ↔
      rampTicks (aMax .x) (vx - c.velocity.1) ≠ rampTicks (aMax .y) (vy - c.velocity.2)) := by
  obtain ⟨hti, htr, ha, hv, hm⟩ := h.inv
  have hn : Near c := by
    rcases hti with hn | hfu
    · exact hn
    · rw [(future_blocks hfu).2.2.2.2] at hr
      cases hr
  obtain ⟨l, M, hend, hlen, -⟩ := speed_spec hn hx hy hr
  have htr' := M.tracks htr
  have hrt : ∀ i d, 1 ≤ c.aMax i → rt (c.aMax i) d = rampTicks (aMax i) d := by
    intro i d hi
    rw [ha] at hi ⊢
    unfold rampTicks
    have e := Int.emod_add_mul_ediv (|d| + aMax i - 1) (aMax i)
    have b1 := Int.emod_nonneg (|d| + aMax i - 1) (show aMax i ≠ 0 by omega)
    have b2 := Int.emod_lt_of_pos (|d| + aMax i - 1) (show 0 < aMax i by omega)
    apply rt_eq (by omega)
    · omega
    · omega
  refine ⟨?_, fun i => ⟨htr'.pos i, htr'.vel i⟩, ?_⟩
  · simp only [Ctx.velocity]
    rw [M.ch .x, M.ch .y]
    simp only [hend]
    rfl
  · intro t ht
    obtain ⟨tx, ty⟩ := ticks_some.1 ht
    have lx := hlen .x
    have ly := hlen .y
    rw [hrt .x _ hx.a_pos] at lx
    rw [hrt .y _ hy.a_pos] at ly
    simp only [both] at lx ly
    simp only [Ctx.velocity]
    rw [← lx, ← ly]
    have ex : (c'.channels .x).ticks = t + (l .x).length := by rw [M.ch .x]; simp [tx]
    have ey : (c'.channels .y).ticks = t + (l .y).length := by rw [M.ch .y]; simp [ty]
    unfold Ctx.ticks cassert
    by_cases hc : (c'.channels .x).ticks = (c'.channels .y).ticks
    · rw [if_pos hc]
      constructor
      · intro h; cases h
      · intro h; exfalso; apply h; omega
    · rw [if_neg hc]
      constructor
      · intro _ h; apply hc; omega
      · intro _; rfl

/-- C30: the panic is real: speeding up only one axis makes `ticks()` panic. -/
theorem C30_one_axis (a v : Int) (ha : 1 ≤ a) (ha' : a ≤ 32767) (hv : 0 < v) (hv' : v < 10000) :
    ∃ c', (Ctx.new (fun _ => a) (fun _ => v)).speed v 0 = some c' ∧ c'.ticks = none := by
  have hx : SpeedOk (Ctx.new (fun _ => a) (fun _ => v)) .x v := by
    refine ⟨ha, ha', ?_⟩
    simp only [Ctx.new]
    rw [abs_of_pos (by omega)]
    omega
  have hy : SpeedOk (Ctx.new (fun _ => a) (fun _ => v)) .y 0 := by
    refine ⟨ha, ha', ?_⟩
    simp only [Ctx.new]
    rw [abs_of_nonneg (by omega)]
    omega
  have ret : ∀ u : Int, 0 ≤ u → u < 10000 → ∃ r, speedChannel ⟨0, 0, 0⟩ a u = some r := by
    intro u h0 h1
    have t0 := Int.tdiv_nonneg h0 (show 0 ≤ a by omega)
    have m0 := Int.tmod_nonneg a h0
    have em := Int.mul_tdiv_add_tmod u a
    have at0 : 0 ≤ a * Int.tdiv u a := mul_nonneg (by omega) t0
    have tle : Int.tdiv u a ≤ u := by nlinarith
    have p : a * Int.tdiv u a * Int.tdiv u a < 100000000 := by nlinarith
    have p0 : 0 ≤ a * Int.tdiv u a * Int.tdiv u a := mul_nonneg at0 t0
    unfold speedChannel speedAcc cdiv crem
    simp only [sub_zero, zero_add, mul_zero]
    rw [toI32_some (by omega) (by omega)]
    simp only [Option.bind_eq_bind, Option.bind_some, if_neg (show a ≠ 0 by omega), ge_iff_le,
      if_pos h0]
    rw [toI32_some (by omega) (by omega)]
    simp only [Option.bind_some]
    rw [toI32_some (by omega) (by omega)]
    simp only [Option.bind_some, zero_add]
    rw [toI32_some (by omega) (by omega)]
    simp only [Option.bind_some]
    rw [abs_of_nonneg t0, toI32_some (by omega) (by omega)]
    simp only [Option.bind_some]
    split
    · rw [toI32_some (by omega) (by omega)]
      exact ⟨_, rfl⟩
    · exact ⟨_, rfl⟩
  obtain ⟨⟨chx, sx⟩, e1⟩ := ret v (by omega) hv'
  obtain ⟨⟨chy, sy⟩, e2⟩ := ret 0 le_rfl (by omega)
  obtain ⟨p1, p2, p3, p4, p5⟩ := speedChannel_spec (ch := ⟨0, 0, 0⟩) hx.a_pos hx.a_le hx.fits e1
  obtain ⟨r1, r2, r3, r4, r5⟩ := speedChannel_spec (ch := ⟨0, 0, 0⟩) hy.a_pos hy.a_le hy.fits e2
  have : ∃ c', (Ctx.new (fun _ => a) (fun _ => v)).speed v 0 = some c' := by
    unfold Ctx.speed
    simp only [Ctx.new]
    rw [e1, e2]
    simp only [Option.bind_eq_bind, Option.bind_some]
    apply merge_ok _ _ _ _ _ _ p4 r4
    · refine ⟨rfl, fun i => ?_⟩
      cases i <;> simp [Ctx.setCh, p1, r1]
    · intro _; simp [Ctx.setCh]
    · intro _; simp [Ctx.setCh]
  obtain ⟨c', hr⟩ := this
  refine ⟨c', hr, ?_⟩
  have := (C30_speed _ _ _ c' .new v 0 hx hy hr).2.2 0 (ticks_some.2 ⟨rfl, rfl⟩)
  rw [this]
  simp only [Ctx.velocity, Ctx.new, sub_zero, rampTicks, abs_zero, zero_add]
  rw [abs_of_pos hv, Int.ediv_eq_zero_of_lt (show 0 ≤ a - 1 by omega) (show a - 1 < a by omega)]
  have : 1 ≤ (v + a - 1) / a := by
    rw [Int.le_ediv_iff_mul_le (by omega)]
    omega
  omega

/-! ### C31 -/

/-- C31: curve following never exceeds the speed limit, at any tick, whatever accelerations
(any `i16` values) the float computation asks for. -/
theorem C31_speed_limit (aMax vMax : Axis → Int) (c c' : Ctx) (h : Reach aMax vMax c)
    (hv : ∀ i, |(c.channels i).v| ≤ vMax i) (request : Nat → Ctx → Int × Int)
    (hq : ∀ t c, (-32768 ≤ (request t c).1 ∧ (request t c).1 ≤ 32767) ∧
      (-32768 ≤ (request t c).2 ∧ (request t c).2 ≤ 32767))
    (n : Nat) (hr : c.approxCurve request 1 n = some c') (t : Nat) (ht : c.ticks = some t) :
    c'.ticks = some (t + n) ∧
    ∀ i k, k ≤ n → |velAt i c'.events (t + k)| ≤ vMax i := by
  obtain ⟨hti, htr, ha, hvm, hm⟩ := h.inv
  have hn : Near c ∨ n = 0 := by
    rcases hti with hn | hfu
    · exact .inl hn
    · right
      by_contra h0
      rw [(future_blocks hfu).2.2.2.1 request 1 n (by omega)] at hr
      cases hr
  obtain ⟨tx, ty⟩ := ticks_some.1 ht
  have et : ∀ i, (c.channels i).ticks = t := by intro i; cases i <;> assumption
  rcases hn with hn | rfl
  · obtain ⟨l, M, hl, hs⟩ := approxCurve_speed hn hq (fun i => by rw [hvm]; exact hv i) hr
    refine ⟨ticks_some.2 ⟨by rw [M.ch .x]; simp [tx, hl], by rw [M.ch .y]; simp [ty, hl]⟩, ?_⟩
    intro i k hk
    rw [← et i, M.velAt htr i (by rw [hl]; exact hk)]
    rcases Nat.eq_zero_or_pos k with rfl | h0
    · simpa [endVel] using hv i
    · rw [← hvm]
      exact hs i _ (endVel_take_mem _ _ h0 (by rw [hl]; exact hk))
  · simp only [Ctx.approxCurve, Option.some.injEq] at hr
    subst hr
    refine ⟨ht, fun i k hk => ?_⟩
    have : k = 0 := by omega
    subst this
    have := htr.vel i
    rw [et] at this
    rw [add_zero, ← this]
    exact hv i

/-! ### C33 -/

/-- A history of calls. -/
def runAll : List Op → Ctx → Option Ctx
  | [], c => some c
  | op :: ops, c => (op.run c).bind (runAll ops)

/-- C33: after `reset()` every history behaves as on a new context with the same limits and
the same weight. -/
theorem C33_reset (aMax vMax : Axis → Int) (c : Ctx) (h : Reach aMax vMax c) (ops : List Op) :
    runAll ops c.reset = runAll (.setWeight c.curveWeight :: ops) (Ctx.new aMax vMax) := by
  obtain ⟨-, -, ha, hv, hm⟩ := h.inv
  have : c.reset = (Ctx.new aMax vMax).setWeight c.curveWeight := by
    unfold Ctx.reset Ctx.setWeight Ctx.new
    rw [ha, hv, hm]
  rw [this]
  rfl

/-! ### C34 -/

/-- `n` calls of `events()`. -/
def readTimes : Nat → Ctx → Option Ctx
  | 0, c => some c
  | n + 1, c => c.readEvents.bind (readTimes n)

/-- C34: once `events()` has been read, reading it again, any number of times, returns and
only appends events with zero delay; at every tick the accelerations and the weight are the
same as in the list read first. -/
theorem C34_repeated_reads (aMax vMax : Axis → Int) (c c1 : Ctx) (h : Sync aMax vMax c)
    (h1 : c.readEvents = some c1) (n : Nat) :
    ∃ c2, readTimes n c1 = some c2 ∧
      (∃ es, c2.events = c1.events ++ es ∧ es.length = 3 * n ∧ ∀ e ∈ es, e.ticks = 0) ∧
      c2.ticks = c1.ticks ∧ c2.position = c1.position ∧ c2.velocity = c1.velocity ∧
      ∀ τ, (∀ i, accAt i c2.events τ = accAt i c1.events τ) ∧
        ∀ w0, weightAt w0 c2.events τ = weightAt w0 c1.events τ := by
  obtain ⟨hn, hxy, hle⟩ := h.inv
  have hm := h.reach.inv.2.2.2.2
  obtain ⟨-, q0, q1, q2, q3, q4, q5, q6, q7, q8, q9, q10, -⟩ := readEvents_spec hn h1
  -- a state in which everything has been read
  have key : ∀ n (d : Ctx), Near d → d.channels = c.channels → d.moveWeight = 0 →
      d.eventTicks = (c.channels .x).ticks →
      (∀ i τ, accAt i d.events τ = accAt i c1.events τ) →
      (∀ w0 τ, weightAt w0 d.events τ = weightAt w0 c1.events τ) →
      ∃ c2, readTimes n d = some c2 ∧
      (∃ es, c2.events = d.events ++ es ∧ es.length = 3 * n ∧ ∀ e ∈ es, e.ticks = 0) ∧
      c2.channels = c.channels ∧
      ∀ τ, (∀ i, accAt i c2.events τ = accAt i c1.events τ) ∧
        ∀ w0, weightAt w0 c2.events τ = weightAt w0 c1.events τ := by
    intro n
    induction n with
    | zero =>
      intro d _ hch _ _ hA hW
      exact ⟨d, rfl, ⟨[], by simp⟩, hch, fun τ => ⟨fun i => hA i τ, fun w => hW w τ⟩⟩
    | succ n ih =>
      intro d hd hch hm0 hev hA hW
      obtain ⟨d1, hd1⟩ := readEvents_ok (c := d) (by rw [hch]; exact hxy) (by rw [hev, hch])
      obtain ⟨-, r0, r1, r2, r3, r4, r5, r6, r7, r8, r9, r10, r11⟩ := readEvents_spec hd hd1
      rw [hch] at r9 r10 r7
      obtain ⟨c2, e2, ⟨es, f1, f2, f3⟩, f4, f5⟩ := ih d1 r1 (r2.trans hch) (r5.trans hm0) r7 (by
        intro i τ
        rw [r9, hA, q9]
        split <;> rfl) (by
        intro w τ
        rw [r10, hW, q10, hm0, hm]
        split <;> rfl)
      refine ⟨c2, by simp only [readTimes]; rw [hd1]; exact e2, ?_, f4, f5⟩
      rw [f1, r11, hch, hev]
      refine ⟨_, List.append_assoc _ _ _, by simp [f2]; omega, ?_⟩
      intro e he
      simp only [Nat.sub_self, List.cons_append, List.nil_append, List.mem_cons] at he
      rcases he with rfl | rfl | rfl | he
      · rfl
      · rfl
      · rfl
      · exact f3 e he
  obtain ⟨c2, e2, f1, f2, f3⟩ := key n c1 q1 q2 (q5.trans hm) q7 (fun _ _ => rfl) (fun _ _ => rfl)
  exact ⟨c2, e2, f1, by simp [Ctx.ticks, f2, q2], by simp [Ctx.position, f2, q2],
    by simp [Ctx.velocity, f2, q2], f3⟩

/-! ### Instances -/

/-- A history with unequal segments on both axes. -/
example : ∃ c, runAll [.addAcc 3 (-2) 4, .weight 100 4, .addAcc 0 5 2, .events]
    (Ctx.new (fun _ => 10) (fun _ => 40)) = some c ∧
    c.position = (96, -44) ∧ c.velocity = (12, 2) ∧ c.ticks = some 6 ∧
    posAt .x c.events 6 = 96 ∧ posAt .y c.events 6 = -44 ∧ velAt .x c.events 6 = 12 ∧
    weightAt 0 c.events 3 = 0 ∧ weightAt 0 c.events 5 = 100 ∧ weightAt 0 c.events 6 = 0 :=
  ⟨_, rfl, by decide, by decide, by decide, by decide, by decide, by decide, by decide, by decide,
    by decide⟩

/-- A merge of segment lists of different lengths. -/
example : ∃ c, (Ctx.new (fun _ => 10) (fun _ => 40)).accSegsToEvents [⟨3, 5⟩, ⟨1, -2⟩]
      [⟨1, 7⟩, ⟨1, 0⟩, ⟨2, -7⟩] = some c ∧
    c.events = [⟨0, .acc .x 5⟩, ⟨0, .acc .y 7⟩, ⟨1, .acc .y 0⟩, ⟨1, .acc .y (-7)⟩, ⟨1, .acc .x (-2)⟩] := by
  refine ⟨⟨both ⟨0, 0, 4⟩ ⟨0, 0, 4⟩, fun _ => 10, fun _ => 40, [⟨0, .acc .x 5⟩, ⟨0, .acc .y 7⟩,
    ⟨1, .acc .y 0⟩, ⟨1, .acc .y (-7)⟩, ⟨1, .acc .x (-2)⟩], 3, 0, 255⟩, ?_, rfl⟩
  simp [Ctx.accSegsToEvents, Ctx.takeSegment, Ctx.new, Ctx.push, Ctx.setCh, cassert, tickDiff]
  funext i
  cases i <;> simp [both]

end StepperPaths.Props
