import Verif.Model.CheckedControl
import Verif.Props.StepperContext
import Verif.Props.Control
import Mathlib.Tactic.NormNum
import Mathlib.Tactic.Ring

/-! Times: what is counted in ticks. -/

namespace StepperPaths.Proof
open Context Control IntegerCurve StepperPaths.Props

/-- The ticks of a list of events. -/
def ticksOf (es : List Event) : ℕ := (es.map fun e => e.ticks).sum

theorem ticksOf_cons (e : Event) (es : List Event) : ticksOf (e :: es) = e.ticks + ticksOf es := by
  simp [ticksOf]

theorem ticksOf_append (a b : List Event) : ticksOf (a ++ b) = ticksOf a + ticksOf b := by
  simp [ticksOf]

theorem ticksOf_drop (es : List Event) (k : ℕ) : ticksOf (es.take k) + ticksOf (es.drop k) = ticksOf es := by
  rw [← ticksOf_append, List.take_append_drop]

/-! ### Checked sums -/

theorem add_some {a b c : ℤ} : Checked.add (some a) (some b) = some c ↔ c = a + b ∧ i64Min ≤ c ∧ c ≤ i64Max := by
  simp only [Checked.add, Option.bind_some, Checked.ck]
  split
  · constructor
    · rintro h
      cases h
      exact ⟨rfl, by assumption⟩
    · rintro ⟨rfl, -⟩
      rfl
  · simp only [reduceCtorEq, false_iff]
    rintro ⟨rfl, h⟩
    contradiction

/-! ### What is sent -/

theorem cmdsText_some {t : ℤ} {es : List Event} {text : List Char} (h : Checked.cmdsText t es = some text) :
    text = Control.cmdsText t es ∧ (t ≤ i64Max → t + ticksOf es ≤ i64Max) := by
  induction es generalizing t text with
  | nil => cases h; exact ⟨rfl, by simp [ticksOf]⟩
  | cons e es ih =>
    rw [Checked.cmdsText] at h
    obtain ⟨t', h1, h⟩ := Option.bind_eq_some_iff.1 h
    obtain ⟨r, h2, h⟩ := Option.bind_eq_some_iff.1 h
    cases h
    obtain ⟨rfl, -, h3⟩ := add_some.1 h1
    obtain ⟨rfl, h4⟩ := ih h2
    refine ⟨rfl, fun _ => ?_⟩
    have := h4 h3
    rw [ticksOf_cons]
    push_cast
    omega

theorem cmdsText_fits {t : ℤ} {es : List Event} (h0 : i64Min ≤ t) (h : t + ticksOf es ≤ i64Max) :
    Checked.cmdsText t es = some (Control.cmdsText t es) := by
  induction es generalizing t with
  | nil => rfl
  | cons e es ih =>
    rw [ticksOf_cons] at h
    push_cast at h
    rw [Checked.cmdsText, add_some.2 ⟨rfl, by omega, by omega⟩]
    simp only [bind, Option.bind_some]
    rw [ih (by omega) (by omega)]
    rfl

theorem sendCmds_some {p p' : Port} {t : ℤ} {es : List Event} (h : Checked.sendCmds p t es = some p') :
    Control.sendCmds p t es = some p' ∧ (t ≤ i64Max → t + ticksOf es ≤ i64Max) := by
  obtain ⟨text, h1, h⟩ := Option.bind_eq_some_iff.1 h
  obtain ⟨rfl, h2⟩ := cmdsText_some h1
  exact ⟨h, h2⟩

theorem sendCmds_fits {p : Port} {t : ℤ} {es : List Event} (h0 : i64Min ≤ t) (h : t + ticksOf es ≤ i64Max) :
    Checked.sendCmds p t es = Control.sendCmds p t es := by
  rw [Checked.sendCmds, cmdsText_fits h0 h]
  rfl

/-! ### The replies -/

/-- The time and the events that remain, after the replies. -/
theorem readReplies_some {p : Port} {t : ℤ} {full : Option ℕ} {i : ℕ} {es : List Event} {r : Except IoError (ℤ × Option ℕ) × Port}
    (h : Checked.readReplies p t full i es = some r) : Control.readReplies p t full i es = some r := by
  induction es generalizing p t full i with
  | nil => exact h
  | cons e es ih =>
    rw [Checked.readReplies] at h
    rw [Control.readReplies]
    obtain ⟨⟨a, q⟩, h1, h⟩ := Option.bind_eq_some_iff.1 h
    rw [h1]
    simp only [bind, Option.bind_some] at h ⊢
    cases a with
    | error err => exact h
    | ok a =>
      simp only at h ⊢
      split
      · rename_i hc
        rw [if_pos hc] at h
        exact h
      · rename_i hc
        rw [if_neg hc] at h
        revert h
        generalize (if a ≠ ['O', 'K'] ∧ full = none then some i else full) = full'
        intro h
        cases full' with
        | none =>
          rw [if_pos rfl] at h ⊢
          obtain ⟨t', h2, h⟩ := Option.bind_eq_some_iff.1 h
          obtain ⟨rfl, -⟩ := add_some.1 h2
          exact ih h
        | some k =>
          rw [if_neg (by simp)] at h ⊢
          exact ih h

theorem readReplies_fits {p : Port} {t : ℤ} {full : Option ℕ} {i : ℕ} {es : List Event} (h0 : i64Min ≤ t)
    (h : t + ticksOf es ≤ i64Max) : Checked.readReplies p t full i es = Control.readReplies p t full i es := by
  induction es generalizing p t full i with
  | nil => rfl
  | cons e es ih =>
    rw [ticksOf_cons] at h
    push_cast at h
    rw [Checked.readReplies, Control.readReplies]
    cases readReply p with
    | none => rfl
    | some a =>
      obtain ⟨a, q⟩ := a
      simp only [bind, Option.bind_some]
      cases a with
      | error err => rfl
      | ok a =>
        simp only
        split
        · rfl
        · generalize (if a ≠ ['O', 'K'] ∧ full = none then some i else full) = full'
          cases full' with
          | none =>
            rw [if_pos rfl, if_pos rfl, add_some.2 ⟨rfl, by omega, by omega⟩]
            exact ih (by omega) (by omega)
          | some k =>
            rw [if_neg (by simp), if_neg (by simp)]
            exact ih h0 (by omega)

/-- What `readReplies` leaves of the time: `k` is the index of the first event that was refused. -/
theorem readReplies_time {p q : Port} {t t' : ℤ} {full full' : Option ℕ} {i : ℕ} {es : List Event}
    (h : Control.readReplies p t full i es = some (.ok (t', full'), q)) :
    (∀ k, full = some k → full' = some k ∧ t' = t) ∧
    (full = none → (full' = none → t' = t + ticksOf es) ∧ ∀ k, full' = some k → i ≤ k ∧ t' = t + ticksOf (es.take (k - i))) := by
  induction es generalizing p t full i with
  | nil =>
    cases h
    exact ⟨fun k hk => ⟨hk, rfl⟩, fun hn => ⟨fun _ => by simp [ticksOf], fun k hk => by rw [hn] at hk; cases hk⟩⟩
  | cons e es ih =>
    rw [Control.readReplies] at h
    obtain ⟨⟨a, q'⟩, h1, h⟩ := Option.bind_eq_some_iff.1 h
    simp only at h
    cases a with
    | error err => cases h
    | ok a =>
      simp only at h
      split at h
      · obtain ⟨_, _, h⟩ := Option.bind_eq_some_iff.1 h
        cases h
      · have := ih h
        constructor
        · rintro k rfl
          simp only [reduceCtorEq, and_false, if_false] at this
          exact this.1 k rfl
        · rintro rfl
          by_cases ha : a = ['O', 'K']
          · simp only [ha, ne_eq, not_true_eq_false, false_and, if_false, if_true, forall_const] at this
            obtain ⟨-, g1, g2⟩ := this
            refine ⟨fun hn => ?_, fun k hk => ?_⟩
            · rw [g1 hn, ticksOf_cons]
              push_cast
              ring
            · obtain ⟨g3, g4⟩ := g2 k hk
              refine ⟨by omega, ?_⟩
              rw [g4, show k - i = (k - (i + 1)) + 1 by omega, List.take_succ_cons, ticksOf_cons]
              push_cast
              ring
          · rw [if_pos ⟨ha, rfl⟩, if_neg (by simp)] at this
            obtain ⟨g1, g2⟩ := this.1 i rfl
            refine ⟨fun hn => (by rw [hn] at g1; cases g1), fun k hk => ?_⟩
            rw [hk, Option.some.injEq] at g1
            subst g1
            exact ⟨le_refl _, by simp [g2, ticksOf]⟩

/-! ### The loop -/

theorem refill_eq (pending rest : List Event) :
    (refill pending rest).1 ++ (refill pending rest).2 = pending ++ rest := by
  cases pending <;> cases rest <;> rfl

theorem playLoop_some {p : Port} {t : ℤ} {pending rest : List Event} {r : Except IoError Unit × Port}
    (h : Checked.playLoop p t pending rest = some r) : Control.playLoop p t pending rest = some r := by
  revert h
  refine Checked.playLoop.partial_correctness (motive := fun p t pending rest r => Control.playLoop p t pending rest = some r)
    (fun loop ih p t pending rest r h => ?_) p t pending rest r
  rw [Control.playLoop]
  revert h
  generalize refill pending rest = f
  obtain ⟨f1, f2⟩ := f
  cases f1 with
  | nil => exact id
  | cons e es =>
    intro h
    simp only at h ⊢
    obtain ⟨p1, h1, h⟩ := Option.bind_eq_some_iff.1 h
    obtain ⟨⟨a, p2⟩, h2, h⟩ := Option.bind_eq_some_iff.1 h
    rw [(sendCmds_some h1).1]
    simp only [bind, Option.bind_some]
    rw [readReplies_some h2]
    simp only [Option.bind_some]
    match a with
    | .error err => exact h
    | .ok (t', none) => exact ih _ _ _ _ _ h
    | .ok (t', some k) => exact ih _ _ _ _ _ h

theorem playLoop_fits {p : Port} {t : ℤ} {pending rest : List Event} {r : Except IoError Unit × Port} (h0 : i64Min ≤ t)
    (ht : t + ticksOf (pending ++ rest) ≤ i64Max)
    (h : Control.playLoop p t pending rest = some r) : Checked.playLoop p t pending rest = some r := by
  revert h h0 ht
  refine fun h0 ht h => Control.playLoop.partial_correctness (motive := fun p t pending rest r =>
    i64Min ≤ t → t + ticksOf (pending ++ rest) ≤ i64Max → Checked.playLoop p t pending rest = some r)
    (fun loop ih p t pending rest r h h0 ht => ?_) p t pending rest r h h0 ht
  rw [Checked.playLoop]
  rw [← refill_eq] at ht
  revert h ht
  generalize refill pending rest = f
  obtain ⟨f1, f2⟩ := f
  cases f1 with
  | nil => exact fun h _ => h
  | cons e es =>
    intro h ht
    simp only [ticksOf_append] at h ht ⊢
    push_cast at ht
    obtain ⟨p1, h1, h⟩ := Option.bind_eq_some_iff.1 h
    obtain ⟨⟨a, p2⟩, h2, h⟩ := Option.bind_eq_some_iff.1 h
    rw [sendCmds_fits h0 (by omega), h1]
    simp only [bind, Option.bind_some]
    rw [readReplies_fits h0 (by omega), h2]
    simp only [Option.bind_some]
    match a with
    | .error err => exact h
    | .ok (t', none) =>
      have := (readReplies_time h2).2 rfl
      have e1 := this.1 rfl
      refine ih _ _ _ _ _ h (by omega) ?_
      simp only [List.nil_append]
      omega
    | .ok (t', some k) =>
      obtain ⟨-, e1⟩ := ((readReplies_time h2).2 rfl).2 k rfl
      refine ih _ _ _ _ _ h (by omega) ?_
      have := ticksOf_drop (e :: es) k
      simp only [Nat.sub_zero] at e1
      rw [ticksOf_append]
      push_cast
      omega

/-- If all is sent, then the last time was in the range. -/
theorem playLoop_end {p q : Port} {t : ℤ} {pending rest : List Event}
    (h : Checked.playLoop p t pending rest = some (.ok (), q)) (ht : t ≤ i64Max) : t + ticksOf (pending ++ rest) ≤ i64Max := by
  refine Checked.playLoop.partial_correctness (motive := fun p t pending rest r =>
    r.1 = .ok () → t ≤ i64Max → t + ticksOf (pending ++ rest) ≤ i64Max)
    (fun loop ih p t pending rest r h hr ht => ?_) p t pending rest _ h rfl ht
  have hnil : (refill pending rest).1 = [] → (refill pending rest).2 = [] := by
    cases pending <;> cases rest <;> simp [refill]
  rw [← refill_eq]
  revert h hnil
  generalize refill pending rest = f
  obtain ⟨f1, f2⟩ := f
  cases f1 with
  | nil =>
    intro _ hnil
    have : f2 = [] := hnil rfl
    subst this
    simpa [ticksOf] using ht
  | cons e es =>
    intro h _
    simp only [ticksOf_append] at h ⊢
    push_cast
    obtain ⟨p1, h1, h⟩ := Option.bind_eq_some_iff.1 h
    obtain ⟨⟨a, p2⟩, h2, h⟩ := Option.bind_eq_some_iff.1 h
    have g := (sendCmds_some h1).2 ht
    have h3 := readReplies_some h2
    match a with
    | .error err => cases h; cases hr
    | .ok (t', none) =>
      have e1 := ((readReplies_time h3).2 rfl).1 rfl
      have := ih _ _ _ _ _ h hr (by omega)
      simp only [List.nil_append] at this
      omega
    | .ok (t', some k) =>
      obtain ⟨-, e1⟩ := ((readReplies_time h3).2 rfl).2 k rfl
      have e2 := ticksOf_drop (e :: es) k
      simp only [Nat.sub_zero] at e1
      have := ih _ _ _ _ _ h hr (by omega)
      rw [ticksOf_append] at this
      push_cast at this
      omega

/-! ### Ticks -/

/-- The ticks of a channel are at most the largest `u32` for each event, and so is the time of each event. -/
structure Few (c : Ctx) : Prop where
  ticks : ∀ i, (c.channels i).ticks ≤ 4294967295 * c.events.length
  event : ∀ e ∈ c.events, e.ticks ≤ 4294967295

theorem Few.push {c c' : Ctx} (F : Few c) {t : ℕ} {cmd : Command} (h : c.push t cmd = some c') : Few c' := by
  obtain ⟨-, rfl⟩ := push_eq h
  refine ⟨fun i => ?_, fun e he => ?_⟩
  · have := F.ticks i
    simp only [List.length_append, List.length_singleton]
    omega
  · simp only [List.mem_append, List.mem_singleton] at he
    rcases he with he | rfl
    · exact F.event e he
    · have := Nat.mod_lt (t - c.eventTicks) (show 4294967296 > 0 by norm_num)
      simp only
      omega

/-- An event more and a channel later. -/
theorem Few.pushSet {c c' : Ctx} (F : Few c) {t : ℕ} {cmd : Command} (h : c.push t cmd = some c') {i : Axis} {ch : Channel}
    (hch : ch.ticks ≤ (c.channels i).ticks + 4294967295) : Few (c'.setCh i ch) := by
  have F' := F.push h
  obtain ⟨-, rfl⟩ := push_eq h
  refine ⟨fun j => ?_, F'.event⟩
  have h1 := F.ticks i
  have h2 := F'.ticks j
  simp only [Ctx.setCh, List.length_append, List.length_singleton] at h2 ⊢
  split
  · omega
  · exact h2

theorem Few.setSame {c : Ctx} (F : Few c) {i : Axis} {ch : Channel} (h : ch.ticks = (c.channels i).ticks) : Few (c.setCh i ch) := by
  refine ⟨fun j => ?_, F.event⟩
  have h2 := F.ticks j
  simp only [Ctx.setCh]
  split
  · rename_i hj
    subst hj
    omega
  · exact h2

theorem Few.addAccChannel {c c' : Ctx} (F : Few c) {i : Axis} {a : ℤ} {n : ℕ} (hn : n ≤ 4294967295)
    (h : c.addAccChannel i a n = some c') : Few c' := by
  unfold Ctx.addAccChannel at h
  obtain ⟨_, -, h⟩ := Option.bind_eq_some_iff.1 h
  obtain ⟨_, -, h⟩ := Option.bind_eq_some_iff.1 h
  obtain ⟨c1, h1, h⟩ := Option.bind_eq_some_iff.1 h
  cases h
  exact F.pushSet h1 (by simp only; omega)

theorem Few.addAccInterval {c c' : Ctx} (F : Few c) {ax ay : ℤ} {n : ℕ} (hn : n ≤ 4294967295)
    (h : c.addAccInterval ax ay n = some c') : Few c' := by
  unfold Ctx.addAccInterval at h
  rw [cassert_bind] at h
  obtain ⟨c1, h1, h⟩ := Option.bind_eq_some_iff.1 h.2
  obtain ⟨c2, h2, h⟩ := Option.bind_eq_some_iff.1 h
  rw [cassert_bind] at h
  cases h.2
  exact (F.addAccChannel hn h1).addAccChannel hn h2

theorem Few.takeSegment {c c' : Ctx} (F : Few c) {i : Axis} {s : AccSegment} (hs : s.interval < 65536)
    (h : c.takeSegment i s = some c') : Few c' := by
  unfold Ctx.takeSegment at h
  rw [cassert_bind] at h
  obtain ⟨c1, h1, h⟩ := Option.bind_eq_some_iff.1 h.2
  cases h
  refine F.pushSet h1 ?_
  obtain ⟨-, rfl⟩ := push_eq h1
  simp only
  omega

theorem Few.merge {sx sy : List AccSegment} (hsx : ∀ s ∈ sx, s.interval < 65536) (hsy : ∀ s ∈ sy, s.interval < 65536) :
    ∀ {c c' : Ctx}, Few c → c.accSegsToEvents sx sy = some c' → Few c' := by
  induction hn : sx.length + sy.length using Nat.strong_induction_on generalizing sx sy with
  | _ n ih =>
    subst hn
    intro c c' F h
    match sx, sy with
    | [], [] =>
      simp only [Ctx.accSegsToEvents] at h
      cases h
      exact F
    | a :: sx, [] =>
      simp only [Ctx.accSegsToEvents] at h
      obtain ⟨c1, h1, h⟩ := Option.bind_eq_some_iff.1 h
      exact ih _ (by simp) (fun s hs => hsx s (by simp [hs])) hsy rfl (F.takeSegment (hsx a (by simp)) h1) h
    | [], b :: sy =>
      simp only [Ctx.accSegsToEvents] at h
      obtain ⟨c1, h1, h⟩ := Option.bind_eq_some_iff.1 h
      exact ih _ (by simp) hsx (fun s hs => hsy s (by simp [hs])) rfl (F.takeSegment (hsy b (by simp)) h1) h
    | a :: sx, b :: sy =>
      rw [Ctx.accSegsToEvents] at h
      split at h
      · obtain ⟨c1, h1, h⟩ := Option.bind_eq_some_iff.1 h
        exact ih _ (by simp) hsx (fun s hs => hsy s (by simp [hs])) rfl (F.takeSegment (hsy b (by simp)) h1) h
      · obtain ⟨c1, h1, h⟩ := Option.bind_eq_some_iff.1 h
        exact ih _ (by simp) (fun s hs => hsx s (by simp [hs])) hsy rfl (F.takeSegment (hsx a (by simp)) h1) h

theorem Few.goto {c c' : Ctx} (F : Few c) {x y vx vy : ℤ} (h : c.stepGotoSpeed x y vx vy = some c') : Few c' := by
  obtain ⟨-, -, c1, sx, sy, h1, h2, h3⟩ := stepGotoSpeed_eq h
  have hs := sequences_u16 h2
  unfold Ctx.gotoFollow at h3
  obtain ⟨c2, k2, h3⟩ := Option.bind_eq_some_iff.1 h3
  obtain ⟨c3, k3, h3⟩ := Option.bind_eq_some_iff.1 h3
  obtain ⟨c4, k4, h3⟩ := Option.bind_eq_some_iff.1 h3
  rw [cassert_bind] at h3
  cases h3.2
  have chan : ∀ {c c' : Ctx} {i : Axis} {s : List AccSegment} {v : ℤ}, Few c → c.gotoChannel i s v = some c' → Few c' := by
    intro c c' i s v F h
    unfold Ctx.gotoChannel at h
    obtain ⟨_, -, h⟩ := Option.bind_eq_some_iff.1 h
    rw [cassert_bind] at h
    cases h.2
    exact F.setSame rfl
  have F3 := chan (chan (F.push h1) k2) k3
  have F4 := F3.setSame (i := .x) (ch := { c3.channels .x with v := vx }) rfl
  exact Few.merge (hs sx (by simp)) (hs sy (by simp)) (F4.setSame (i := .y) (ch := { c3.channels .y with v := vy }) rfl) k4

theorem speedChannel_u16 {ch ch' : Channel} {a v : ℤ} {s : List AccSegment} (h : speedChannel ch a v = some (ch', s)) :
    ch'.ticks = ch.ticks ∧ ∀ x ∈ s, x.interval < 65536 := by
  have hu : ∀ n, asU16 n < 65536 := fun n => Nat.mod_lt _ (by norm_num)
  unfold speedChannel at h
  obtain ⟨_, -, h⟩ := Option.bind_eq_some_iff.1 h
  obtain ⟨_, -, h⟩ := Option.bind_eq_some_iff.1 h
  obtain ⟨_, -, h⟩ := Option.bind_eq_some_iff.1 h
  obtain ⟨_, -, h⟩ := Option.bind_eq_some_iff.1 h
  obtain ⟨_, -, h⟩ := Option.bind_eq_some_iff.1 h
  obtain ⟨_, -, h⟩ := Option.bind_eq_some_iff.1 h
  obtain ⟨_, -, h⟩ := Option.bind_eq_some_iff.1 h
  obtain ⟨_, -, h⟩ := Option.bind_eq_some_iff.1 h
  simp only at h
  split at h
  · obtain ⟨_, -, h⟩ := Option.bind_eq_some_iff.1 h
    obtain ⟨_, -, h⟩ := Option.bind_eq_some_iff.1 h
    cases h
    exact ⟨rfl, by simp [hu]⟩
  · cases h
    exact ⟨rfl, by simp [hu]⟩

theorem Few.speed {c c' : Ctx} (F : Few c) {vx vy : ℤ} (h : c.speed vx vy = some c') : Few c' := by
  unfold Ctx.speed at h
  obtain ⟨⟨chx, sx⟩, e1, h⟩ := Option.bind_eq_some_iff.1 h
  obtain ⟨⟨chy, sy⟩, e2, h⟩ := Option.bind_eq_some_iff.1 h
  obtain ⟨t1, s1⟩ := speedChannel_u16 e1
  obtain ⟨t2, s2⟩ := speedChannel_u16 e2
  exact Few.merge s1 s2 ((F.setSame t1).setSame (by simp [Ctx.setCh, t2])) h

theorem Few.approx {request : ℕ → Ctx → ℤ × ℤ} {n : ℕ} : ∀ {t : ℕ} {c c' : Ctx}, Few c → c.approxCurve request t n = some c' → Few c' := by
  induction n with
  | zero => intro t c c' F h; cases h; exact F
  | succ n ih =>
    intro t c c' F h
    simp only [Ctx.approxCurve] at h
    obtain ⟨c1, h1, h⟩ := Option.bind_eq_some_iff.1 h
    obtain ⟨_, _, -, -, h1⟩ := approxTick_eq h1
    exact ih (F.addAccInterval (by norm_num) h1) h

theorem Few.reach {aMax vMax : Axis → ℤ} {c : Ctx} (h : Reach aMax vMax c) : Few c := by
  induction h with
  | new => exact ⟨fun i => by simp [Ctx.new], fun e he => by simp [Ctx.new] at he⟩
  | @step c c' op _ hf hr F =>
    cases op with
    | addAcc ax ay n =>
      have : n < 2 ^ 31 := hf
      exact F.addAccInterval (by omega) hr
    | weight w t => exact F.push (addWeightChange_eq hr).2
    | goto x y vx vy => exact F.goto hr
    | speed vx vy => exact F.speed hr
    | approx request n => exact F.approx hr
    | setWeight w => cases hr; exact ⟨F.ticks, F.event⟩
    | events =>
      simp only [Op.run, Ctx.readEvents] at hr
      rw [cassert_bind] at hr
      obtain ⟨c1, h1, h⟩ := Option.bind_eq_some_iff.1 hr.2
      obtain ⟨c2, h2, h⟩ := Option.bind_eq_some_iff.1 h
      exact ((F.push h1).push h2).push h
    | reset => cases hr; exact ⟨fun i => by simp [Ctx.reset], fun e he => by simp [Ctx.reset] at he⟩

theorem ticksOf_le {es : List Event} (h : ∀ e ∈ es, e.ticks ≤ 4294967295) : ticksOf es ≤ 4294967295 * es.length := by
  induction es with
  | nil => simp [ticksOf]
  | cons e es ih =>
    have h1 := h e (by simp)
    have h2 := ih fun x hx => h x (by simp [hx])
    rw [ticksOf_cons, List.length_cons]
    omega

end StepperPaths.Proof
