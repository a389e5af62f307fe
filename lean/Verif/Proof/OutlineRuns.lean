import Verif.Proof.Outline
import Verif.Proof.Power
import Mathlib.Tactic.Linarith

/-! Of two pictures with the same outline both are scanned or neither. -/

namespace StepperPaths.Outline
open Context Control Spec IntegerCurve Props Draw Raster Proof
open Power (bind_of bind_same)

/-- The context with other commands before its own. -/
def fr (E : List Event) (k : ℤ) (c : Ctx) : Ctx := { c with events := E ++ c.events, curveWeight := k }

section
variable {E : List Event} {k : ℤ}

theorem push_fr (c : Ctx) (t : ℕ) (cmd : Command) : (fr E k c).push t cmd = (c.push t cmd).map (fr E k) := by
  unfold Ctx.push
  refine bind_same _ fun d => ?_
  simp [fr]

theorem takeSegment_fr (c : Ctx) (i : Axis) (s : AccSegment) : (fr E k c).takeSegment i s = (c.takeSegment i s).map (fr E k) := by
  unfold Ctx.takeSegment
  exact bind_same _ fun _ => bind_of (fr E k) _ (push_fr c _ _) fun _ => rfl

theorem segsToEvents_fr : ∀ (n : ℕ) (sx sy : List AccSegment), sx.length + sy.length = n → ∀ c : Ctx,
    (fr E k c).accSegsToEvents sx sy = (c.accSegsToEvents sx sy).map (fr E k) := by
  intro n
  induction n with
  | zero =>
    intro sx sy h c
    obtain rfl : sx = [] := List.length_eq_zero_iff.1 (by omega)
    obtain rfl : sy = [] := List.length_eq_zero_iff.1 (by omega)
    simp [Ctx.accSegsToEvents]
  | succ n ih =>
    intro sx sy h c
    match sx, sy with
    | [], [] => simp at h
    | a :: sx, [] =>
      rw [Ctx.accSegsToEvents, Ctx.accSegsToEvents]
      exact bind_of (fr E k) _ (takeSegment_fr c .x a) fun c => ih sx [] (by simp at h ⊢; omega) c
    | [], b :: sy =>
      rw [Ctx.accSegsToEvents, Ctx.accSegsToEvents]
      exact bind_of (fr E k) _ (takeSegment_fr c .y b) fun c => ih [] sy (by simp at h ⊢; omega) c
    | a :: sx, b :: sy =>
      rw [Ctx.accSegsToEvents, Ctx.accSegsToEvents]
      have e : (fr E k c).channels = c.channels := rfl
      rw [e]
      split
      · exact bind_of (fr E k) _ (takeSegment_fr c .y b) fun c => ih (a :: sx) sy (by simp at h ⊢; omega) c
      · exact bind_of (fr E k) _ (takeSegment_fr c .x a) fun c => ih sx (b :: sy) (by simp at h ⊢; omega) c

theorem gotoChannel_fr (c : Ctx) (i : Axis) (seq : List AccSegment) (v : ℤ) :
    Checked.gotoChannel (fr E k c) i seq v = (Checked.gotoChannel c i seq v).map (fr E k) := by
  unfold Checked.gotoChannel
  exact bind_same _ fun _ => bind_same _ fun _ => bind_same _ fun _ => rfl

theorem gotoFollow_fr (c : Ctx) (sx sy : List AccSegment) (vx vy : ℤ) :
    Checked.gotoFollow (fr E k c) sx sy vx vy = (Checked.gotoFollow c sx sy vx vy).map (fr E k) := by
  unfold Checked.gotoFollow
  refine bind_of (fr E k) _ (gotoChannel_fr c .x sx vx) fun c => bind_of (fr E k) _ (gotoChannel_fr c .y sy vy) fun c => ?_
  refine bind_of (fr E k) _ (segsToEvents_fr _ sx sy rfl ((c.setCh .x { c.channels .x with v := vx }).setCh .y
    { (c.setCh .x { c.channels .x with v := vx }).channels .y with v := vy })) fun c => ?_
  exact bind_same _ fun _ => rfl

theorem goto_fr (c : Ctx) (x y vx vy : ℤ) :
    Checked.stepGotoSpeed (fr E k c) x y vx vy = (Checked.stepGotoSpeed c x y vx vy).map (fr E k) := by
  unfold Checked.stepGotoSpeed
  refine bind_same _ fun _ => bind_same _ fun _ => bind_of (fr E k) _ (push_fr c _ _) fun c => ?_
  refine bind_same _ fun _ => bind_same _ fun _ => bind_same _ fun seq => ?_
  split
  · exact gotoFollow_fr c _ _ vx vy
  · rfl

theorem readEvents_fr (c : Ctx) : (fr E k c).readEvents = (c.readEvents).map (fr E k) := by
  unfold Ctx.readEvents
  exact bind_same _ fun _ => bind_of (fr E k) _ (push_fr c _ _) fun c => bind_of (fr E k) _ (push_fr c _ _) fun c => push_fr c _ _

end

/-- Contexts that differ only in their commands and their power. -/
structure Twins (c c' : Ctx) : Prop where
  ch : ∀ i, c.channels i = c'.channels i
  aMax : c.aMax = c'.aMax
  vMax : c.vMax = c'.vMax
  evt : c.eventTicks = c'.eventTicks
  mw : c.moveWeight = c'.moveWeight

theorem Twins.fr {c c' : Ctx} (h : Twins c c') :
    ∃ c0 E k E' k', c = Outline.fr E k c0 ∧ c' = Outline.fr E' k' c0 := by
  refine ⟨{ c with events := [], curveWeight := 0 }, c.events, c.curveWeight, c'.events, c'.curveWeight, ?_, ?_⟩
  · cases c
    simp [Outline.fr]
  · obtain ⟨h1, h2, h3, h4, h5⟩ := h
    cases c
    cases c'
    simp only at h1 h2 h3 h4 h5
    have := funext h1
    subst this h2 h3 h4 h5
    simp [Outline.fr]

theorem Twins.goto {c c' d : Ctx} (h : Twins c c') {x y vx vy : ℤ} (hd : Checked.stepGotoSpeed c x y vx vy = some d) :
    ∃ d', Checked.stepGotoSpeed c' x y vx vy = some d' ∧ Twins d d' := by
  obtain ⟨c0, E, k, E', k', rfl, rfl⟩ := h.fr
  rw [goto_fr] at hd
  obtain ⟨d0, h0, rfl⟩ := Option.map_eq_some_iff.1 hd
  exact ⟨Outline.fr E' k' d0, by rw [goto_fr, h0]; rfl, ⟨fun _ => rfl, rfl, rfl, rfl, rfl⟩⟩

theorem Twins.readEvents {c c' d : Ctx} (h : Twins c c') (hd : c.readEvents = some d) : ∃ d', c'.readEvents = some d' := by
  obtain ⟨c0, E, k, E', k', rfl, rfl⟩ := h.fr
  rw [readEvents_fr] at hd
  obtain ⟨d0, h0, rfl⟩ := Option.map_eq_some_iff.1 hd
  exact ⟨_, by rw [readEvents_fr, h0]; rfl⟩

/-! ### Within a line -/

/-- Gliding from tick `s` with the speed `V`, now at tick `t`. -/
structure Glides (s : ℕ) (V P : Axis → ℤ) (c : Ctx) (t : ℕ) : Prop where
  ch : ∀ i, c.channels i = ⟨P i + 2 * V i * (t - s : ℤ), V i, t⟩
  evt : c.eventTicks ≤ t
  le : s ≤ t

theorem ck_ok {a : ℤ} (h : i64Min ≤ a) (h' : a ≤ i64Max) : Checked.ck a = some a := by
  unfold Checked.ck
  rw [if_pos ⟨h, h'⟩]

theorem push_ok {c : Ctx} {t : ℕ} (h : c.eventTicks ≤ t) (cmd : Command) :
    ∃ E, c.push t cmd = some { c with events := E, eventTicks := t } := by
  unfold Ctx.push tickDiff
  rw [if_pos h]
  exact ⟨_, rfl⟩

theorem channel_ok {c : Ctx} {i : Axis} {n : ℕ} (hn : n < 2 ^ 31) (hv : |(c.channels i).v| < 2 ^ 31)
    (h0 : i64Min ≤ (c.channels i).pos + 2 * (c.channels i).v * n) (h1 : (c.channels i).pos + 2 * (c.channels i).v * n ≤ i64Max)
    (he : c.eventTicks ≤ (c.channels i).ticks) :
    ∃ E, Checked.addAccChannel c i 0 n = some { (c.setCh i ⟨(c.channels i).pos + 2 * (c.channels i).v * n, (c.channels i).v,
      (c.channels i).ticks + n⟩) with events := E, eventTicks := (c.channels i).ticks } := by
  obtain ⟨E, hE⟩ := push_ok he (.acc i 0)
  have hn' : (n : ℤ) < 2 ^ 31 := by exact_mod_cast hn
  obtain ⟨v1, v2⟩ := abs_lt.1 hv
  norm_num at hn' v1 v2
  have hm : |2 * (n : ℤ) * (c.channels i).v| ≤ 9223372036854775807 := by
    rw [abs_mul, abs_mul, abs_of_nonneg (by omega : (0 : ℤ) ≤ n)]
    have : |(c.channels i).v| ≤ 2147483647 := by rw [abs_le]; omega
    calc |2| * (n : ℤ) * |(c.channels i).v| ≤ 2 * 2147483647 * 2147483647 := by
          rw [abs_of_nonneg (by norm_num : (0 : ℤ) ≤ 2)]
          exact mul_le_mul (by omega) this (abs_nonneg _) (by norm_num)
      _ ≤ _ := by norm_num
  obtain ⟨m1, m2⟩ := abs_le.1 hm
  have hq : (n : ℤ) * n ≤ 9223372036854775807 := by
    calc (n : ℤ) * n ≤ 2147483648 * 2147483648 := mul_le_mul (by omega) (by omega) (by omega) (by norm_num)
      _ ≤ _ := by norm_num
  have hq0 : (0 : ℤ) ≤ (n : ℤ) * n := by positivity
  have e2 : (c.channels i).pos + (2 * (n : ℤ) * (c.channels i).v + 0) = (c.channels i).pos + 2 * (c.channels i).v * n := by ring
  have pos : Checked.add (some (c.channels i).pos) (Checked.add (Checked.mul (Checked.mul (some 2) (some (n : ℤ))) (some (c.channels i).v))
      (Checked.mul (Checked.mul (some (n : ℤ)) (some (n : ℤ))) (some 0))) = some ((c.channels i).pos + 2 * (c.channels i).v * n) := by
    simp only [Checked.add, Checked.mul, Option.bind_some]
    rw [ck_ok (a := 2 * (n : ℤ)) (by unfold i64Min; omega) (by unfold i64Max; omega)]
    simp only [Option.bind_some]
    rw [ck_ok (a := 2 * (n : ℤ) * (c.channels i).v) (by unfold i64Min; omega) (by unfold i64Max; omega),
      ck_ok (a := (n : ℤ) * n) (by unfold i64Min; omega) (by unfold i64Max; omega)]
    simp only [Option.bind_some, mul_zero]
    rw [ck_ok (a := 0) (by decide) (by decide)]
    simp only [Option.bind_some]
    rw [ck_ok (a := 2 * (n : ℤ) * (c.channels i).v + 0) (by unfold i64Min; omega) (by unfold i64Max; omega)]
    simp only [Option.bind_some]
    rw [e2, ck_ok h0 h1]
  have dv : toI32 (asI32 n * 0) = some 0 := by rw [mul_zero]; rfl
  have vv : toI32 ((c.channels i).v + 0) = some (c.channels i).v := by
    rw [add_zero]
    unfold toI32
    rw [if_pos (by omega)]
  refine ⟨E, ?_⟩
  unfold Checked.addAccChannel
  simp only
  erw [pos]
  simp only [Option.bind_eq_bind, Option.bind_some, dv, vv, hE]
  rfl

theorem Glides.wait {s t n : ℕ} {V P : Axis → ℤ} {c : Ctx} (h : Glides s V P c t) (h1 : 1 ≤ n) (hn : n < 2 ^ 31) (hv : ∀ i, |V i| < 2 ^ 31)
    (hp : ∀ i, i64Min ≤ P i + 2 * V i * (t + n - s : ℤ) ∧ P i + 2 * V i * (t + n - s : ℤ) ≤ i64Max) :
    ∃ c', Checked.addAccInterval c 0 0 n = some c' ∧ Glides s V P c' (t + n) := by
  have e : ∀ i, P i + 2 * V i * (t - s : ℤ) + 2 * V i * n = P i + 2 * V i * (t + n - s : ℤ) := fun i => by ring
  obtain ⟨E, hE⟩ := channel_ok (c := c) (i := .x) hn (by rw [h.ch]; exact hv _) (by rw [h.ch, e]; exact (hp _).1) (by rw [h.ch, e]; exact (hp _).2)
    (by rw [h.ch]; exact h.evt)
  unfold Checked.addAccInterval
  rw [show cassert (n ≥ 1) = some () from if_pos h1]
  simp only [Option.bind_eq_bind, Option.bind_some, hE]
  set c1 : Ctx := { (c.setCh .x ⟨(c.channels .x).pos + 2 * (c.channels .x).v * n, (c.channels .x).v, (c.channels .x).ticks + n⟩) with
    events := E, eventTicks := (c.channels .x).ticks } with hc1
  have hy : c1.channels .y = c.channels .y := rfl
  have hx : c1.channels .x = ⟨P .x + 2 * V .x * (t + n - s : ℤ), V .x, t + n⟩ := by
    rw [← e, hc1]
    simp [Ctx.setCh, h.ch]
  obtain ⟨F, hF⟩ := channel_ok (c := c1) (i := .y) hn (by rw [hy, h.ch]; exact hv _) (by rw [hy, h.ch, e]; exact (hp _).1)
    (by rw [hy, h.ch, e]; exact (hp _).2) (by rw [hy, h.ch, hc1]; simp [h.ch])
  rw [hF]
  simp only [Option.bind_some]
  set c2 : Ctx := { (c1.setCh .y ⟨(c1.channels .y).pos + 2 * (c1.channels .y).v * n, (c1.channels .y).v, (c1.channels .y).ticks + n⟩) with
    events := F, eventTicks := (c1.channels .y).ticks } with hc2
  have kx : c2.channels .x = c1.channels .x := rfl
  have ky : c2.channels .y = ⟨P .y + 2 * V .y * (t + n - s : ℤ), V .y, t + n⟩ := by
    rw [← e, hc2]
    simp [Ctx.setCh, hy, h.ch]
  rw [show cassert ((c2.channels .x).ticks = (c2.channels .y).ticks) = some () from if_pos (by rw [kx, hx, ky])]
  refine ⟨c2, rfl, fun i => ?_, ?_, ?_⟩
  · cases i
    · rw [kx, hx]; push_cast; rfl
    · rw [ky]; push_cast; rfl
  · show (c1.channels .y).ticks ≤ _
    rw [hy, h.ch]
    simp
  · have := h.le
    omega

theorem Glides.change {s t : ℕ} {V P : Axis → ℤ} {c : Ctx} (h : Glides s V P c t) (w : ℤ) :
    ∃ c', c.addWeightChange w t = some c' ∧ Glides s V P c' t ∧ c'.eventTicks = t := by
  unfold Ctx.addWeightChange
  rw [show cassert (t ≥ (c.channels .x).ticks) = some () from if_pos (by rw [h.ch]),
    show cassert (t ≥ (c.channels .y).ticks) = some () from if_pos (by rw [h.ch])]
  obtain ⟨E, hE⟩ := push_ok h.evt (.weight w)
  exact ⟨_, hE, ⟨h.ch, le_rfl, h.le⟩, rfl⟩

theorem Glides.waitFor {s t u : ℕ} {V P : Axis → ℤ} {c : Ctx} (h : Glides s V P c t) (h1 : t ≤ u) (h2 : u < t + 4294967296) :
    waitFor c u = some (u - t) := by
  unfold Raster.waitFor Ctx.ticks
  rw [show cassert ((c.channels .x).ticks = (c.channels .y).ticks) = some () from if_pos (by rw [h.ch, h.ch])]
  simp only [h.ch, Option.bind_eq_bind, Option.bind_some, Option.pure_def]
  rw [show cassert (t ≤ u) = some () from if_pos h1, show cassert (u - t < 4294967296) = some () from if_pos (by omega)]
  rfl

/-- The pixels of a line. -/
theorem Glides.pixels {s res len : ℕ} {V P : Axis → ℤ} (hres : 0 < res) (hlen : len * res < 2 ^ 31) (hv : ∀ i, |V i| < 2 ^ 31)
    (hp : ∀ i, ∀ n : ℕ, n ≤ len * res → i64Min ≤ P i + 2 * V i * n ∧ P i + 2 * V i * n ≤ i64Max) (w : ℕ → Option ℤ)
    (hw : ∀ k < len, ∃ x, w k = some x) : ∀ (n xn : ℕ) (prev : ℤ) (c : Ctx) (t : ℕ), xn + n = len → t ≤ s + xn * res →
    (0 < xn → t < s + xn * res) → Glides s V P c t →
    ∃ c' t', Checked.pixels res s w xn prev c n = some c' ∧ Glides s V P c' t' ∧ t' ≤ s + len * res ∧ (0 < len → t' < s + len * res) := by
  intro n
  induction n with
  | zero =>
    intro xn prev c t e h1 h2 G
    obtain rfl : xn = len := by omega
    exact ⟨c, t, rfl, G, h1, h2⟩
  | succ n ih =>
    intro xn prev c t e h1 h2 G
    rw [Checked.pixels]
    obtain ⟨x, hx⟩ := hw xn (by omega)
    have step : (xn + 1) * res = xn * res + res := by ring
    have lt : (xn + 1) * res ≤ len * res := Nat.mul_le_mul_right _ (by omega)
    simp only [hx, Option.bind_eq_bind, Option.bind_some]
    norm_num at hlen
    by_cases hne : x ≠ prev
    · rw [if_pos hne, show mulU32 xn res = some (xn * res) from if_pos (by omega)]
      have le := G.le
      simp only [Option.bind_some]
      rw [G.waitFor h1 (by omega)]
      simp only [Option.bind_some]
      have hold : ∃ c1, Checked.hold c (s + xn * res - t) = some c1 ∧ Glides s V P c1 (s + xn * res) := by
        unfold Checked.hold
        by_cases hz : s + xn * res - t ≠ 0
        · rw [if_pos hz]
          obtain ⟨c1, k1, k2⟩ := G.wait (n := s + xn * res - t) (by omega) (by omega) hv (fun i => by
            have := hp i (xn * res) (by omega)
            have e : ((t : ℤ) + ((s + xn * res - t : ℕ) : ℤ) - s) = ((xn * res : ℕ) : ℤ) := by omega
            rwa [e])
          rw [show t + (s + xn * res - t) = s + xn * res by omega] at k2
          exact ⟨c1, k1, k2⟩
        · rw [if_neg hz]
          obtain rfl : t = s + xn * res := by omega
          exact ⟨c, rfl, G⟩
      obtain ⟨c1, k1, G1⟩ := hold
      obtain ⟨c2, k2, G2, -⟩ := G1.change x
      rw [k1]
      simp only [Option.bind_some, k2]
      exact ih _ _ _ _ (by omega) (by omega) (fun _ => by omega) G2
    · rw [if_neg hne]
      exact ih _ _ _ _ (by omega) (by omega) (fun _ => by omega) G

/-! ### Places after a move -/

theorem takeSegment_pos {c c' : Ctx} {j : Axis} {g : AccSegment} (h : c.takeSegment j g = some c') (i : Axis) :
    (c'.channels i).pos = (c.channels i).pos := by
  unfold Ctx.takeSegment at h
  obtain ⟨_, -, h⟩ := Option.bind_eq_some_iff.1 h
  obtain ⟨c1, h1, h⟩ := Option.bind_eq_some_iff.1 h
  obtain ⟨-, e⟩ := push_eq h1
  cases h
  rw [e]
  unfold Ctx.setCh
  simp only
  split
  · subst_vars; rfl
  · rfl

theorem segs_pos : ∀ (n : ℕ) (sx sy : List AccSegment), sx.length + sy.length = n → ∀ c c' : Ctx, c.accSegsToEvents sx sy = some c' →
    ∀ i, (c'.channels i).pos = (c.channels i).pos := by
  intro n
  induction n with
  | zero =>
    intro sx sy h c c' hc i
    obtain rfl : sx = [] := List.length_eq_zero_iff.1 (by omega)
    obtain rfl : sy = [] := List.length_eq_zero_iff.1 (by omega)
    simp only [Ctx.accSegsToEvents, Option.some.injEq] at hc
    rw [hc]
  | succ n ih =>
    intro sx sy h c c' hc i
    match sx, sy with
    | [], [] => simp at h
    | a :: sx, [] =>
      rw [Ctx.accSegsToEvents] at hc
      obtain ⟨c1, h1, hc⟩ := Option.bind_eq_some_iff.1 hc
      rw [ih sx [] (by simp at h ⊢; omega) _ _ hc, takeSegment_pos h1]
    | [], b :: sy =>
      rw [Ctx.accSegsToEvents] at hc
      obtain ⟨c1, h1, hc⟩ := Option.bind_eq_some_iff.1 hc
      rw [ih [] sy (by simp at h ⊢; omega) _ _ hc, takeSegment_pos h1]
    | a :: sx, b :: sy =>
      rw [Ctx.accSegsToEvents] at hc
      split at hc
      · obtain ⟨c1, h1, hc⟩ := Option.bind_eq_some_iff.1 hc
        rw [ih (a :: sx) sy (by simp at h ⊢; omega) _ _ hc, takeSegment_pos h1]
      · obtain ⟨c1, h1, hc⟩ := Option.bind_eq_some_iff.1 hc
        rw [ih sx (b :: sy) (by simp at h ⊢; omega) _ _ hc, takeSegment_pos h1]

theorem gotoChannel_pos {c c' : Ctx} {j : Axis} {seq : List AccSegment} {v : ℤ} (h : Checked.gotoChannel c j seq v = some c') :
    (i64Min ≤ (c'.channels j).pos ∧ (c'.channels j).pos ≤ i64Max) ∧ ∀ i ≠ j, c'.channels i = c.channels i := by
  unfold Checked.gotoChannel at h
  obtain ⟨⟨s, u⟩, -, h⟩ := Option.bind_eq_some_iff.1 h
  obtain ⟨pos, h2, h⟩ := Option.bind_eq_some_iff.1 h
  obtain ⟨_, -, h⟩ := Option.bind_eq_some_iff.1 h
  cases h
  simp only [Checked.add, Option.bind_some, Checked.ck] at h2
  split at h2
  · cases h2
    simp only [Ctx.setCh, if_true]
    exact ⟨by assumption, fun i hi => by rw [if_neg hi]⟩
  · cases h2

theorem goto_y {c d : Ctx} {x y vx vy : ℤ} (h : Checked.stepGotoSpeed c x y vx vy = some d) :
    i64Min ≤ (d.channels .y).pos ∧ (d.channels .y).pos ≤ i64Max := by
  unfold Checked.stepGotoSpeed at h
  obtain ⟨_, -, h⟩ := Option.bind_eq_some_iff.1 h
  obtain ⟨_, -, h⟩ := Option.bind_eq_some_iff.1 h
  obtain ⟨_, -, h⟩ := Option.bind_eq_some_iff.1 h
  obtain ⟨_, -, h⟩ := Option.bind_eq_some_iff.1 h
  obtain ⟨_, -, h⟩ := Option.bind_eq_some_iff.1 h
  obtain ⟨seq, -, h⟩ := Option.bind_eq_some_iff.1 h
  split at h
  · unfold Checked.gotoFollow at h
    obtain ⟨_, -, h⟩ := Option.bind_eq_some_iff.1 h
    obtain ⟨c2, h2, h⟩ := Option.bind_eq_some_iff.1 h
    obtain ⟨c3, h3, h⟩ := Option.bind_eq_some_iff.1 h
    obtain ⟨_, -, h⟩ := Option.bind_eq_some_iff.1 h
    cases h
    rw [segs_pos _ _ _ rfl _ _ h3]
    exact (gotoChannel_pos h2).1
  · cases h

/-! ### Lines, rows and pictures -/

theorem _root_.StepperPaths.Spec.SameOutline.symm {img img' : Image} (O : SameOutline img img') : SameOutline img' img :=
  ⟨O.width.symm, O.height.symm, fun y hy x hx => (O.left y (by rw [O.height]; exact hy) x (by rw [O.width]; exact hx)).symm,
    fun y hy x hx => by
      rw [← O.width]
      exact (O.right y (by rw [O.height]; exact hy) x (by rw [O.width]; exact hx)).symm⟩

section
variable {p p' : Params} {img img' : Image} {aMax vMax : Axis → ℤ}

theorem line_evt {ltr : Bool} {yn start len rep : ℕ} {c d : Ctx} (S : Sync aMax vMax d) (hd : Checked.line p img ltr yn start len rep c = some d) :
    d.eventTicks = (d.channels .x).ticks := by
  unfold Checked.line at hd
  obtain ⟨ls, e1, hd⟩ := Option.bind_eq_some_iff.1 hd
  obtain ⟨lv, ev, hd⟩ := Option.bind_eq_some_iff.1 hd
  obtain ⟨x, e2, hd⟩ := Option.bind_eq_some_iff.1 hd
  obtain ⟨y, e3, hd⟩ := Option.bind_eq_some_iff.1 hd
  obtain ⟨c1, e4, hd⟩ := Option.bind_eq_some_iff.1 hd
  obtain ⟨st, e5, hd⟩ := Option.bind_eq_some_iff.1 hd
  obtain ⟨c2, e6, hd⟩ := Option.bind_eq_some_iff.1 hd
  obtain ⟨off, e7, hd⟩ := Option.bind_eq_some_iff.1 hd
  obtain ⟨ivl, e8, hd⟩ := Option.bind_eq_some_iff.1 hd
  obtain ⟨c3, e9, hd⟩ := Option.bind_eq_some_iff.1 hd
  unfold Ctx.addWeightChange at hd
  rw [cassert_bind] at hd
  obtain ⟨b1, hd⟩ := hd
  rw [cassert_bind] at hd
  obtain ⟨-, hd⟩ := hd
  obtain ⟨-, e⟩ := push_eq hd
  have := S.inv.2.2
  rw [e] at this ⊢
  simp only at this ⊢
  omega

theorem line_ok (O : SameOutline img img') (P : SameScan p p') (S : AnyScan.Setup p img aMax vMax) (grey : ∀ x y, img'.pixel x y ≤ 255)
    (hw : |p'.weight| ≤ 2 ^ 22) {ltr : Bool} {yn start len rep : ℕ} {c c' d : Ctx} (T : Twins c c') (R : AnyScan.Ready p aMax vMax (ltr, c))
    (hpos : 0 < len) (hin : start + len ≤ img.width) (hd : Checked.line p img ltr yn start len rep c = some d) :
    ∃ d', Checked.line p' img' ltr yn start len rep c' = some d' := by
  unfold Checked.line at hd
  obtain ⟨ls, e1, hd⟩ := Option.bind_eq_some_iff.1 hd
  obtain ⟨lv, ev, hd⟩ := Option.bind_eq_some_iff.1 hd
  obtain ⟨x, e2, hd⟩ := Option.bind_eq_some_iff.1 hd
  obtain ⟨y, e3, hd⟩ := Option.bind_eq_some_iff.1 hd
  obtain ⟨c1, e4, hd⟩ := Option.bind_eq_some_iff.1 hd
  obtain ⟨st, e5, hd⟩ := Option.bind_eq_some_iff.1 hd
  obtain ⟨c2, e6, hd⟩ := Option.bind_eq_some_iff.1 hd
  obtain ⟨off, e7, -⟩ := Option.bind_eq_some_iff.1 hd
  clear hd
  obtain ⟨hx, hx0, hx1⟩ := lineX_eq S.vx0 S.vx1 e2
  have hvx0 := S.vx0
  have hvx1 := S.vx1
  have hlv : lv = if ltr then p.vX else -p.vX := by
    unfold Checked.lineV at ev
    cases ltr
    · simp only [Bool.false_eq_true, if_false, toI32] at ev ⊢
      split at ev
      · exact (Option.some.inj ev).symm
      · cases ev
    · exact (Option.some.inj ev).symm
  have e4u := Checked.stepGotoSpeed_le _ _ _ _ _ _ e4
  have hvxm : p.vX ≤ vMax .x := by
    cases ltr
    · exact R.turn rfl
    · obtain ⟨b1, -, -⟩ := stepGotoSpeed_eq e4u
      rw [R.sync.reach.inv.2.2.2.1, hlv] at b1
      exact b1
  have alv : |lv| = p.vX := by
    rw [hlv]
    split
    · rw [abs_of_nonneg hvx0]
    · rw [abs_neg, abs_of_nonneg hvx0]
  have hy0 : |(0 : ℤ)| ≤ vMax .y := by simpa using (zero_le_one.trans (S.lim.one .y))
  obtain ⟨V1, V2, A1, -⟩ := AnyScan.goto_facts S.lim R.sync R.vel (by rw [alv]; exact hvxm) hy0 e4
  obtain ⟨s1, -⟩ := goto_past R.sync e4u
  obtain ⟨c1', e4', T1⟩ := T.goto e4
  have hst := (ticks_some.1 e5).1
  have hlen : len * p.resX < 2147483648 := lt_of_le_of_lt (Nat.mul_le_mul_right _ (by omega)) S.ticks
  have hwide : 2 * p.vX * (len * p.resX : ℕ) < 4294967296 := by
    refine lt_of_le_of_lt (mul_le_mul_of_nonneg_left ?_ (by omega)) S.wide
    exact_mod_cast Nat.mul_le_mul_right _ (by omega)
  have G : Glides st (fun i => (c1.channels i).v) (fun i => (c1.channels i).pos) c1' st := by
    refine ⟨fun i => ?_, ?_, le_rfl⟩
    · rw [← T1.ch i, sub_self, mul_zero, add_zero]
      have := same_ticks s1 i
      rw [show st = (c1.channels i).ticks by rw [this, ← hst]]
    · rw [← T1.evt]
      have := s1.inv.2.2
      omega
  have hv : ∀ i, |(c1.channels i).v| < 2 ^ 31 := fun i => by
    cases i
    · rw [V1, alv]; norm_num; exact hvx1
    · rw [V2]; norm_num
  have hp : ∀ i, ∀ n : ℕ, n ≤ len * p.resX → i64Min ≤ (c1.channels i).pos + 2 * (c1.channels i).v * n ∧
      (c1.channels i).pos + 2 * (c1.channels i).v * n ≤ i64Max := by
    intro i n hn
    cases i
    · rw [V1]
      have h1 : |2 * lv * (n : ℤ)| ≤ 4294967296 := by
        rw [abs_mul, abs_mul, alv, abs_of_nonneg (by omega : (0 : ℤ) ≤ n), abs_of_nonneg (by norm_num : (0 : ℤ) ≤ 2)]
        refine le_trans (mul_le_mul_of_nonneg_left ?_ (by omega)) hwide.le
        exact_mod_cast hn
      have h2 := abs_le.1 h1
      have h3 := abs_le.1 A1
      unfold i64Min i64Max
      omega
    · rw [V2]
      simpa using goto_y e4
  obtain ⟨c2', t, e6', G2, -, ht⟩ := G.pixels S.res (by norm_num; exact hlen) hv hp (fun xn => do
    let x ← bitmapX ltr start len xn
    Checked.pixelWeight p' img' x yn) (fun k hk => by
      have hb : ∃ z, bitmapX ltr start len k = some z := by
        have hl : start + len < 4294967296 := by
          have : img.width ≤ img.width * p.resX := Nat.le_mul_of_pos_right _ S.res
          have := S.ticks
          omega
        unfold bitmapX addU32 subU32
        cases ltr
        · simp only [Bool.false_eq_true, if_false]
          rw [if_pos hl]
          simp only [Option.bind_eq_bind, Option.bind_some]
          rw [if_pos (by omega)]
          simp only [Option.bind_some]
          rw [if_pos (by omega)]
          exact ⟨_, rfl⟩
        · simp only [if_true]
          rw [if_pos (by omega)]
          exact ⟨_, rfl⟩
      obtain ⟨z, hz⟩ := hb
      have hg := grey z yn
      have hm : |(255 - img'.pixel z yn : ℤ) * p'.weight| ≤ 255 * 2 ^ 22 := by
        rw [abs_mul]
        exact mul_le_mul (by rw [abs_le]; omega) hw (abs_nonneg _) (by norm_num)
      have hm' := abs_le.1 hm
      norm_num at hm'
      refine ⟨Int.tdiv ((255 - img'.pixel z yn : ℤ) * p'.weight) 256, ?_⟩
      simp only [hz, Option.bind_eq_bind, Option.bind_some, Checked.pixelWeight, toI32]
      rw [if_pos (by omega)]
      rfl) len 0 0 c1' st (by omega) (by omega) (fun h => absurd h (lt_irrefl _))
  have ht := ht hpos
  have le := G2.le
  obtain ⟨rfl, -⟩ := mulU32_eq e7
  obtain ⟨c3', e9', G3⟩ := G2.wait (n := st + len * p.resX - t) (by omega) (by omega) hv (fun i => by
    have := hp i (len * p.resX) le_rfl
    have e : ((t : ℤ) + ((st + len * p.resX - t : ℕ) : ℤ) - st) = ((len * p.resX : ℕ) : ℤ) := by omega
    rwa [e])
  rw [show t + (st + len * p.resX - t) = st + len * p.resX by omega] at G3
  obtain ⟨d', k, -⟩ := G3.change 0
  refine ⟨d', ?_⟩
  unfold Checked.line
  have q1 : Checked.lineV p' ltr = some lv := by rw [← ev]; unfold Checked.lineV; rw [P.vX]
  have q2 : lineX p' ls = some x := by rw [← e2]; unfold lineX; rw [P.resX, P.vX]
  have q3 : Checked.lineY p' yn rep = some y := by rw [← e3]; unfold Checked.lineY; rw [P.resY, P.stepY]
  have q5 : c1'.ticks = some st := by rw [← e5]; unfold Ctx.ticks; rw [T1.ch, T1.ch]
  rw [← P.resX]
  simp only [e1, q1, q2, q3, e4', q5, Option.bind_eq_bind, Option.bind_some]
  simp only [Option.bind_eq_bind] at e6'
  rw [e6']
  simp only [Option.bind_some, e7]
  rw [G2.waitFor (by omega) (by omega)]
  simp only [Option.bind_some, e9', k]

/-- At the end of a line. -/
structure Both (p p' : Params) (img img' : Image) (aMax vMax : Axis → ℤ) (ltr : Bool) (c c' : Ctx) : Prop where
  alike : Alike p p' img img' c c'
  ready : AnyScan.Ready p aMax vMax (ltr, c)
  ready' : AnyScan.Ready p' aMax vMax (ltr, c')
  evt : c.eventTicks = (c.channels .x).ticks
  evt' : c'.eventTicks = (c'.channels .x).ticks

theorem Both.twins {ltr : Bool} {c c' : Ctx} (h : Both p p' img img' aMax vMax ltr c c') : Twins c c' := by
  have i1 := h.ready.sync.reach.inv
  have i2 := h.ready'.sync.reach.inv
  exact ⟨h.alike.channels h.ready.sync h.ready'.sync, by rw [i1.2.2.1, i2.2.2.1], by rw [i1.2.2.2.1, i2.2.2.2.1],
    by rw [h.evt, h.evt', h.alike.ticks], by rw [i1.2.2.2.2, i2.2.2.2.2]⟩

theorem lines_ok (O : SameOutline img img') (P : SameScan p p') (S : AnyScan.Setup p img aMax vMax) (S' : AnyScan.Setup p' img' aMax vMax)
    (grey : ∀ x y, img'.pixel x y ≤ 255) (hw : |p'.weight| ≤ 2 ^ 22) {yn start len : ℕ} (hpos : 0 < len) (hin : start + len ≤ img.width)
    (hyn : yn < img.height) : ∀ (n rep : ℕ) (ltr : Bool) (c c' : Ctx) (s : Bool × Ctx), Both p p' img img' aMax vMax ltr c c' →
    Checked.lines p img yn start len rep n (ltr, c) = some s →
    ∃ s', Checked.lines p' img' yn start len rep n (ltr, c') = some s' ∧ s.1 = s'.1 ∧ Both p p' img img' aMax vMax s.1 s.2 s'.2 := by
  intro n
  induction n with
  | zero =>
    intro rep ltr c c' s h hs
    cases hs
    exact ⟨_, rfl, rfl, h⟩
  | succ n ih =>
    intro rep ltr c c' s h hs
    rw [Checked.lines] at hs ⊢
    obtain ⟨d, h1, h2⟩ := Option.bind_eq_some_iff.1 hs
    obtain ⟨d', h1'⟩ := line_ok O P S grey hw h.twins h.ready hpos hin h1
    have A := h.alike.line O P S S' h.ready h.ready' hin hyn h1 h1'
    have Q := (AnyScan.line_inner S h.ready hin h1).1
    have Q' := (AnyScan.line_inner S' h.ready' (by rw [← O.width]; exact hin) h1').1
    obtain ⟨s', k⟩ := ih _ _ _ _ _ ⟨A, Q, Q', line_evt Q.sync h1, line_evt Q'.sync h1'⟩ h2
    exact ⟨s', by simp only [h1', Option.bind_eq_bind, Option.bind_some]; exact k.1, k.2⟩

theorem rows_ok (O : SameOutline img img') (P : SameScan p p') (S : AnyScan.Setup p img aMax vMax) (S' : AnyScan.Setup p' img' aMax vMax)
    (grey : ∀ x y, img'.pixel x y ≤ 255) (hw : |p'.weight| ≤ 2 ^ 22) : ∀ (n yn : ℕ) (ltr : Bool) (c c' : Ctx) (s : Bool × Ctx), yn + n ≤ img.height →
    Both p p' img img' aMax vMax ltr c c' → Checked.rows p img yn n (ltr, c) = some s →
    ∃ s', Checked.rows p' img' yn n (ltr, c') = some s' ∧ s.1 = s'.1 ∧ Both p p' img img' aMax vMax s.1 s.2 s'.2 := by
  intro n
  induction n with
  | zero =>
    intro yn ltr c c' s _ h hs
    cases hs
    exact ⟨_, rfl, rfl, h⟩
  | succ n ih =>
    intro yn ltr c c' s hy h hs
    rw [Checked.rows] at hs ⊢
    rcases he : findRowInterval (marked img yn) img.width with ⟨start, len⟩
    rcases he' : findRowInterval (marked img' yn) img'.width with ⟨start', len'⟩
    rw [he] at hs
    simp only at hs ⊢
    obtain ⟨z, same⟩ := row_same O (by omega) he he'
    by_cases hl : len > 0
    · obtain ⟨rfl, rfl⟩ := same hl
      rw [if_pos hl] at hs ⊢
      obtain ⟨⟨b, d⟩, h1, h2⟩ := Option.bind_eq_some_iff.1 hs
      have hin := ((findRowInterval_spec _ _ _ _ he).2.1 hl).1
      obtain ⟨⟨b', d'⟩, h1', e, B⟩ := lines_ok O P S S' grey hw hl hin (by omega) _ _ _ _ _ _ h h1
      simp only at e
      subst e
      obtain ⟨s', k⟩ := ih _ _ _ _ _ (by omega) B h2
      exact ⟨s', by rw [← P.resY]; simp only [h1', Option.bind_eq_bind, Option.bind_some]; exact k.1, k.2⟩
    · rw [if_neg hl] at hs
      rw [if_neg (by omega)]
      exact ih _ _ _ _ _ (by omega) h hs

theorem raster_ok (O : SameOutline img img') (P : SameScan p p') (grey : ∀ x y, img'.pixel x y ≤ 255) (hw : |p'.weight| ≤ 2 ^ 22) {c : Ctx}
    (L : Limits aMax vMax) (res : 0 < p.resX) (vx0 : -2 ^ 31 ≤ p.vX) (vx1 : p.vX < 2 ^ 31)
    (h : Checked.raster p img (Ctx.new aMax vMax) = some c) : ∃ c', Checked.raster p' img' (Ctx.new aMax vMax) = some c' := by
  unfold Checked.raster at h ⊢
  simp only at h ⊢
  obtain ⟨_, e1, r1⟩ := Option.bind_eq_some_iff.1 h
  obtain ⟨⟨b, c1⟩, e2, r2⟩ := Option.bind_eq_some_iff.1 r1
  obtain ⟨c2, e3, r3⟩ := Option.bind_eq_some_iff.1 r2
  clear h r1 r2
  have e1' : checks p' img' = some () := by
    rw [← e1]
    unfold checks
    rw [P.resX, P.vX, P.resY, O.width, O.height]
  norm_num at vx0 vx1
  obtain ⟨k1, k2, ticks⟩ := checks_eq e1 vx0 vx1
  obtain ⟨k1', k2', ticks'⟩ := checks_eq e1' (by rwa [← P.vX]) (by rwa [← P.vX])
  have S : AnyScan.Setup p img aMax vMax := ⟨L, res, ticks, k1, vx1, k2⟩
  have S' : AnyScan.Setup p' img' aMax vMax := ⟨L, by rwa [← P.resX], ticks', k1', by rwa [← P.vX], k2'⟩
  have R0 : ∀ q : Params, AnyScan.Ready q aMax vMax (true, (Ctx.new aMax vMax).setWeight q.weight) := fun q => by
    refine ⟨.step (op := .setWeight q.weight) .new trivial rfl, fun i => ?_, fun h => by cases h⟩
    · simpa [Ctx.setWeight, Ctx.new] using (zero_le_one.trans (L.one i))
  have A0 : Alike p p' img img' ((Ctx.new aMax vMax).setWeight p.weight) ((Ctx.new aMax vMax).setWeight p'.weight) :=
    ⟨rfl, fun _ _ h => absurd h (Nat.not_lt_zero _), fun _ h => absurd h (Nat.not_lt_zero _)⟩
  obtain ⟨⟨b', c1'⟩, e2', e, B⟩ := rows_ok O P S S' grey hw _ _ _ _ _ _ (by omega) ⟨A0, R0 p, R0 p', rfl, rfl⟩ e2
  obtain ⟨c2', e3', T⟩ := B.twins.goto e3
  obtain ⟨d', hd'⟩ := T.readEvents r3
  refine ⟨d', ?_⟩
  rw [← O.height]
  simp only [e1', e2', e3', Option.bind_eq_bind, Option.bind_some]
  exact hd'

end

end StepperPaths.Outline
