import Verif.Spec.Raster
import Verif.Proof.DrawReturns

/-! Lemmas about the image scan. -/

namespace StepperPaths.Raster
open Context IntegerCurve Spec Props Draw

/-! ### The interval of a row -/

theorem scanUp_spec (f : Nat → Bool) (width : Nat) (x : Nat) (hx : x ≤ width) :
    x ≤ scanUp f width x ∧ scanUp f width x ≤ width ∧ (∀ z, x ≤ z → z < scanUp f width x → f z = false) ∧
      (scanUp f width x < width → f (scanUp f width x) = true) := by
  rw [scanUp]
  split
  · next h =>
    split
    · next hf => exact ⟨le_rfl, hx, fun z h1 h2 => by omega, fun _ => hf⟩
    · next hf =>
      obtain ⟨h1, h2, h3, h4⟩ := scanUp_spec f width (x + 1) h
      refine ⟨by omega, h2, fun z hz1 hz2 => ?_, h4⟩
      rcases Nat.eq_or_lt_of_le hz1 with rfl | hz
      · simpa using hf
      · exact h3 z hz hz2
  · next h => exact ⟨le_rfl, hx, fun z h1 h2 => by omega, fun h' => by omega⟩
termination_by width - x

theorem scanDown_spec (f : Nat → Bool) (start : Nat) (hs : f start = true) (x : Nat) (hx : start ≤ x) :
    start ≤ scanDown f start x ∧ scanDown f start x ≤ x ∧ f (scanDown f start x) = true ∧
      ∀ z, scanDown f start x < z → z ≤ x → f z = false := by
  induction x with
  | zero =>
    obtain rfl : start = 0 := by omega
    exact ⟨le_rfl, le_rfl, hs, fun z h1 h2 => by simp [scanDown] at h1; omega⟩
  | succ x ih =>
    rw [scanDown]
    by_cases h : start < x + 1
    · rw [if_pos h]
      by_cases hf : f (x + 1) = true
      · rw [if_pos hf]
        exact ⟨hx, le_rfl, hf, fun z h1 h2 => by omega⟩
      · rw [if_neg hf]
        obtain ⟨h1, h2, h3, h4⟩ := ih (by omega)
        refine ⟨h1, by omega, h3, fun z hz1 hz2 => ?_⟩
        rcases Nat.eq_or_lt_of_le hz2 with rfl | hz
        · simpa using hf
        · exact h4 z hz1 (by omega)
    · rw [if_neg h]
      obtain rfl : start = x + 1 := by omega
      exact ⟨le_rfl, le_rfl, hs, fun z h1 h2 => by omega⟩

theorem findRowInterval_spec (f : Nat → Bool) (width start len : Nat)
    (h : findRowInterval f width = (start, len)) :
    (∀ x < width, f x = true → start ≤ x ∧ x < start + len) ∧
      (0 < len → start + len ≤ width ∧ f start = true ∧ f (start + len - 1) = true) ∧
      (len = 0 ↔ ∀ x < width, f x = false) := by
  unfold findRowInterval at h
  obtain ⟨-, h2, h3, h4⟩ := scanUp_spec f width 0 (Nat.zero_le _)
  generalize scanUp f width 0 = s at h h2 h3 h4
  simp only at h
  split at h
  · next hs =>
    cases h
    have none : ∀ x < width, f x = false := fun x hx => h3 x (Nat.zero_le _) (by omega)
    refine ⟨fun x hx hf => ?_, fun h => absurd h (lt_irrefl _), by simpa using none⟩
    rw [none x hx] at hf
    cases hf
  · next hs =>
    have hf := h4 (by omega)
    obtain ⟨k1, k2, k3, k4⟩ := scanDown_spec f s hf (width - 1) (by omega)
    generalize scanDown f s (width - 1) = e at h k1 k2 k3 k4
    simp only [Prod.mk.injEq] at h
    obtain ⟨rfl, rfl⟩ := h
    refine ⟨fun x hx hfx => ⟨?_, ?_⟩, fun _ => ⟨by omega, hf, ?_⟩, ⟨fun h => by omega, fun h => ?_⟩⟩
    · by_contra hc
      rw [h3 x (Nat.zero_le _) (by omega)] at hfx
      cases hfx
    · by_contra hc
      rw [k4 x (by omega) (by omega)] at hfx
      cases hfx
    · rw [show s + (e + 1 - s) - 1 = e by omega]
      exact k3
    · rw [h s (by omega)] at hf
      cases hf

/-! ### Waiting -/

theorem waitFor_eq {c : Ctx} {t n : Nat} (h : waitFor c t = some n) :
    ∃ now, c.ticks = some now ∧ now + n = t := by
  unfold waitFor at h
  obtain ⟨now, h1, h⟩ := Option.bind_eq_some_iff.1 h
  rw [cassert_bind] at h
  obtain ⟨h2, h⟩ := h
  rw [cassert_bind] at h
  obtain ⟨h3, h⟩ := h
  cases h
  exact ⟨now, h1, by omega⟩

theorem mulU32_eq {a b n : Nat} (h : mulU32 a b = some n) : n = a * b ∧ a * b < 4294967296 := by
  unfold mulU32 at h
  split at h
  · cases h; exact ⟨rfl, by assumption⟩
  · cases h

theorem addU32_eq {a b n : Nat} (h : addU32 a b = some n) : n = a + b ∧ a + b < 4294967296 := by
  unfold addU32 at h
  split at h
  · cases h; exact ⟨rfl, by assumption⟩
  · cases h

/-- The state while a line is scanned that began in the state `c0`: the axes have not changed their
speed, and the weight is `w` as planned up to tick `u`, then `prev`. -/
structure Gliding (aMax vMax : Axis → Int) (c0 c : Ctx) (u : Nat) (w : Nat → Int) (prev : Int) : Prop where
  sync : Sync aMax vMax c
  past : Past c0 c
  now : (c.channels .x).ticks ≤ u
  vel : ∀ i, (c.channels i).v = (c0.channels i).v
  pos : ∀ i, (c.channels i).pos = (c0.channels i).pos +
    2 * (c0.channels i).v * ((c.channels .x).ticks - (c0.channels .x).ticks : Int)
  acc : ∀ i τ, (c0.channels .x).ticks ≤ τ → τ < (c.channels .x).ticks → accAt i c.events τ = 0
  weight : ∀ w0 τ, (c0.channels .x).ticks ≤ τ → weightAt w0 c.events τ = if τ < u then w τ else prev

theorem same_ticks {aMax vMax : Axis → Int} {c : Ctx} (h : Sync aMax vMax c) (i : Axis) :
    (c.channels i).ticks = (c.channels .x).ticks := by
  cases i
  · rfl
  · exact h.inv.2.1.symm

/-- Waiting without acceleration. -/
theorem Gliding.wait {aMax vMax : Axis → Int} {c0 c c' : Ctx} {u n : Nat} {w : Nat → Int} {prev : Int}
    (h : Gliding aMax vMax c0 c u w prev) (h0 : Sync aMax vMax c0) (hn : n < 2147483648)
    (hu : (c.channels .x).ticks + n ≤ u)
    (hr : c.addAccInterval 0 0 n = some c') :
    Gliding aMax vMax c0 c' u w prev ∧ (c'.channels .x).ticks = (c.channels .x).ticks + n := by
  obtain ⟨hnear, hxy, hle⟩ := h.sync.inv
  obtain ⟨M, -, -, -, -, hw⟩ := addAccInterval_spec hnear hn hr
  have h1 := h.past.ticks
  have zero : ∀ i : Axis, both (0 : Int) 0 i = 0 := by intro i; cases i <;> rfl
  simp only [zero] at M
  have ht : (c'.channels .x).ticks = (c.channels .x).ticks + n := by rw [M.ch .x]; simp
  have hs : Sync aMax vMax c' := .step (op := .addAcc 0 0 n) h.sync (by norm_num [Op.InStep]; exact hn) hr
  have hp : Past c c' := Draw.Moved.past M (fun w0 τ _ => hw w0 τ)
  refine ⟨⟨hs, h.past.trans hp h0.inv.2.1 hxy, by omega, fun i => ?_, fun i => ?_, fun i τ h2 h3 => ?_,
    fun w0 τ h2 => by rw [hw]; exact h.weight w0 τ h2⟩, ht⟩
  · rw [M.ch i]
    simp only [endVel_replicate, zero_mul, add_zero]
    exact h.vel i
  · rw [M.ch i, ht]
    simp only [dist_replicate]
    rw [h.vel, h.pos]
    push_cast
    ring
  · rw [M.acc i τ (by rw [same_ticks h.sync]; simp; omega), same_ticks h.sync]
    by_cases hτ : τ < (c.channels .x).ticks
    · rw [dif_neg (by omega)]
      exact h.acc i τ h2 hτ
    · rw [dif_pos (by simp; omega)]
      simp

/-- A new weight. -/
theorem Gliding.change {aMax vMax : Axis → Int} {c0 c c' : Ctx} {u : Nat} {w : Nat → Int} {prev x : Int}
    (h : Gliding aMax vMax c0 c u w prev) (h0 : Sync aMax vMax c0)
    (hu : (c.channels .x).ticks = u) (hr : c.addWeightChange x u = some c') :
    Gliding aMax vMax c0 c' u w x ∧ (c'.channels .x).ticks = u := by
  subst hu
  obtain ⟨s, ch, p, -, -, ha, hw⟩ := weight_now h.sync hr
  refine ⟨⟨s, h.past.trans p h0.inv.2.1 h.sync.inv.2.1, by rw [ch], fun i => by rw [ch]; exact h.vel i,
    fun i => by rw [ch]; exact h.pos i, fun i τ h1 h2 => ?_, fun w0 τ h1 => ?_⟩, by rw [ch]⟩
  · rw [ha]
    rw [ch] at h2
    exact h.acc i τ h1 h2
  · rw [hw]
    by_cases hτ : τ < (c.channels .x).ticks
    · rw [if_pos hτ, if_pos hτ, h.weight w0 τ h1, if_pos hτ]
    · rw [if_neg hτ, if_neg hτ]

/-- The loop over the pixels. -/
theorem pixels_spec {aMax vMax : Axis → Int} {c0 : Ctx} (h0 : Sync aMax vMax c0) {resX : Nat}
    (hres : 0 < resX) {wf : Nat → Option Int} {ws : Nat → Int} {len : Nat}
    (hwf : ∀ k < len, ∀ x, wf k = some x → x = ws k) (hlen : len * resX < 2147483648) :
    ∀ (n xn : Nat) (prev : Int) (c c' : Ctx), xn + n = len →
      Gliding aMax vMax c0 c ((c0.channels .x).ticks + xn * resX)
        (fun τ => ws ((τ - (c0.channels .x).ticks) / resX)) prev →
      pixels resX (c0.channels .x).ticks wf xn prev c n = some c' →
      ∃ prev', Gliding aMax vMax c0 c' ((c0.channels .x).ticks + len * resX)
        (fun τ => ws ((τ - (c0.channels .x).ticks) / resX)) prev' := by
  intro n
  induction n with
  | zero =>
    intro xn prev c c' hx h hr
    obtain rfl : xn = len := by omega
    simp only [pixels, Option.some.injEq] at hr
    subst hr
    exact ⟨prev, h⟩
  | succ n ih =>
    intro xn prev c c' hx h hr
    rw [pixels] at hr
    obtain ⟨wx, hwx, hr⟩ := Option.bind_eq_some_iff.1 hr
    have hval := hwf xn (by omega) wx hwx
    have hmul : xn * resX + resX ≤ len * resX := by
      have := Nat.mul_le_mul_right resX (show xn + 1 ≤ len by omega)
      rw [Nat.add_mul, Nat.one_mul] at this
      exact this
    -- extending the planned part by one pixel
    have extend : ∀ {c1 : Ctx}, Gliding aMax vMax c0 c1 ((c0.channels .x).ticks + xn * resX)
        (fun τ => ws ((τ - (c0.channels .x).ticks) / resX)) wx →
        Gliding aMax vMax c0 c1 ((c0.channels .x).ticks + (xn + 1) * resX)
        (fun τ => ws ((τ - (c0.channels .x).ticks) / resX)) wx := by
      intro c1 g
      refine ⟨g.sync, g.past, ?_, g.vel, g.pos, g.acc, fun w0 τ h1 => ?_⟩
      · have := g.now
        rw [Nat.add_mul]
        omega
      · rw [g.weight w0 τ h1]
        by_cases h2 : τ < (c0.channels .x).ticks + xn * resX
        · rw [if_pos h2, if_pos (by rw [Nat.add_mul]; omega)]
        · rw [if_neg h2]
          by_cases h3 : τ < (c0.channels .x).ticks + (xn + 1) * resX
          · rw [if_pos h3, hval]
            congr 1
            rw [Nat.add_mul, Nat.one_mul] at h3
            symm
            rw [Nat.div_eq_iff hres]
            constructor
            · omega
            · omega
          · rw [if_neg h3]
    by_cases hne : wx ≠ prev
    · rw [if_pos hne] at hr
      obtain ⟨off, h1, hr1⟩ := Option.bind_eq_some_iff.1 hr
      obtain ⟨ivl, h2, hr2⟩ := Option.bind_eq_some_iff.1 hr1
      obtain ⟨c1, h3, hr3⟩ := Option.bind_eq_some_iff.1 hr2
      obtain ⟨c2, h4, hr4⟩ := Option.bind_eq_some_iff.1 hr3
      obtain ⟨rfl, -⟩ := mulU32_eq h1
      obtain ⟨now, hnow, hsum⟩ := waitFor_eq h2
      have hnow' := (ticks_some.1 hnow).1
      have hpast := h.past.ticks
      obtain ⟨g1, t1⟩ : Gliding aMax vMax c0 c1 ((c0.channels .x).ticks + xn * resX)
          (fun τ => ws ((τ - (c0.channels .x).ticks) / resX)) prev ∧
          (c1.channels .x).ticks = (c0.channels .x).ticks + xn * resX := by
        unfold hold at h3
        by_cases hi : ivl ≠ 0
        · rw [if_pos hi] at h3
          obtain ⟨g, t⟩ := h.wait h0 (by omega) (by omega) h3
          exact ⟨g, by omega⟩
        · rw [if_neg hi] at h3
          cases h3
          exact ⟨h, by omega⟩
      obtain ⟨g2, -⟩ := g1.change h0 t1 h4
      exact ih _ _ _ _ (by omega) (extend g2) hr4
    · rw [if_neg hne] at hr
      have : prev = wx := by
        by_contra hc
        exact hne (fun h => hc h.symm)
      subst this
      exact ih _ _ _ _ (by omega) (extend h) hr

/-! ### A line -/

theorem velAt_succ (i : Axis) (es : List Event) (T : ℕ) :
    velAt i es (T + 1) = velAt i es T + accAt i es T := by
  unfold velAt
  rw [played_succ, endVel_append]
  simp [endVel]

/-- Without acceleration the speed stays the same. -/
theorem coast {i : Axis} {es : List Event} {a n : ℕ} (h : ∀ τ, a ≤ τ → τ < a + n → accAt i es τ = 0) :
    velAt i es (a + n) = velAt i es a ∧ posAt i es (a + n) = posAt i es a + 2 * velAt i es a * n := by
  induction n with
  | zero => simp
  | succ n ih =>
    obtain ⟨h1, h2⟩ := ih (fun τ k1 k2 => h τ k1 (by omega))
    have h3 : velAt i es (a + (n + 1)) = velAt i es a := by
      rw [← Nat.add_assoc, velAt_succ, h1, h (a + n) (by omega) (by omega), add_zero]
    refine ⟨h3, ?_⟩
    rw [← Nat.add_assoc, posAt_succ, h1, h2, Nat.add_assoc, h3]
    push_cast
    ring

/-- What is played before tick `b` depends only on the commands before. -/
theorem posAt_congr {i : Axis} {es es' : List Event} {b : ℕ} (h : ∀ τ < b, accAt i es' τ = accAt i es τ)
    {T : ℕ} (hT : T ≤ b) : posAt i es' T = posAt i es T := by
  unfold posAt
  rw [played_congr (fun τ hτ => h τ (by omega))]

theorem velAt_congr {i : Axis} {es es' : List Event} {b : ℕ} (h : ∀ τ < b, accAt i es' τ = accAt i es τ)
    {T : ℕ} (hT : T ≤ b) : velAt i es' T = velAt i es T := by
  unfold velAt
  rw [played_congr (fun τ hτ => h τ (by omega))]

theorem column_end {len resX k j : ℕ} (hk : k < len) (hj : j ≤ resX) : k * resX + j ≤ len * resX := by
  have := Nat.mul_le_mul_right resX (show k + 1 ≤ len by omega)
  rw [Nat.add_mul, Nat.one_mul] at this
  omega

theorem _root_.StepperPaths.Spec.LinePlayed.mono {p : Params} {img : Image} {aMax vMax : Axis → ℤ}
    {es es' : List Event} {t a b : ℕ} {l : ScanLine} (h : LinePlayed p img aMax vMax es t a b l)
    (hacc : ∀ i, ∀ τ < b, accAt i es' τ = accAt i es τ)
    (hw : ∀ w0, ∀ τ < b, weightAt w0 es' τ = weightAt w0 es τ) : LinePlayed p img aMax vMax es' t a b l := by
  have hm := h.move
  have hb := h.len
  refine ⟨h.move, h.len, fun w0 τ h1 h2 => ?_, fun w0 k j hk hj => ?_, fun k j hk hj => ?_,
    fun τ h1 h2 => ?_, fun τ h1 h2 => ?_, fun τ h1 h2 => ?_, fun i τ h1 h2 => ?_, fun i τ h1 h2 => ?_⟩
  · rw [hw w0 τ (by omega)]
    exact h.off w0 τ h1 h2
  · have := column_end hk (Nat.succ_le_of_lt hj)
    rw [hw w0 _ (by omega)]
    exact h.on w0 k j hk hj
  · have := column_end hk hj
    rw [posAt_congr (hacc .x) (by omega)]
    exact h.xpos k j hk hj
  · rw [posAt_congr (hacc .y) h2]
    exact h.ypos τ h1 h2
  · rw [velAt_congr (hacc .x) h2]
    exact h.xvel τ h1 h2
  · rw [velAt_congr (hacc .y) h2]
    exact h.yvel τ h1 h2
  · rw [hacc i τ (by omega)]
    exact h.acc i τ h1 h2
  · rw [velAt_congr (hacc i) (by omega)]
    exact h.vel i τ h1 h2

theorem _root_.StepperPaths.Spec.Scan.le {p : Params} {img : Image} {aMax vMax : Axis → ℤ} {es : List Event}
    {t T : ℕ} {ls : List ScanLine} (h : Scan p img aMax vMax es t ls T) : t ≤ T := by
  induction h with
  | nil => exact le_rfl
  | cons h _ ih => have := h.move; have := h.len; omega

theorem _root_.StepperPaths.Spec.Scan.mono {p : Params} {img : Image} {aMax vMax : Axis → ℤ}
    {es es' : List Event} {t T : ℕ} {ls : List ScanLine} (h : Scan p img aMax vMax es t ls T)
    (hacc : ∀ i, ∀ τ < T, accAt i es' τ = accAt i es τ)
    (hw : ∀ w0, ∀ τ < T, weightAt w0 es' τ = weightAt w0 es τ) : Scan p img aMax vMax es' t ls T := by
  induction h with
  | nil => exact .nil _
  | cons h1 h2 ih =>
    have := h2.le
    exact .cons (h1.mono (fun i τ hτ => hacc i τ (by omega)) (fun w0 τ hτ => hw w0 τ (by omega))) (ih hacc hw)

theorem _root_.StepperPaths.Spec.Scan.append {p : Params} {img : Image} {aMax vMax : Axis → ℤ}
    {es : List Event} {t u T : ℕ} {ls ms : List ScanLine} (h : Scan p img aMax vMax es t ls u)
    (h' : Scan p img aMax vMax es u ms T) : Scan p img aMax vMax es t (ls ++ ms) T := by
  induction h with
  | nil => exact h'
  | cons h1 _ ih => exact .cons h1 (ih h')

/-- The state between two lines. -/
structure Ready (aMax vMax : Axis → ℤ) (c : Ctx) : Prop where
  sync : Sync aMax vMax c
  vel : ∀ i, |(c.channels i).v| ≤ vMax i
  pos : ∀ i, |(c.channels i).pos| ≤ 2 ^ 61

/-- What `line` needs. -/
structure Setup (p : Params) (img : Image) (aMax vMax : Axis → ℤ) : Prop where
  a1 : ∀ i, 1 ≤ aMax i
  v1 : ∀ i, 1 ≤ vMax i
  v2 : ∀ i, vMax i ≤ 2 ^ 59
  res : 0 < p.resX
  ticks : img.width * p.resX < 2147483648
  step : |p.stepY| ≤ 2 ^ 28
  vxm : p.vX ≤ vMax .x
  vx0 : 0 ≤ p.vX
  vx1 : p.vX < 2147483648
  wide : 2 * p.vX * (img.width * p.resX : ℕ) < 4294967296

theorem asU32_eq {v : ℤ} (h0 : 0 ≤ v) (h1 : v < 2147483648) : (asU32 v : ℤ) = v := by
  unfold asU32
  rw [Int.emod_eq_of_lt h0 (by omega)]
  omega

theorem goto_past {aMax vMax : Axis → ℤ} {c c' : Ctx} {x y vx vy : ℤ} (h : Sync aMax vMax c)
    (hr : c.stepGotoSpeed x y vx vy = some c') : Sync aMax vMax c' ∧ Past c c' := by
  refine ⟨.step (op := .goto x y vx vy) h trivial hr, ?_⟩
  obtain ⟨sx, sy, -, -, M, -, -, -, hw⟩ := goto_spec h.inv.1 hr
  refine Draw.Moved.past M fun w τ hτ => ?_
  rw [hw, if_pos hτ]

theorem lineX_eq {p : Params} {n : ℕ} {x : ℤ} (h0 : 0 ≤ p.vX) (h1 : p.vX < 2147483648)
    (h : lineX p n = some x) : x = 2 * p.vX * (p.resX * n) ∧ 0 ≤ x ∧ x < 4294967296 := by
  obtain ⟨a, e1, h2⟩ := Option.bind_eq_some_iff.1 h
  obtain ⟨b, e2, h3⟩ := Option.bind_eq_some_iff.1 h2
  obtain ⟨d, e3, h4⟩ := Option.bind_eq_some_iff.1 h3
  obtain ⟨rfl, -⟩ := mulU32_eq e1
  obtain ⟨rfl, -⟩ := mulU32_eq e2
  obtain ⟨e, hlt⟩ := mulU32_eq e3
  cases h4
  subst e
  refine ⟨?_, by positivity, by exact_mod_cast hlt⟩
  push_cast
  rw [asU32_eq h0 h1]
  ring

theorem lineY_eq {p : Params} {yn rep : ℕ} {y : ℤ} (hs : |p.stepY| ≤ 2 ^ 28)
    (h : lineY p yn rep = some y) : y = (yn * p.resY + rep) * p.stepY ∧ |y| ≤ 2 ^ 60 := by
  obtain ⟨a, e1, h2⟩ := Option.bind_eq_some_iff.1 h
  obtain ⟨b, e2, h3⟩ := Option.bind_eq_some_iff.1 h2
  obtain ⟨rfl, -⟩ := mulU32_eq e1
  obtain ⟨e, hlt⟩ := addU32_eq e2
  cases h3
  rw [← e] at hlt
  refine ⟨by rw [e]; push_cast; ring, ?_⟩
  rw [abs_mul, abs_of_nonneg (Int.natCast_nonneg _)]
  calc (b : ℤ) * |p.stepY| ≤ 2 ^ 32 * 2 ^ 28 := by
        apply mul_le_mul _ hs (abs_nonneg _) (by norm_num)
        have : (b : ℤ) < 4294967296 := by exact_mod_cast hlt
        norm_num
        omega
    _ = 2 ^ 60 := by norm_num

theorem bitmapX_eq {ltr : Bool} {y rep start len xn x : ℕ} (h : bitmapX ltr start len xn = some x) :
    x = (ScanLine.mk y rep start len ltr).column xn := by
  unfold bitmapX at h
  unfold ScanLine.column
  cases ltr
  · simp only [Bool.false_eq_true, if_false] at h ⊢
    obtain ⟨a, e1, h2⟩ := Option.bind_eq_some_iff.1 h
    obtain ⟨b, e2, h3⟩ := Option.bind_eq_some_iff.1 h2
    obtain ⟨rfl, -⟩ := addU32_eq e1
    clear h h2
    unfold subU32 at e2 h3
    split at e2
    · split at h3
      · cases e2
        cases h3
        rfl
      · cases h3
    · cases e2
  · simp only [if_true] at h ⊢
    exact (addU32_eq h).1

theorem line_spec {p : Params} {img : Image} {aMax vMax : Axis → ℤ} {ltr : Bool} {yn start len rep : ℕ}
    {c c' : Ctx} (S : Setup p img aMax vMax) (h : Ready aMax vMax c) (hpos : 0 < len)
    (hin : start + len ≤ img.width) (hr : line p img ltr yn start len rep c = some c') :
    Ready aMax vMax c' ∧ Past c c' ∧
      ∃ a, LinePlayed p img aMax vMax c'.events (c.channels .x).ticks a (c'.channels .x).ticks
        ⟨yn, rep, start, len, ltr⟩ := by
  unfold line at hr
  obtain ⟨ls, e1, r1⟩ := Option.bind_eq_some_iff.1 hr
  obtain ⟨x, e2, r2⟩ := Option.bind_eq_some_iff.1 r1
  obtain ⟨y, e3, r3⟩ := Option.bind_eq_some_iff.1 r2
  obtain ⟨c1, e4, r4⟩ := Option.bind_eq_some_iff.1 r3
  obtain ⟨st, e5, r5⟩ := Option.bind_eq_some_iff.1 r4
  obtain ⟨c2, e6, r6⟩ := Option.bind_eq_some_iff.1 r5
  obtain ⟨off, e7, r7⟩ := Option.bind_eq_some_iff.1 r6
  obtain ⟨ivl, e8, r8⟩ := Option.bind_eq_some_iff.1 r7
  obtain ⟨c3, e9, r9⟩ := Option.bind_eq_some_iff.1 r8
  clear hr r1 r2 r3 r4 r5 r6 r7 r8
  have hls : ls = if ltr then start else start + len := by
    unfold lineStart at e1
    cases ltr
    · exact (addU32_eq e1).1
    · cases e1; rfl
  obtain ⟨hx, hx0, hx1⟩ := lineX_eq S.vx0 S.vx1 e2
  obtain ⟨hy, hy1⟩ := lineY_eq S.step e3
  have hlen : len * p.resX < 2147483648 :=
    lt_of_le_of_lt (Nat.mul_le_mul_right _ (by omega)) S.ticks
  have hvx0 := S.vx0
  have hvxm := S.vxm
  have hwide : 2 * p.vX * (len * p.resX : ℕ) < 4294967296 := by
    refine lt_of_le_of_lt (mul_le_mul_of_nonneg_left ?_ (by omega)) S.wide
    exact_mod_cast Nat.mul_le_mul_right _ (by omega)
  set V : ℤ := if ltr = true then p.vX else -p.vX with hV
  have vmx : |V| ≤ vMax .x := by
    rw [hV]
    split
    · rwa [abs_of_nonneg hvx0]
    · rwa [abs_neg, abs_of_nonneg hvx0]
  -- the move
  have px := h.pos .x
  have py := h.pos .y
  have Lx : InLimits (x - (c.channels .x).pos) (c.channels .x).v V (aMax .x) (vMax .x) := by
    refine ⟨S.a1 _, S.v1 _, S.v2 _, h.vel _, vmx, ?_⟩
    rw [abs_le] at px ⊢
    norm_num at px ⊢
    omega
  have Ly : InLimits (y - (c.channels .y).pos) (c.channels .y).v 0 (aMax .y) (vMax .y) := by
    refine ⟨S.a1 _, S.v1 _, S.v2 _, h.vel _, by simpa using (zero_le_one.trans (S.v1 .y)), ?_⟩
    rw [abs_le] at py hy1 ⊢
    norm_num at py hy1 ⊢
    omega
  obtain ⟨s1, p1⟩ := goto_past h.sync e4
  obtain ⟨A1, A2, A3, -, -⟩ := C25_arrives _ _ _ _ h.sync.reach _ _ _ _ Lx Ly e4
  have W := C28_goto_weight _ _ _ _ h.sync.reach _ _ _ _ e4 _ (ticks_of_sync h.sync)
  have B := C26_limits_during_goto _ _ _ _ h.sync.reach _ _ _ _ Lx Ly e4 _ _ (ticks_of_sync h.sync)
    (ticks_of_sync s1)
  have hmove := (B .x).1
  unfold Ctx.velocity at A1
  unfold Ctx.position at A2 A3
  simp only [Prod.mk.injEq] at A1 A2 A3
  obtain ⟨V1, V2⟩ := A1
  have hst := (ticks_some.1 e5).1
  subst hst
  obtain ⟨rfl, -⟩ := mulU32_eq e7
  -- the pixels
  have g0 : Gliding aMax vMax c1 c1 ((c1.channels .x).ticks + 0 * p.resX)
      (fun τ => (fun k => shade p img ((ScanLine.mk yn rep start len ltr).column k) yn)
        ((τ - (c1.channels .x).ticks) / p.resX)) 0 := by
    refine ⟨s1, .refl _, by omega, fun _ => rfl, fun i => by simp, fun i τ k1 k2 => by omega, fun w0 τ k1 => ?_⟩
    rw [if_neg (by omega), (W w0 τ).2 (by omega)]
  obtain ⟨prev, g2⟩ := pixels_spec s1 S.res (wf := fun xn => do
    let x ← bitmapX ltr start len xn
    return pixelWeight p img x yn) (ws := fun k => shade p img ((ScanLine.mk yn rep start len ltr).column k) yn)
    (len := len) (fun k hk w hw => by
      obtain ⟨z, k1, k2⟩ := Option.bind_eq_some_iff.1 hw
      cases k2
      rw [bitmapX_eq (y := yn) (rep := rep) k1]
      rfl) hlen len 0 0 c1 c2 (by omega) g0 e6
  obtain ⟨now, hnow, hsum⟩ := waitFor_eq e8
  have hnow' := (ticks_some.1 hnow).1
  have q2 := g2.past.ticks
  obtain ⟨g3, t3⟩ := g2.wait s1 (by omega) (by omega) e9
  obtain ⟨g4, t4⟩ := g3.change s1 (by omega) r9
  have pp : Past c c' := p1.trans g4.past h.sync.inv.2.1 s1.inv.2.1
  -- the motion during the line
  have hacc1 : ∀ i, ∀ τ < (c1.channels .x).ticks, accAt i c'.events τ = accAt i c1.events τ := fun i τ hτ =>
    g4.past.acc i τ (by rw [same_ticks s1]; exact hτ)
  obtain ⟨-, T1, -⟩ := s1.reach.inv
  have C : ∀ i n, n ≤ len * p.resX → velAt i c'.events ((c1.channels .x).ticks + n) = (c1.channels i).v ∧
      posAt i c'.events ((c1.channels .x).ticks + n) = (c1.channels i).pos + 2 * (c1.channels i).v * n := by
    intro i n hn
    obtain ⟨k1, k2⟩ := coast (i := i) (es := c'.events) (a := (c1.channels .x).ticks) (n := n)
      (fun τ k1 k2 => g4.acc i τ k1 (by omega))
    rw [k1, k2, velAt_congr (hacc1 i) le_rfl, posAt_congr (hacc1 i) le_rfl]
    have e1 := T1.vel i
    have e2 := T1.pos i
    rw [same_ticks s1] at e1 e2
    rw [← e1, ← e2]
    exact ⟨rfl, rfl⟩
  refine ⟨⟨g4.sync, fun i => ?_, fun i => ?_⟩, pp, (c1.channels .x).ticks, hmove, by rw [t4],
    fun w0 τ k1 k2 => ?_, fun w0 k j hk hj => ?_, fun k j hk hj => ?_, fun τ k1 k2 => ?_,
    fun τ k1 k2 => ?_, fun τ k1 k2 => ?_, fun i τ k1 k2 => ?_, fun i τ k1 k2 => ?_⟩
  · rw [g4.vel i]
    cases i
    · rw [V1]; exact vmx
    · rw [V2]; simpa using (zero_le_one.trans (S.v1 .y))
  · rw [g4.pos i, t4]
    cases i
    · rw [V1]
      have : |V * (len * p.resX : ℕ)| = p.vX * (len * p.resX : ℕ) := by
        rw [abs_mul, abs_of_nonneg (Int.natCast_nonneg _)]
        congr 1
        rw [hV]
        split
        · rw [abs_of_nonneg hvx0]
        · rw [abs_neg, abs_of_nonneg hvx0]
      generalize (len * p.resX : ℕ) = N at *
      have e : ((((c1.channels .x).ticks + N : ℕ) : ℤ) - (c1.channels .x).ticks) = N := by push_cast; ring
      rw [e, mul_assoc]
      rw [mul_assoc] at hwide
      have k := abs_le.1 this.le
      generalize V * (N : ℤ) = m at *
      generalize p.vX * (N : ℤ) = m' at *
      rw [abs_le] at A2 ⊢
      norm_num
      omega
    · rw [V2]
      rw [abs_le] at A3 hy1 ⊢
      norm_num at hy1 ⊢
      omega
  · rw [g4.past.weight w0 τ k2, (W w0 τ).2 k1]
  · replace hk : k < len := hk
    have hb := column_end hk (Nat.succ_le_of_lt hj)
    rw [g4.weight w0 _ (by omega), if_pos (by omega)]
    simp only
    congr 2
    rw [Nat.add_sub_cancel_left, Nat.div_eq_iff S.res]
    constructor
    · omega
    · omega
  · replace hk : k < len := hk
    have hb := column_end hk hj
    rw [(C .x _ hb).2, V1]
    have key : x + 2 * V * ((k * p.resX + j : ℕ) : ℤ) = 2 * p.vX * (if ltr = true then
        (p.resX * ((ScanLine.mk yn rep start len ltr).column k : ℕ) + j : ℤ)
        else (p.resX * (((ScanLine.mk yn rep start len ltr).column k : ℕ) + 1) - j : ℤ)) := by
      rw [hx, hls, hV]
      unfold ScanLine.column
      cases ltr
      · simp only [Bool.false_eq_true, if_false]
        have e : ((start + len - 1 - k : ℕ) : ℤ) = start + len - 1 - k := by omega
        rw [e]
        push_cast
        ring
      · simp only [if_true]
        push_cast
        ring
    simp only at key ⊢
    rw [← key]
    rw [abs_le] at A2 ⊢
    omega
  · obtain ⟨n, rfl⟩ := Nat.exists_eq_add_of_le k1
    rw [(C .y n (by omega)).2, V2, mul_zero, zero_mul, add_zero]
    simp only
    rw [← hy]
    exact A3
  · obtain ⟨n, rfl⟩ := Nat.exists_eq_add_of_le k1
    rw [(C .x n (by omega)).1, V1]
  · obtain ⟨n, rfl⟩ := Nat.exists_eq_add_of_le k1
    rw [(C .y n (by omega)).1, V2]
  · rw [hacc1 i τ k2]
    exact ((B i).2 τ k1 k2).1
  · rw [velAt_congr (hacc1 i) (by omega)]
    exact ((B i).2 τ k1 k2).2

/-! ### The whole image -/

theorem Alternating.append {b : Bool} {ls ms : List ScanLine} (h : Alternating b ls)
    (h' : Alternating (if ls.length % 2 = 0 then b else !b) ms) : Alternating b (ls ++ ms) := by
  induction ls generalizing b with
  | nil => simpa using h'
  | cons l ls ih =>
    refine ⟨h.1, ih h.2 ?_⟩
    rw [List.length_cons] at h'
    rcases Nat.mod_two_eq_zero_or_one ls.length with e | e
    · rw [if_pos e]
      rwa [if_neg (by omega)] at h'
    · rw [if_neg (by omega)]
      rw [if_pos (by omega)] at h'
      simpa using h'

theorem Alternating.getElem {b : Bool} {ls : List ScanLine} (h : Alternating b ls) (k : ℕ)
    (hk : k < ls.length) : ls[k].ltr = if k % 2 = 0 then b else !b := by
  induction ls generalizing b k with
  | nil => simp at hk
  | cons l ls ih =>
    cases k with
    | zero => simpa using h.1
    | succ k =>
      rw [List.getElem_cons_succ, ih h.2]
      rcases Nat.mod_two_eq_zero_or_one k with e | e
      · rw [if_pos e, if_neg (by omega)]
      · rw [if_neg (by omega), if_pos (by omega), Bool.not_not]

/-- What a part of the scan has done. -/
structure Scanned (p : Params) (img : Image) (aMax vMax : Axis → ℤ) (s s' : Bool × Ctx) (plan : List (ℕ × ℕ))
    (ls : List ScanLine) : Prop where
  ready : Ready aMax vMax s'.2
  past : Past s.2 s'.2
  scan : Scan p img aMax vMax s'.2.events (s.2.channels .x).ticks ls (s'.2.channels .x).ticks
  plan : ls.map (fun l => (l.y, l.rep)) = plan
  span : ∀ l ∈ ls, 0 < l.len ∧ RowSpan img l.y l.start l.len
  alt : Alternating s.1 ls
  next : s'.1 = if ls.length % 2 = 0 then s.1 else !s.1

theorem Scanned.refl {p : Params} {img : Image} {aMax vMax : Axis → ℤ} {s : Bool × Ctx}
    (h : Ready aMax vMax s.2) : Scanned p img aMax vMax s s [] [] :=
  ⟨h, .refl _, .nil _, rfl, by simp, trivial, by simp⟩

theorem Scanned.trans {p : Params} {img : Image} {aMax vMax : Axis → ℤ} {s1 s2 s3 : Bool × Ctx}
    {P Q : List (ℕ × ℕ)} {ls ms : List ScanLine} (h0 : Sync aMax vMax s1.2)
    (h : Scanned p img aMax vMax s1 s2 P ls)
    (h' : Scanned p img aMax vMax s2 s3 Q ms) : Scanned p img aMax vMax s1 s3 (P ++ Q) (ls ++ ms) := by
  have e2 := h.ready.sync.inv.2.1
  refine ⟨h'.ready, h.past.trans h'.past h0.inv.2.1 e2, ?_, ?_, ?_, ?_, ?_⟩
  · refine (h.scan.mono (fun i τ hτ => ?_) (fun w0 τ hτ => h'.past.weight w0 τ hτ)).append h'.scan
    exact h'.past.acc i τ (by rw [same_ticks h.ready.sync]; exact hτ)
  · rw [List.map_append, h.plan, h'.plan]
  · intro l hl
    rcases List.mem_append.1 hl with hl | hl
    · exact h.span l hl
    · exact h'.span l hl
  · apply Alternating.append h.alt
    rw [← h.next]
    exact h'.alt
  · rw [h'.next, h.next, List.length_append]
    rcases Nat.mod_two_eq_zero_or_one ls.length with e | e <;>
      rcases Nat.mod_two_eq_zero_or_one ms.length with e' | e' <;>
        simp [Nat.add_mod, e, e']

theorem lines_spec {p : Params} {img : Image} {aMax vMax : Axis → ℤ} (S : Setup p img aMax vMax)
    {yn start len : ℕ} (hpos : 0 < len) (hin : start + len ≤ img.width) (hsp : RowSpan img yn start len) :
    ∀ (n rep : ℕ) (s s' : Bool × Ctx), Ready aMax vMax s.2 → lines p img yn start len rep n s = some s' →
      ∃ ls, Scanned p img aMax vMax s s' ((List.range' rep n).map fun r => (yn, r)) ls := by
  intro n
  induction n with
  | zero =>
    intro rep s s' h hr
    simp only [lines, Option.some.injEq] at hr
    subst hr
    exact ⟨[], .refl h⟩
  | succ n ih =>
    rintro rep ⟨ltr, c⟩ s' h hr
    rw [lines] at hr
    obtain ⟨c1, h1, h2⟩ := Option.bind_eq_some_iff.1 hr
    obtain ⟨R, P, a, L⟩ := line_spec S h hpos hin h1
    have one : Scanned p img aMax vMax (ltr, c) (!ltr, c1) [(yn, rep)] [⟨yn, rep, start, len, ltr⟩] :=
      ⟨R, P, .cons L (.nil _), rfl, by simpa using ⟨hpos, hsp⟩, ⟨rfl, trivial⟩, by simp⟩
    obtain ⟨ls, h3⟩ := ih _ _ _ R h2
    exact ⟨_, one.trans h.sync h3⟩

theorem rowPlan_succ (p : Params) (img : Image) (y n : ℕ) : rowPlan p img y (n + 1) =
    (if ∃ x < img.width, img.pixel x y < 255 then (List.range p.resY).map (fun r => (y, r)) else []) ++
      rowPlan p img (y + 1) n := by
  unfold rowPlan
  rw [List.range'_succ, List.filter_cons]
  by_cases h : ∃ x < img.width, img.pixel x y < 255
  · rw [if_pos h, if_pos (by simpa using h)]
    rfl
  · rw [if_neg h, if_neg (by simpa using h)]
    rfl

theorem rows_spec {p : Params} {img : Image} {aMax vMax : Axis → ℤ} (S : Setup p img aMax vMax) :
    ∀ (n yn : ℕ) (s s' : Bool × Ctx), Ready aMax vMax s.2 → rows p img yn n s = some s' →
      ∃ ls, Scanned p img aMax vMax s s' (rowPlan p img yn n) ls := by
  intro n
  induction n with
  | zero =>
    intro yn s s' h hr
    simp only [rows, Option.some.injEq] at hr
    subst hr
    exact ⟨[], .refl h⟩
  | succ n ih =>
    intro yn s s' h hr
    rw [rows] at hr
    rcases he : findRowInterval (marked img yn) img.width with ⟨start, len⟩
    rw [he] at hr
    simp only at hr
    obtain ⟨f1, f2, f3⟩ := findRowInterval_spec _ _ _ _ he
    rw [rowPlan_succ]
    by_cases hl : len > 0
    · rw [if_pos hl] at hr
      obtain ⟨s1, h1, h2⟩ := Option.bind_eq_some_iff.1 hr
      have hs : RowSpan img yn start len := by
        refine ⟨fun x hx hp => f1 x hx (by simpa [marked] using hp), fun _ => ?_⟩
        obtain ⟨k1, k2, k3⟩ := f2 hl
        exact ⟨k1, by simpa [marked] using k2, by simpa [marked] using k3⟩
      obtain ⟨ls, q⟩ := lines_spec S hl (f2 hl).1 hs _ _ _ _ h h1
      obtain ⟨ms, q'⟩ := ih _ _ _ q.ready h2
      rw [if_pos ⟨start, by have := (f2 hl).1; omega, (hs.2 hl).2.1⟩, List.range_eq_range']
      exact ⟨_, q.trans h.sync q'⟩
    · rw [if_neg hl] at hr
      rw [if_neg]
      · exact ih _ _ _ h hr
      · rintro ⟨x, hx, hp⟩
        have := f3.1 (by omega) x hx
        simp [marked] at this
        omega

/-- What the checks before the loop give. -/
theorem checks_eq {p : Params} {img : Image} (h : checks p img = some ()) (h0 : -2147483648 ≤ p.vX)
    (h1 : p.vX < 2147483648) : 0 ≤ p.vX ∧ 2 * p.vX * (img.width * p.resX : ℕ) < 4294967296 ∧
    img.width * p.resX < 2147483648 := by
  obtain ⟨a, e1, h1'⟩ := Option.bind_eq_some_iff.1 h
  obtain ⟨a', e1', h2⟩ := Option.bind_eq_some_iff.1 h1'
  obtain ⟨b, e2, h3⟩ := Option.bind_eq_some_iff.1 h2
  obtain ⟨d, e3, h4⟩ := Option.bind_eq_some_iff.1 h3
  obtain ⟨e, e4, -⟩ := Option.bind_eq_some_iff.1 h4
  obtain ⟨rfl, -⟩ := mulU32_eq e1
  obtain ⟨-, k5⟩ := mulU32_eq e1'
  obtain ⟨rfl, k3⟩ := mulU32_eq e3
  obtain ⟨-, k4⟩ := mulU32_eq e4
  have h0 : 0 ≤ p.vX := by
    by_contra hc
    have : (asU32 p.vX : ℤ) = p.vX + 4294967296 := by
      unfold asU32
      omega
    omega
  have e := asU32_eq h0 h1
  refine ⟨h0, ?_, by omega⟩
  rw [← e]
  have : (asU32 p.vX : ℤ) * 2 * ((img.width * p.resX : ℕ) : ℤ) < 4294967296 := by exact_mod_cast k4
  linarith

theorem raster_spec {p : Params} {img : Image} {aMax vMax : Axis → ℤ} {c' : Ctx} (a1 : ∀ i, 1 ≤ aMax i)
    (v1 : ∀ i, 1 ≤ vMax i) (v2 : ∀ i, vMax i ≤ 2 ^ 59) (res : 0 < p.resX)
    (step : |p.stepY| ≤ 2 ^ 28) (vx0 : -2 ^ 31 ≤ p.vX)
    (vx1 : p.vX < 2 ^ 31) (vxm : p.vX ≤ vMax .x) (hr : raster p img (Ctx.new aMax vMax) = some c') :
    ∃ ls T E, Scan p img aMax vMax c'.events 0 ls T ∧
      ls.map (fun l => (l.y, l.rep)) = rowPlan p img 0 img.height ∧
      (∀ l ∈ ls, 0 < l.len ∧ RowSpan img l.y l.start l.len) ∧
      (∀ k (hk : k < ls.length), ls[k].ltr = decide (k % 2 = 0)) ∧
      T < E ∧ (∀ w0 τ, T ≤ τ → weightAt w0 c'.events τ = 0) ∧
      (∀ i τ, T ≤ τ → |accAt i c'.events τ| ≤ aMax i ∧ |velAt i c'.events (τ + 1)| ≤ vMax i) ∧
      ∀ i τ, E ≤ τ → velAt i c'.events τ = 0 ∧ posAt i c'.events τ = 0 := by
  unfold raster at hr
  simp only at hr
  obtain ⟨_, e1, r1⟩ := Option.bind_eq_some_iff.1 hr
  obtain ⟨⟨b, c1⟩, e2, r2⟩ := Option.bind_eq_some_iff.1 r1
  obtain ⟨c2, e3, r3⟩ := Option.bind_eq_some_iff.1 r2
  clear hr r1 r2
  norm_num at vx0 vx1
  obtain ⟨k1, k2, ticks⟩ := checks_eq e1 vx0 vx1
  have S : Setup p img aMax vMax := ⟨a1, v1, v2, res, ticks, step, vxm, k1, vx1, k2⟩
  have R0 : Ready aMax vMax ((Ctx.new aMax vMax).setWeight p.weight) := by
    refine ⟨.step (op := .setWeight p.weight) .new trivial rfl, fun i => ?_, fun i => ?_⟩
    · simpa [Ctx.setWeight, Ctx.new] using (zero_le_one.trans (v1 i))
    · simp [Ctx.setWeight, Ctx.new]
  obtain ⟨ls, Q⟩ := rows_spec S _ _ _ _ R0 e2
  have R := Q.ready
  simp only at R
  unfold Ctx.stepGoto at e3
  have L : ∀ i, InLimits (0 - (c1.channels i).pos) (c1.channels i).v 0 (aMax i) (vMax i) := by
    intro i
    refine ⟨a1 i, v1 i, v2 i, R.vel i, by simpa using (zero_le_one.trans (v1 i)), ?_⟩
    rw [zero_sub, abs_neg]
    exact (R.pos i).trans (by norm_num)
  obtain ⟨s2, p2⟩ := goto_past R.sync e3
  obtain ⟨A1, -, -, A2, A3⟩ := C25_arrives _ _ _ _ R.sync.reach _ _ _ _ (L .x) (L .y) e3
  have W := C28_goto_weight _ _ _ _ R.sync.reach _ _ _ _ e3 _ (ticks_of_sync R.sync)
  have B := C26_limits_during_goto _ _ _ _ R.sync.reach _ _ _ _ (L .x) (L .y) e3 _ _ (ticks_of_sync R.sync)
    (ticks_of_sync s2)
  have En := fun w0 τ => C28_end_of_events _ _ _ _ s2.reach r3 _ (ticks_of_sync s2) w0 τ
  unfold Ctx.velocity at A1
  unfold Ctx.position at A2 A3
  simp only [Prod.mk.injEq] at A1 A2 A3
  replace A2 := A2.2 (by norm_num)
  replace A3 := A3.2 (by norm_num)
  have hmove := (B .x).1
  obtain ⟨-, T2, -⟩ := s2.reach.inv
  have acc1 : ∀ i, ∀ τ < (c2.channels .x).ticks, accAt i c'.events τ = accAt i c2.events τ :=
    fun i τ hτ => ((En 0 τ).2.1 hτ).2 i
  have rest : ∀ i τ, (c2.channels .x).ticks ≤ τ → accAt i c'.events τ = 0 := by
    intro i τ hτ
    cases i
    · exact ((En 0 τ).1 hτ).2.1
    · exact ((En 0 τ).1 hτ).2.2
  have stop : ∀ i τ, (c2.channels .x).ticks ≤ τ → velAt i c'.events τ = 0 ∧ posAt i c'.events τ = 0 := by
    intro i τ hτ
    obtain ⟨n, rfl⟩ := Nat.exists_eq_add_of_le hτ
    obtain ⟨q1, q2⟩ := coast (i := i) (es := c'.events) (a := (c2.channels .x).ticks) (n := n)
      (fun τ k1 _ => rest i τ k1)
    have e1 := T2.vel i
    have e2 := T2.pos i
    rw [same_ticks s2] at e1 e2
    rw [q1, q2, velAt_congr (acc1 i) le_rfl, posAt_congr (acc1 i) le_rfl, ← e1, ← e2]
    cases i
    · rw [A1.1]; simpa using A2
    · rw [A1.2]; simpa using A3
  refine ⟨ls, (c1.channels .x).ticks, (c2.channels .x).ticks, ?_, Q.plan, Q.span, ?_, hmove, ?_, ?_, stop⟩
  · have t0 : (((Ctx.new aMax vMax).setWeight p.weight).channels .x).ticks = 0 := rfl
    have := Q.scan
    simp only [t0] at this
    refine this.mono (fun i τ hτ => ?_) (fun w0 τ hτ => ?_)
    · rw [acc1 i τ (by omega)]
      exact p2.acc i τ (by rw [same_ticks R.sync]; exact hτ)
    · rw [((En w0 τ).2.1 (by omega)).1]
      exact p2.weight w0 τ hτ
  · intro k hk
    have := Alternating.getElem Q.alt k hk
    simp only at this
    rw [this]
    by_cases h : k % 2 = 0 <;> simp [h]
  · intro w0 τ hτ
    by_cases h : τ < (c2.channels .x).ticks
    · rw [((En w0 τ).2.1 h).1]
      exact (W w0 τ).2 hτ
    · exact ((En w0 τ).1 (by omega)).1
  · intro i τ hτ
    by_cases h : τ < (c2.channels .x).ticks
    · rw [acc1 i τ h, velAt_congr (acc1 i) (by omega)]
      exact (B i).2 τ hτ h
    · rw [rest i τ (by omega), (stop i (τ + 1) (by omega)).1]
      have := a1 i
      have := v1 i
      simp
      omega

/-! ### The scan returns -/

theorem mulU32_ok {a b : ℕ} (h : a * b < 4294967296) : mulU32 a b = some (a * b) := if_pos h
theorem addU32_ok {a b : ℕ} (h : a + b < 4294967296) : addU32 a b = some (a + b) := if_pos h
theorem subU32_ok {a b : ℕ} (h : b ≤ a) : subU32 a b = some (a - b) := if_pos h

theorem addAcc_ok {aMax vMax : Axis → ℤ} {c : Ctx} {n : ℕ} (h : Sync aMax vMax c) (h1 : 1 ≤ n)
    (hv : ∀ i, |(c.channels i).v| < 2 ^ 31) : ∃ c', c.addAccInterval 0 0 n = some c' := by
  obtain ⟨-, hxy, hle⟩ := h.inv
  have i32 : ∀ i, toI32 ((c.channels i).v) = some (c.channels i).v := by
    intro i
    have := abs_lt.1 (hv i)
    unfold toI32
    rw [if_pos (by norm_num at this; omega)]
  have z : toI32 0 = some 0 := by decide
  unfold Ctx.addAccInterval Ctx.addAccChannel Ctx.push tickDiff cassert Ctx.setCh
  simp only [mul_zero, z, Option.bind_eq_bind, Option.bind_some, add_zero, i32, ge_iff_le, if_pos h1,
    if_pos hle, Option.pure_def, reduceCtorEq, if_false]
  rw [if_pos hxy.le]
  simp [hxy]

theorem weight_ok {aMax vMax : Axis → ℤ} {c : Ctx} {t : ℕ} (w : ℤ) (h : Sync aMax vMax c)
    (ht : (c.channels .x).ticks = t) : ∃ c', c.addWeightChange w t = some c' := by
  rw [← Option.ne_none_iff_exists', Ne, C29_panics_iff aMax vMax c h _ (ticks_of_sync h)]
  omega

theorem wait_ok {aMax vMax : Axis → ℤ} {c : Ctx} {t : ℕ} (h : Sync aMax vMax c)
    (ht : (c.channels .x).ticks ≤ t) (hlt : t < (c.channels .x).ticks + 4294967296) :
    waitFor c t = some (t - (c.channels .x).ticks) := by
  unfold waitFor
  rw [ticks_of_sync h]
  unfold cassert
  simp only [Option.bind_eq_bind, Option.bind_some, if_pos ht]
  rw [if_pos (by omega)]
  rfl

theorem pixels_ok {aMax vMax : Axis → ℤ} {c0 : Ctx} (h0 : Sync aMax vMax c0) {resX : ℕ}
    (hres : 0 < resX) {wf : ℕ → Option ℤ} {len : ℕ}
    (hwf : ∀ k < len, ∃ x, wf k = some x) (hlen : len * resX < 2147483648)
    (hv : ∀ i, |(c0.channels i).v| < 2 ^ 31) :
    ∀ (n xn : ℕ) (prev : ℤ) (c : Ctx), xn + n = len → Sync aMax vMax c →
      (∀ i, (c.channels i).v = (c0.channels i).v) → (c0.channels .x).ticks ≤ (c.channels .x).ticks →
      (c.channels .x).ticks ≤ (c0.channels .x).ticks + (xn - 1) * resX →
      ∃ c', pixels resX (c0.channels .x).ticks wf xn prev c n = some c' ∧ Sync aMax vMax c' ∧
        (∀ i, (c'.channels i).v = (c0.channels i).v) ∧ (c0.channels .x).ticks ≤ (c'.channels .x).ticks ∧
        (c'.channels .x).ticks ≤ (c0.channels .x).ticks + (len - 1) * resX := by
  intro n
  induction n with
  | zero =>
    intro xn prev c hx hs hcv hge hle
    obtain rfl : xn = len := by omega
    exact ⟨c, rfl, hs, hcv, hge, hle⟩
  | succ n ih =>
    intro xn prev c hx hs hcv hge hle
    have hmul : xn * resX ≤ len * resX := Nat.mul_le_mul_right resX (by omega)
    have hmul' : (xn - 1) * resX ≤ xn * resX := Nat.mul_le_mul_right resX (by omega)
    obtain ⟨wx, hwx⟩ := hwf xn (by omega)
    rw [pixels, hwx]
    simp only [Option.bind_eq_bind, Option.bind_some]
    by_cases hne : wx ≠ prev
    · rw [if_pos hne, mulU32_ok (by omega)]
      simp only [Option.bind_some]
      rw [wait_ok hs (by omega) (by omega)]
      simp only [Option.bind_some]
      obtain ⟨c1, e1, s1, v1, t1⟩ : ∃ c1, hold c ((c0.channels .x).ticks + xn * resX - (c.channels .x).ticks) =
          some c1 ∧ Sync aMax vMax c1 ∧ (∀ i, (c1.channels i).v = (c0.channels i).v) ∧
          (c1.channels .x).ticks = (c0.channels .x).ticks + xn * resX := by
        unfold hold
        by_cases hi : (c0.channels .x).ticks + xn * resX - (c.channels .x).ticks ≠ 0
        · rw [if_pos hi]
          obtain ⟨c1, e1⟩ := addAcc_ok hs (n := (c0.channels .x).ticks + xn * resX - (c.channels .x).ticks)
            (by omega) (fun i => by rw [hcv i]; exact hv i)
          obtain ⟨M, -⟩ := addAccInterval_spec hs.inv.1 (by omega) e1
          refine ⟨c1, e1, .step (op := .addAcc 0 0 _) hs (by norm_num [Op.InStep]; omega) e1, fun i => ?_, ?_⟩
          · rw [M.ch i, ← hcv i]
            have zero : both (0 : ℤ) 0 i = 0 := by cases i <;> rfl
            simp only [zero, endVel_replicate, zero_mul, add_zero]
          · rw [M.ch .x]
            simp
            omega
        · rw [if_neg hi]
          exact ⟨c, rfl, hs, hcv, by omega⟩
      obtain ⟨c2, e2⟩ := weight_ok wx s1 t1
      rw [e1]
      simp only [Option.bind_some]
      rw [e2]
      simp only [Option.bind_some]
      rw [← t1] at e2
      obtain ⟨s2, ch2, -⟩ := weight_now s1 e2
      exact ih _ _ _ (by omega) s2 (fun i => by rw [ch2]; exact v1 i) (by rw [ch2]; omega)
        (by rw [ch2, Nat.add_sub_cancel]; omega)
    · rw [if_neg hne]
      exact ih _ _ _ (by omega) hs hcv hge (by rw [Nat.add_sub_cancel]; omega)

/-- The head is on the picture. -/
structure Inside (p : Params) (img : Image) (aMax vMax : Axis → ℤ) (c : Ctx) : Prop extends
    Ready aMax vMax c where
  x0 : -1 ≤ (c.channels .x).pos
  x1 : (c.channels .x).pos ≤ 2 * p.vX * (img.width * p.resX : ℕ) + 1
  y : ∃ k ≤ img.height * p.resY, |(c.channels .y).pos - (k : ℕ) * p.stepY| ≤ 1

/-- Each way over the picture is possible within 65535 ticks. -/
structure Small (p : Params) (img : Image) (vMax : Axis → ℤ) : Prop where
  x : 2 * p.vX * (img.width * p.resX : ℕ) + 1 ≤ vMax .x * 65535
  y : |p.stepY| * (img.height * p.resY : ℕ) + 1 ≤ vMax .y * 65535
  lines : img.height * p.resY < 4294967296

theorem way_y {k m H : ℕ} {pos step : ℤ} (hk : k ≤ H) (hm : m ≤ H) (h : |pos - k * step| ≤ 1) :
    |m * step - pos| ≤ |step| * H + 1 := by
  have e : m * step - pos = ((m : ℤ) - k) * step - (pos - k * step) := by ring
  rw [e]
  refine (abs_sub _ _).trans (add_le_add ?_ h)
  rw [abs_mul, mul_comm]
  refine mul_le_mul_of_nonneg_left ?_ (abs_nonneg _)
  rw [abs_le]
  omega

theorem line_ok {p : Params} {img : Image} {aMax vMax : Axis → ℤ} {ltr : Bool} {yn start len rep : ℕ}
    {c : Ctx} (S : Setup p img aMax vMax) (hM : Machine aMax vMax) (hS : Small p img vMax)
    (h : Inside p img aMax vMax c) (hpos : 0 < len) (hin : start + len ≤ img.width) (hy : yn < img.height)
    (hrep : rep < p.resY) :
    ∃ c', line p img ltr yn start len rep c = some c' ∧ Inside p img aMax vMax c' := by
  have hres := S.res
  have hticks := S.ticks
  have hwide := S.wide
  have hvx0 := S.vx0
  have hW : img.width ≤ img.width * p.resX := Nat.le_mul_of_pos_right _ hres
  have hlr : len * p.resX ≤ img.width * p.resX := Nat.mul_le_mul_right _ (by omega)
  have hyr : yn * p.resY + rep < img.height * p.resY := by
    have := Nat.mul_le_mul_right p.resY (show yn + 1 ≤ img.height by omega)
    rw [Nat.add_mul, Nat.one_mul] at this
    omega
  have hlines := hS.lines
  obtain ⟨ls, e1, hls⟩ : ∃ ls, lineStart ltr start len = some ls ∧ ls ≤ img.width := by
    unfold lineStart
    cases ltr
    · exact ⟨_, addU32_ok (by omega), hin⟩
    · exact ⟨_, rfl, by omega⟩
  have hvu := asU32_eq S.vx0 S.vx1
  obtain ⟨x, e2⟩ : ∃ x, lineX p ls = some x := by
    unfold lineX
    have k1 : p.resX * 2 * asU32 p.vX * img.width < 4294967296 := by
      have : ((p.resX * 2 * asU32 p.vX * img.width : ℕ) : ℤ) < 4294967296 := by
        push_cast
        rw [hvu]
        push_cast at hwide
        linarith
      exact_mod_cast this
    have k2 : p.resX * 2 * asU32 p.vX ≤ p.resX * 2 * asU32 p.vX * img.width :=
      Nat.le_mul_of_pos_right _ (by omega)
    have k3 : p.resX * 2 * asU32 p.vX * ls ≤ p.resX * 2 * asU32 p.vX * img.width :=
      Nat.mul_le_mul_left _ hls
    have k4 : p.resX ≤ img.width * p.resX := Nat.le_mul_of_pos_left _ (by omega)
    rw [mulU32_ok (by omega)]
    simp only [Option.bind_eq_bind, Option.bind_some]
    rw [mulU32_ok (by omega)]
    simp only [Option.bind_some]
    rw [mulU32_ok (by omega)]
    exact ⟨_, rfl⟩
  obtain ⟨y, e3⟩ : ∃ y, lineY p yn rep = some y := by
    unfold lineY
    rw [mulU32_ok (by omega)]
    simp only [Option.bind_eq_bind, Option.bind_some]
    rw [addU32_ok (by omega)]
    exact ⟨_, rfl⟩
  obtain ⟨hx, hx0, -⟩ := lineX_eq S.vx0 S.vx1 e2
  obtain ⟨hy', hy1⟩ := lineY_eq S.step e3
  have hx1 : x ≤ 2 * p.vX * (img.width * p.resX : ℕ) := by
    rw [hx]
    refine mul_le_mul_of_nonneg_left ?_ (by omega)
    have := Nat.mul_le_mul_left p.resX hls
    rw [mul_comm img.width]
    exact_mod_cast this
  set V : ℤ := if ltr = true then p.vX else -p.vX with hV
  have vmx : |V| ≤ vMax .x := by
    have := S.vxm
    rw [hV]
    split
    · rwa [abs_of_nonneg hvx0]
    · rwa [abs_neg, abs_of_nonneg hvx0]
  have px := h.pos .x
  have py := h.pos .y
  have x0 := h.x0
  have x1 := h.x1
  have sx := hS.x
  have Lx : InLimits (x - (c.channels .x).pos) (c.channels .x).v V (aMax .x) (vMax .x) := by
    refine ⟨S.a1 _, S.v1 _, S.v2 _, h.vel _, vmx, ?_⟩
    rw [abs_le] at px ⊢
    norm_num at px ⊢
    omega
  have Ly : InLimits (y - (c.channels .y).pos) (c.channels .y).v 0 (aMax .y) (vMax .y) := by
    refine ⟨S.a1 _, S.v1 _, S.v2 _, h.vel _, by simpa using (zero_le_one.trans (S.v1 .y)), ?_⟩
    rw [abs_le] at py hy1 ⊢
    norm_num at py hy1 ⊢
    omega
  obtain ⟨k, hk, hky⟩ := h.y
  obtain ⟨c1, e4⟩ := C25_returns_in_time _ _ _ h.sync x y V 0 Lx Ly hM.a2 hM.v2 hM.r
    (by rw [abs_le]; omega) (by
      rw [hy']
      have := way_y hk hyr.le hky
      push_cast at this
      exact this.trans (by simpa using hS.y))
  obtain ⟨s1, -⟩ := goto_past h.sync e4
  obtain ⟨A1, -⟩ := C25_arrives _ _ _ _ h.sync.reach _ _ _ _ Lx Ly e4
  unfold Ctx.velocity at A1
  simp only [Prod.mk.injEq] at A1
  have hv : ∀ i, |(c1.channels i).v| < 2 ^ 31 := by
    intro i
    have := hM.v2 i
    cases i
    · rw [A1.1]; norm_num at *; omega
    · rw [A1.2]; norm_num
  have hlen : len * p.resX < 2147483648 := by omega
  obtain ⟨c2, e6, s2, v2, t2, h6⟩ := pixels_ok s1 hres (wf := fun xn => do
    let x ← bitmapX ltr start len xn
    return pixelWeight p img x yn) (len := len) (fun k hk => by
      unfold bitmapX
      cases ltr
      · simp only [Bool.false_eq_true, if_false]
        rw [addU32_ok (by omega)]
        simp only [Option.bind_eq_bind, Option.bind_some]
        rw [subU32_ok (by omega)]
        simp only [Option.bind_some]
        rw [subU32_ok (by omega)]
        exact ⟨_, rfl⟩
      · simp only [if_true]
        rw [addU32_ok (by omega)]
        exact ⟨_, rfl⟩) hlen hv len 0 0 c1 (by omega) s1 (fun _ => rfl) le_rfl (by omega)
  have hl1 : (len - 1) * p.resX + p.resX = len * p.resX := by
    obtain ⟨m, rfl⟩ := Nat.exists_eq_add_of_lt hpos
    simp [Nat.add_mul]
  obtain ⟨c3, e9⟩ := addAcc_ok s2 (n := (c1.channels .x).ticks + len * p.resX - (c2.channels .x).ticks)
    (by omega) (fun i => by rw [v2 i]; exact hv i)
  have s3 : Sync aMax vMax c3 := .step (op := .addAcc 0 0 _) s2 (by norm_num [Op.InStep]; omega) e9
  obtain ⟨M, -⟩ := addAccInterval_spec s2.inv.1 (by omega) e9
  obtain ⟨c', e10⟩ := weight_ok (t := (c1.channels .x).ticks + len * p.resX) 0 s3 (by
    rw [M.ch .x]; simp; omega)
  have hr : line p img ltr yn start len rep c = some c' := by
    unfold line
    rw [e1]
    simp only [Option.bind_eq_bind, Option.bind_some]
    rw [e2]
    simp only [Option.bind_some]
    rw [e3]
    simp only [Option.bind_some]
    rw [← hV, e4]
    simp only [Option.bind_some]
    rw [ticks_of_sync s1]
    simp only [Option.bind_some]
    simp only [Option.bind_eq_bind] at e6
    rw [e6]
    simp only [Option.bind_some]
    rw [mulU32_ok (by omega)]
    simp only [Option.bind_some]
    rw [wait_ok s2 (by omega) (by omega)]
    simp only [Option.bind_some]
    rw [e9]
    exact e10
  obtain ⟨R, -, a, L⟩ := line_spec S h.toReady hpos hin hr
  obtain ⟨-, T', -⟩ := R.sync.reach.inv
  have Lx := L.xpos (len - 1) p.resX (by simp only; omega) le_rfl
  have Ly := L.ypos (c'.channels .x).ticks (by have := L.len; omega) le_rfl
  have ex := T'.pos .x
  have ey := T'.pos .y
  rw [same_ticks R.sync] at ey
  have hb := L.len
  simp only at hb Lx Ly
  rw [hl1, ← hb, ← ex] at Lx
  rw [← ey] at Ly
  obtain ⟨m, hm, hmx⟩ : ∃ m ≤ img.width, |(c'.channels .x).pos - 2 * p.vX * ((m * p.resX : ℕ) : ℤ)| ≤ 1 := by
    unfold ScanLine.column at Lx
    cases ltr
    · simp only [Bool.false_eq_true, if_false] at Lx
      refine ⟨start, by omega, ?_⟩
      rw [show start + len - 1 - (len - 1) = start by omega] at Lx
      have e : ((start * p.resX : ℕ) : ℤ) = p.resX * ((start : ℕ) + 1) - (p.resX : ℕ) := by push_cast; ring
      rw [e]
      exact Lx
    · simp only [if_true] at Lx
      refine ⟨start + len, by omega, ?_⟩
      have e : (((start + len) * p.resX : ℕ) : ℤ) = p.resX * ((start + (len - 1) : ℕ) : ℤ) + (p.resX : ℕ) := by
        rw [show start + len = start + (len - 1) + 1 by omega]
        push_cast
        ring
      rw [e]
      exact Lx
  have hmw : 2 * p.vX * ((m * p.resX : ℕ) : ℤ) ≤ 2 * p.vX * (img.width * p.resX : ℕ) := by
    refine mul_le_mul_of_nonneg_left ?_ (by omega)
    exact_mod_cast Nat.mul_le_mul_right _ hm
  have hm0 : 0 ≤ 2 * p.vX * ((m * p.resX : ℕ) : ℤ) := by positivity
  rw [abs_le] at hmx
  exact ⟨c', hr, R, by omega, by omega, yn * p.resY + rep, hyr.le, by push_cast; exact Ly⟩

theorem lines_ok {p : Params} {img : Image} {aMax vMax : Axis → ℤ} (S : Setup p img aMax vMax)
    (hM : Machine aMax vMax) (hS : Small p img vMax) {yn start len : ℕ} (hpos : 0 < len)
    (hin : start + len ≤ img.width) (hy : yn < img.height) :
    ∀ (n rep : ℕ) (s : Bool × Ctx), Inside p img aMax vMax s.2 → rep + n ≤ p.resY →
      ∃ s', lines p img yn start len rep n s = some s' ∧ Inside p img aMax vMax s'.2 := by
  intro n
  induction n with
  | zero => exact fun rep s h _ => ⟨s, rfl, h⟩
  | succ n ih =>
    rintro rep ⟨ltr, c⟩ h hn
    obtain ⟨c1, h1, i1⟩ := line_ok (ltr := ltr) S hM hS h hpos hin hy (show rep < p.resY by omega)
    rw [lines, h1]
    exact ih _ _ i1 (by omega)

theorem rows_ok {p : Params} {img : Image} {aMax vMax : Axis → ℤ} (S : Setup p img aMax vMax)
    (hM : Machine aMax vMax) (hS : Small p img vMax) :
    ∀ (n yn : ℕ) (s : Bool × Ctx), Inside p img aMax vMax s.2 → yn + n ≤ img.height →
      ∃ s', rows p img yn n s = some s' ∧ Inside p img aMax vMax s'.2 := by
  intro n
  induction n with
  | zero => exact fun yn s h _ => ⟨s, rfl, h⟩
  | succ n ih =>
    intro yn s h hn
    rw [rows]
    rcases he : findRowInterval (marked img yn) img.width with ⟨start, len⟩
    simp only
    obtain ⟨-, f2, -⟩ := findRowInterval_spec _ _ _ _ he
    by_cases hl : len > 0
    · rw [if_pos hl]
      obtain ⟨s1, h1, i1⟩ := lines_ok S hM hS hl (f2 hl).1 (show yn < img.height by omega) p.resY 0 s h (by omega)
      rw [h1]
      exact ih _ _ i1 (by omega)
    · rw [if_neg hl]
      exact ih _ _ h (by omega)

theorem raster_ok {p : Params} {img : Image} {aMax vMax : Axis → ℤ} (hM : Machine aMax vMax)
    (hS : Small p img vMax) (res : 0 < p.resX) (ticks : img.width * p.resX < 2 ^ 31)
    (step : |p.stepY| ≤ 2 ^ 28) (vx0 : 0 ≤ p.vX) (vxm : p.vX ≤ vMax .x)
    (wide : 2 * p.vX * (img.width * p.resX : ℕ) < 2 ^ 32) :
    ∃ c', raster p img (Ctx.new aMax vMax) = some c' := by
  norm_num at ticks wide
  have vx1 : p.vX < 2147483648 := by have := hM.v2 .x; norm_num at this; omega
  have S : Setup p img aMax vMax := ⟨hM.a1, hM.v1, fun i => by have := hM.v2 i; norm_num at *; omega, res,
    ticks, step, vxm, vx0, vx1, wide⟩
  have ck : checks p img = some () := by
    have hvu := asU32_eq vx0 vx1
    have hl := hS.lines
    unfold checks
    rw [mulU32_ok (by omega)]
    simp only [Option.bind_eq_bind, Option.bind_some]
    rw [mulU32_ok (by omega)]
    simp only [Option.bind_some]
    rw [mulU32_ok (by rw [mul_comm]; exact hl)]
    simp only [Option.bind_some]
    rw [mulU32_ok (by omega)]
    simp only [Option.bind_some]
    rw [mulU32_ok (by
      have : ((asU32 p.vX * 2 * (img.width * p.resX) : ℕ) : ℤ) < 4294967296 := by
        push_cast
        rw [hvu]
        push_cast at wide
        linarith
      exact_mod_cast this)]
    rfl
  have I0 : Inside p img aMax vMax ((Ctx.new aMax vMax).setWeight p.weight) := by
    have W0 : 0 ≤ 2 * p.vX * (img.width * p.resX : ℕ) := by positivity
    refine ⟨⟨.step (op := .setWeight p.weight) .new trivial rfl, fun i => ?_, fun i => ?_⟩, ?_, ?_, 0, by omega, ?_⟩
    · simpa [Ctx.setWeight, Ctx.new] using (zero_le_one.trans (hM.v1 i))
    · simp [Ctx.setWeight, Ctx.new]
    · simp [Ctx.setWeight, Ctx.new]
    · simp only [Ctx.setWeight, Ctx.new]
      omega
    · simp [Ctx.setWeight, Ctx.new]
  obtain ⟨⟨b, c1⟩, e1, i1⟩ := rows_ok S hM hS img.height 0
    (true, (Ctx.new aMax vMax).setWeight p.weight) I0 (by omega)
  simp only at i1
  have L : ∀ i, InLimits (0 - (c1.channels i).pos) (c1.channels i).v 0 (aMax i) (vMax i) := by
    intro i
    refine ⟨hM.a1 i, hM.v1 i, S.v2 i, i1.vel i, by simpa using (zero_le_one.trans (hM.v1 i)), ?_⟩
    rw [zero_sub, abs_neg]
    exact (i1.pos i).trans (by norm_num)
  have x0 := i1.x0
  have x1 := i1.x1
  have sx := hS.x
  obtain ⟨k, hk, hky⟩ := i1.y
  obtain ⟨c2, e2⟩ := C25_returns_in_time _ _ _ i1.sync 0 0 0 0 (L .x) (L .y) hM.a2 hM.v2 hM.r
    (by have := hM.v1 .x; have W0 : 0 ≤ 2 * p.vX * (img.width * p.resX : ℕ) := by positivity
        rw [abs_le]; omega) (by
      have := way_y hk (Nat.zero_le _) hky
      rw [Nat.cast_zero, zero_mul] at this
      exact this.trans hS.y)
  obtain ⟨s2, -⟩ := goto_past i1.sync e2
  obtain ⟨-, t2, l2⟩ := s2.inv
  obtain ⟨c3, e3⟩ := readEvents_ok t2 l2
  refine ⟨c3, ?_⟩
  unfold raster
  simp only [ck, Option.bind_eq_bind, Option.bind_some, e1]
  unfold Ctx.stepGoto
  rw [e2]
  exact e3

end StepperPaths.Raster
