import Verif.Proof.Special
import Verif.Spec.Rounded
import Mathlib.Tactic.FieldSimp
import Mathlib.Tactic.NormNum

/-! A drawing speed of zero, and the scan for options that are infinite or not a number. -/

namespace StepperPaths.Special
open Coords Curves Context IntegerCurve Config Control Program Raster StepperPaths.Svg Rounded StepperPaths.Cli Spec
open Draw (satI32 trunc Approx Pen Seg accMax)

variable {fl : ℝ → ℝ} {e : Env}

theorem fl_zero (R : FloatRounding fl) : fl 0 = 0 := by simpa using R.int 0 (by norm_num)

/-! ### Speed zero -/

/-- A machine at rest. -/
structure Still (c : Ctx) (n : Axis → ℤ) (t : ℕ) : Prop where
  at_ : ∀ i, c.channels i = ⟨n i, 0, t⟩
  before : c.eventTicks ≤ t

open Checked in
theorem channel_still {c : Ctx} {i : Axis} {m : ℤ} {t : ℕ} (h : c.channels i = ⟨m, 0, t⟩) (hm : |m| ≤ 2 ^ 53) (ht : c.eventTicks ≤ t) :
    Checked.addAccChannel c i 0 1 = some ({ c with
      events := c.events ++ [(⟨(t - c.eventTicks) % 4294967296, .acc i 0⟩ : Event)], eventTicks := t }.setCh i ⟨m, 0, t + 1⟩) := by
  rw [abs_le] at hm
  have h0 : Checked.ck 0 = some 0 := rfl
  have h1 : Checked.ck 1 = some 1 := rfl
  have h2 : Checked.ck 2 = some 2 := rfl
  have hk : Checked.ck m = some m := if_pos (by simp only [i64Min, i64Max]; omega)
  have ht0 : toI32 0 = some 0 := rfl
  have e2 : (2 : Option Int) = some 2 := rfl
  simp only [Checked.addAccChannel, h, e2, Checked.add, Checked.mul, Option.bind_some, Nat.cast_one, mul_one, mul_zero, add_zero,
    h0, h1, h2, hk, ht0, Option.bind_eq_bind, Ctx.push, tickDiff, ht, if_true, Option.pure_def]

theorem tick_still {c : Ctx} {n : Axis → ℤ} {t : ℕ} (S : Still c n t) (hn : ∀ i, |n i| ≤ 2 ^ 53) :
    ∃ c', Checked.approxTick c 0 0 = some c' ∧ Still c' n (t + 1) ∧ c'.aMax = c.aMax ∧ c'.vMax = c.vMax ∧
      c'.events = c.events ++ [⟨(t - c.eventTicks) % 4294967296, .acc .x 0⟩, ⟨0, .acc .y 0⟩] ∧ c'.eventTicks = t := by
  have hl : ∀ a b : ℤ, limitSpeed a b 0 = some 0 := fun a b => by simp [limitSpeed]
  have h1 := channel_still (S.at_ .x) (hn .x) S.before
  simp only [Checked.approxTick, hl, Option.bind_eq_bind, Option.bind_some, Checked.addAccInterval, cassert, ge_iff_le, le_refl,
    if_true, h1]
  rw [channel_still (i := .y) (m := n .y) (t := t) (by simpa [Ctx.setCh] using S.at_ .y) (hn .y) (by simp [Ctx.setCh])]
  simp only [Option.bind_some]
  rw [if_pos (by simp [Ctx.setCh])]
  refine ⟨_, rfl, ⟨fun i => ?_, ?_⟩, ?_, ?_, ?_, ?_⟩
  · cases i <;> simp [Ctx.setCh]
  all_goals simp [Ctx.setCh]

theorem wanted_still (R : FloatRounding fl) {ch : Channel} {m : ℤ} {t : ℕ} (h : ch = ⟨m, 0, t⟩) (hm : |m| ≤ 2 ^ 53) {aMax : ℤ}
    (ha : 0 ≤ aMax) : Rounded.accForPos fl ch aMax m = 0 ∧ Rounded.nextErr fl 0 0 = 0 ∧ Rounded.wantedAcc fl ch aMax m 0 0 = 0 := by
  have z := fl_zero R
  have l0 : Draw.limit 0 (-(aMax : ℝ)) aMax = 0 := by
    have : (0 : ℝ) ≤ aMax := by exact_mod_cast ha
    unfold Draw.limit
    rw [if_neg (by linarith), if_neg (by linarith)]
  have h1 : Rounded.accForPos fl ch aMax m = 0 := by
    subst h
    simp [Rounded.accForPos, R.int m hm, z, l0]
  refine ⟨h1, by simp [Rounded.nextErr, z], ?_⟩
  unfold Rounded.wantedAcc
  rw [h1]
  subst h
  have f : ⌊(2⁻¹ : ℝ)⌋ = 0 := by norm_num [Int.floor_eq_iff]
  simp [Rounded.accForSpeed, z, l0, Draw.round, Draw.satI16, f]

theorem pass_still (R : FloatRounding fl) {start : Vec} {curve : Curve} {n : Axis → ℤ} (hn : ∀ i, |n i| ≤ 2 ^ 53) {p : ℝ}
    (hp : ∀ i, Rounded.stepPos fl e start (curve.value p).1 i = n i) {s : Approx} {t : ℕ} (S : Still s.ctx n t) (ha : ∀ i, 0 ≤ s.ctx.aMax i)
    (he : ∀ i, s.err i = 0) (hm : ∀ i, s.maxErr i = 0) :
    ∃ s', CheckedSvg.approxPass fl e start curve 0 p s = some s' ∧ Still s'.ctx n (t + 1) ∧ s'.ctx.aMax = s.ctx.aMax ∧
      (∀ i, s'.err i = 0) ∧ (∀ i, s'.maxErr i = 0) ∧
      s'.ctx.events = s.ctx.events ++ [⟨(t - s.ctx.eventTicks) % 4294967296, .acc .x 0⟩, ⟨0, .acc .y 0⟩] ∧ s'.ctx.eventTicks = t := by
  have hv : ∀ i, Rounded.stepV fl e (curve.value p).2 0 i = 0 := fun i => by simp [Rounded.stepV, fl_zero R]
  have hw := fun i => wanted_still R (S.at_ i) (hn i) (ha i)
  obtain ⟨c', h1, h2, h3, -, h4, h5⟩ := tick_still S hn
  have hahead : ∀ i, ∃ a, Checked.ahead (s.ctx.channels i) = some a := by
    intro i
    have := hn i
    rw [abs_le] at this
    have hk : Checked.ck (n i) = some (n i) := if_pos (by simp only [i64Min, i64Max]; omega)
    have h0 : Checked.ck 0 = some 0 := rfl
    refine ⟨n i, ?_⟩
    rw [S.at_ i]
    change Checked.add (some (n i)) (Checked.mul (some 2) (some 0)) = _
    simp only [Checked.add, Checked.mul, Option.bind_some, mul_zero, h0, add_zero, hk]
  have herr : ∀ i, Checked.passErr (c'.channels i) (n i) = some 0 := by
    intro i
    have := hn i
    rw [abs_le] at this
    have h0 : Checked.ck 0 = some 0 := rfl
    have hs : Checked.satI64 (n i) = n i := by
      unfold Checked.satI64
      rw [if_neg (by omega), if_neg (by omega)]
    rw [h2.at_ i]
    simp only [Checked.passErr, trunc_int, hs, Checked.sub, Checked.abs, Option.bind_some, sub_self, h0, abs_zero]
  obtain ⟨ax, hax⟩ := hahead .x
  obtain ⟨ay, hay⟩ := hahead .y
  have hacc : ∀ i, Rounded.wantedAcc fl (s.ctx.channels i) (s.ctx.aMax i) (n i) 0
      (Rounded.nextErr fl (s.err i) (Rounded.accForPos fl (s.ctx.channels i) (s.ctx.aMax i) (n i))) = 0 := by
    intro i
    rw [he, (hw i).1, (hw i).2.1, (hw i).2.2]
  simp only [CheckedSvg.approxPass, hax, hay, Option.bind_eq_bind, Option.bind_some, hp, hv, hacc, h1, herr, Option.pure_def]
  refine ⟨_, rfl, h2, h3, fun i => ?_, fun i => ?_, h4, h5⟩
  · simp only [he, (hw i).1, (hw i).2.1]
  · cases i <;> simp [hm, accMax]

/-- The events of standing still for `n` ticks from tick `t` on. -/
def stillEvents : ℕ → List Event
  | 0 => []
  | n + 1 => ⟨1, .acc .x 0⟩ :: ⟨0, .acc .y 0⟩ :: stillEvents n

theorem loop_still (R : FloatRounding fl) {start : Vec} {curve : Curve} {n : Axis → ℤ} (hn : ∀ i, |n i| ≤ 2 ^ 53)
    (hp : ∀ i, Rounded.stepPos fl e start (curve.value 0).1 i = n i) : ∀ (k k0 : ℕ) (s : Approx) (t : ℕ), Still s.ctx n t →
    s.ctx.eventTicks + 1 = t → (∀ i, 0 ≤ s.ctx.aMax i) → (∀ i, s.err i = 0) → (∀ i, s.maxErr i = 0) →
    ∃ s', CheckedSvg.approxLoop fl e start curve 0 0 k0 k s = some s' ∧ Still s'.ctx n (t + k) ∧ (∀ i, s'.maxErr i = 0) ∧
      s'.ctx.events = s.ctx.events ++ stillEvents k := by
  intro k
  induction k with
  | zero => intro k0 s t S _ _ _ hm; exact ⟨s, rfl, S, hm, by simp [stillEvents]⟩
  | succ k ih =>
    intro k0 s t S ht ha he hm
    obtain ⟨s1, h1, h2, h3, h4, h5, h6, h7⟩ := pass_still R hn hp S ha he hm
    obtain ⟨s2, g1, g2, g3, g4⟩ := ih (k0 + 1) s1 (t + 1) h2 (by rw [h7]) (by rw [h3]; exact ha) h4 h5
    refine ⟨s2, ?_, by rw [show t + (k + 1) = t + 1 + k by omega]; exact g2, g3, ?_⟩
    · simp only [CheckedSvg.approxLoop, mul_zero, fl_zero R, h1, Option.bind_eq_bind, Option.bind_some, g1]
    · rw [g4, h6, ← ht]
      simp [stillEvents]

/-- Drawing with speed zero from a point of the grid: the machine stands still for `2^31 - 1` ticks. -/
theorem curve_still (R : FloatRounding fl) {start : Vec} {curve : Curve} (hlen : 0 < curve.length) {n : Axis → ℤ} (hn : ∀ i, |n i| ≤ 2 ^ 53)
    (hp : ∀ i, Rounded.stepPos fl e start (curve.value 0).1 i = n i) {c : Ctx} {t : ℕ} (S : Still c n t) (ht : c.eventTicks = t)
    (ha : ∀ i, 0 ≤ c.aMax i) :
    ∃ c' err, approxCurve fl e c start curve (.fin 0) = some (c', err) ∧ Still c' n (t + 2147483647) ∧ (∀ i, err i = 0) ∧
      c'.events = c.events ++ ⟨0, .acc .x 0⟩ :: ⟨0, .acc .y 0⟩ :: stillEvents 2147483646 := by
  obtain ⟨s1, h1, h2, h3, h4, h5, h6, h7⟩ := pass_still R hn hp (s := ⟨c, fun _ => 0, fun _ => 0⟩) S ha (fun _ => rfl) (fun _ => rfl)
  obtain ⟨s2, g1, g2, g3, g4⟩ := loop_still R hn hp 2147483646 2 s1 (t + 1) h2 (by rw [h7]) (by rw [h3]; exact ha) h4 h5
  refine ⟨s2.ctx, s2.maxErr, ?_, by rw [show t + 2147483647 = t + 1 + 2147483646 by omega]; exact g2, g3, ?_⟩
  · have hne : curve.length ≠ 0 := hlen.ne'
    have hlt : ¬ curve.length < 0 := not_lt.2 hlen.le
    simp only [approxCurve, Num.div, if_true, hne, if_false, hlt, decide_false, Num.round, Num.asI32]
    have hl : ∀ k s, CheckedSvg.approxLoop fl e start curve 0 0 1 (k + 1) s =
        (CheckedSvg.approxPass fl e start curve 0 0 s).bind (CheckedSvg.approxLoop fl e start curve 0 0 2 k) := by
      intro k s
      simp only [CheckedSvg.approxLoop, mul_zero, fl_zero R, Option.bind_eq_bind]
    change (CheckedSvg.approxLoop fl e start curve 0 0 1 (2147483646 + 1) _).bind _ = _
    rw [hl, h1, Option.bind_some, g1]
    rfl
  · rw [g4, h6]
    simp [ht]

end StepperPaths.Special
