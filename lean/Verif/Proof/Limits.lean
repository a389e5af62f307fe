import Verif.Model.Raster
import Mathlib.Tactic.Linarith
import Mathlib.Tactic.Ring

namespace StepperPaths.IntegerCurve

/-- With a top speed of 0 the two ramps of `speed_limited_curve` never have a positive length. -/
theorem ramp_nonpos (v a : Int) (ha : 0 < a) :
    (2 * v + Int.fdiv (0 - v + a - 1) a * a) * Int.fdiv (0 - v + a - 1) a + (Int.fmod (0 - v + a - 1) a - (a - 1)) ≤ 0 := by
  have h1 := Int.mul_fdiv_add_fmod (0 - v + a - 1) a
  have h2 := Int.fmod_nonneg_of_pos (0 - v + a - 1) ha
  have h3 := Int.fmod_lt_of_pos (0 - v + a - 1) ha
  generalize Int.fdiv (0 - v + a - 1) a = t at *
  generalize Int.fmod (0 - v + a - 1) a = d at *
  obtain ⟨r, rfl⟩ : ∃ r, d = a - 1 - r := ⟨a - 1 - d, by ring⟩
  have hv : v = r - a * t := by linarith
  subst hv
  have hr : 0 ≤ r ∧ r < a := by omega
  rcases le_or_gt t 0 with ht | ht
  · nlinarith [mul_nonneg hr.1 (neg_nonneg.2 ht), mul_nonneg ha.le (mul_self_nonneg t)]
  · nlinarith [mul_nonneg (sub_nonneg.2 hr.2.le) (by omega : 0 ≤ 2 * t - 1), mul_nonneg ha.le (mul_self_nonneg (t - 1))]

theorem speedLimited_zero {ds v0 vn a : Int} (ha : 0 < a) (h : 0 ≤ ds) : speedLimitedCurve ds v0 vn a 0 = none := by
  unfold speedLimitedCurve
  have h1 := ramp_nonpos v0 a ha
  have h2 := ramp_nonpos vn a ha
  have hne : a ≠ 0 := by omega
  simp only [cassert, ne_eq, hne, not_false_eq_true, if_true, Option.bind_eq_bind, Option.bind_some]
  rw [if_pos (by linarith)]
  simp [cdiv]

/-- Without a speed no curve has a length. -/
theorem length_zeroSpeed {ds v0 vn a : Int} (ha : 0 < a) : shortestCurveLength ds v0 vn a 0 = none := by
  unfold shortestCurveLength sideLengths
  rcases le_total 0 ds with h | h
  · simp [speedLimited_zero ha h]
  · rw [speedLimited_zero ha (neg_nonneg.2 h)]
    cases speedLimitedCurve ds v0 vn a 0 with
    | none => simp
    | some r =>
      simp only [Option.bind_eq_bind, Option.bind_some, Option.bind_none]
      cases (if r.isEmpty = true then maxAccelerationCurve ds v0 vn a else pure r) <;> rfl

/-- Without an acceleration no curve has a length. -/
theorem length_zeroAcc {ds v0 vn vmax : Int} : shortestCurveLength ds v0 vn 0 vmax = none := by
  simp [shortestCurveLength, sideLengths, speedLimitedCurve, cassert]

end StepperPaths.IntegerCurve

namespace StepperPaths.Context
open IntegerCurve

/-- Limits with which no move can be planned: an axis without acceleration, with a negative speed limit or without speed. -/
def Stuck (aMax vMax : Axis → Int) : Prop := ∃ i, aMax i = 0 ∨ vMax i < 0 ∨ vMax i = 0 ∧ 0 < aMax i

theorem stuck_goto {c : Ctx} (h : Stuck c.aMax c.vMax) (x y : Int) {vx vy : Int} (hx : vx = 0) (hy : vy = 0) :
    c.stepGotoSpeed x y vx vy = none := by
  subst hx; subst hy
  cases hr : c.stepGotoSpeed x y 0 0 with
  | none => rfl
  | some c' =>
    exfalso
    unfold Ctx.stepGotoSpeed shortestCurveSequences at hr
    simp only [Option.bind_eq_bind, Option.bind_eq_some_iff, cassert] at hr
    obtain ⟨_, h1, _, h2, c1, h3, seq, ⟨r, -, r', h4, -⟩, -⟩ := hr
    have hc : c1.aMax = c.aMax ∧ c1.vMax = c.vMax := by
      simp only [Ctx.push, Option.bind_eq_bind, Option.bind_eq_some_iff] at h3
      obtain ⟨d, -, h⟩ := h3
      simp only [Option.pure_def, Option.some.injEq] at h
      subst h
      exact ⟨rfl, rfl⟩
    simp only [commonLengths, Ctx.limits, Option.bind_eq_bind, Option.bind_eq_some_iff, hc.1, hc.2] at h4
    obtain ⟨m1, h5, m2, h6, -⟩ := h4
    have g1 : 0 ≤ c.vMax .x := by by_contra hn; simp [hn] at h1
    have g2 : 0 ≤ c.vMax .y := by by_contra hn; simp [hn] at h2
    obtain ⟨i, h | h | ⟨h, h'⟩⟩ := h
    · cases i
      · rw [h, length_zeroAcc] at h5; simp at h5
      · rw [h, length_zeroAcc] at h6; simp at h6
    · cases i <;> omega
    · cases i
      · rw [h, length_zeroSpeed h'] at h5; simp at h5
      · rw [h, length_zeroSpeed h'] at h6; simp at h6

/-! ### The limits never change -/

/-- The limits are the same. -/
def Kept (c c' : Ctx) : Prop := c'.aMax = c.aMax ∧ c'.vMax = c.vMax

theorem Kept.rfl {c : Ctx} : Kept c c := ⟨Eq.refl _, Eq.refl _⟩

theorem Kept.trans {c c1 c2 : Ctx} (h : Kept c c1) (h' : Kept c1 c2) : Kept c c2 := ⟨h'.1.trans h.1, h'.2.trans h.2⟩

theorem Kept.setCh {c c1 : Ctx} (h : Kept c c1) (i : Axis) (ch : Channel) : Kept c (c1.setCh i ch) := h

theorem push_kept {c c' : Ctx} {t : Nat} {cmd : Command} (h : c.push t cmd = some c') : Kept c c' := by
  simp only [Ctx.push, Option.bind_eq_bind, Option.bind_eq_some_iff, Option.pure_def, Option.some.injEq] at h
  obtain ⟨d, -, rfl⟩ := h
  exact .rfl

theorem addAccChannel_kept {c c' : Ctx} {i : Axis} {a : Int} {n : Nat} (h : c.addAccChannel i a n = some c') : Kept c c' := by
  simp only [Ctx.addAccChannel, Option.bind_eq_bind, Option.bind_eq_some_iff, Option.pure_def, Option.some.injEq] at h
  obtain ⟨_, -, _, -, c1, h1, rfl⟩ := h
  exact (push_kept h1).setCh _ _

theorem addAccInterval_kept {c c' : Ctx} {ax ay : Int} {n : Nat} (h : c.addAccInterval ax ay n = some c') : Kept c c' := by
  simp only [Ctx.addAccInterval, Option.bind_eq_bind, Option.bind_eq_some_iff, Option.pure_def, Option.some.injEq] at h
  obtain ⟨_, -, c1, h1, c2, h2, _, -, rfl⟩ := h
  exact (addAccChannel_kept h1).trans (addAccChannel_kept h2)

theorem addWeightChange_kept {c c' : Ctx} {w : Int} {t : Nat} (h : c.addWeightChange w t = some c') : Kept c c' := by
  simp only [Ctx.addWeightChange, Option.bind_eq_bind, Option.bind_eq_some_iff] at h
  obtain ⟨_, -, _, -, h⟩ := h
  exact push_kept h

theorem takeSegment_kept {c c' : Ctx} {i : Axis} {s : AccSegment} (h : c.takeSegment i s = some c') : Kept c c' := by
  simp only [Ctx.takeSegment, Option.bind_eq_bind, Option.bind_eq_some_iff, Option.pure_def, Option.some.injEq] at h
  obtain ⟨_, -, c1, h1, rfl⟩ := h
  exact (push_kept h1).setCh _ _

theorem accSegs_kept (n : Nat) : ∀ (sx sy : List AccSegment), sx.length + sy.length = n → ∀ {c c' : Ctx},
    c.accSegsToEvents sx sy = some c' → Kept c c' := by
  induction n with
  | zero =>
    intro sx sy hn c c' h
    obtain rfl : sx = [] := List.length_eq_zero_iff.1 (by omega)
    obtain rfl : sy = [] := List.length_eq_zero_iff.1 (by omega)
    rw [Ctx.accSegsToEvents.eq_def] at h
    obtain rfl := Option.some.inj h
    exact .rfl
  | succ n ih =>
    intro sx sy hn c c' h
    rw [Ctx.accSegsToEvents.eq_def] at h
    match sx, sy, hn, h with
    | a :: sx, [], hn, h =>
      simp only [Option.bind_eq_bind, Option.bind_eq_some_iff] at h
      obtain ⟨c1, h1, h2⟩ := h
      exact (takeSegment_kept h1).trans (ih _ _ (by simp at hn ⊢; omega) h2)
    | [], b :: sy, hn, h =>
      simp only [Option.bind_eq_bind, Option.bind_eq_some_iff] at h
      obtain ⟨c1, h1, h2⟩ := h
      exact (takeSegment_kept h1).trans (ih _ _ (by simp at hn ⊢; omega) h2)
    | a :: sx, b :: sy, hn, h =>
      simp only at h
      split at h <;> simp only [Option.bind_eq_bind, Option.bind_eq_some_iff] at h <;> obtain ⟨c1, h1, h2⟩ := h <;>
        exact (takeSegment_kept h1).trans (ih _ _ (by simp at hn ⊢; omega) h2)

theorem gotoChannel_kept {c c' : Ctx} {i : Axis} {s : List AccSegment} {v : Int} (h : c.gotoChannel i s v = some c') :
    Kept c c' := by
  simp only [Ctx.gotoChannel, Option.bind_eq_bind, Option.bind_eq_some_iff, Option.pure_def, Option.some.injEq] at h
  obtain ⟨_, -, _, -, rfl⟩ := h
  exact .rfl

theorem goto_kept {c c' : Ctx} {x y vx vy : Int} (h : c.stepGotoSpeed x y vx vy = some c') : Kept c c' := by
  simp only [Ctx.stepGotoSpeed, Option.bind_eq_bind, Option.bind_eq_some_iff] at h
  obtain ⟨_, -, _, -, c1, h1, seq, -, h⟩ := h
  split at h
  · simp only [Ctx.gotoFollow, Option.bind_eq_bind, Option.bind_eq_some_iff, Option.pure_def, Option.some.injEq] at h
    obtain ⟨c2, h2, c3, h3, c4, h4, _, -, rfl⟩ := h
    have h5 := accSegs_kept _ _ _ rfl h4
    have h6 : Kept c3 c4 := ⟨h5.1, h5.2⟩
    exact (push_kept h1).trans ((gotoChannel_kept h2).trans ((gotoChannel_kept h3).trans h6))
  · simp at h

theorem approxTick_kept {c c' : Ctx} {ax ay : Int} (h : c.approxTick ax ay = some c') : Kept c c' := by
  simp only [Ctx.approxTick, Option.bind_eq_bind, Option.bind_eq_some_iff] at h
  obtain ⟨_, -, _, -, h⟩ := h
  exact addAccInterval_kept h

end StepperPaths.Context

namespace StepperPaths.Raster
open Context

theorem pixels_kept {resX start : Nat} {w : Nat → Option Int} : ∀ (n : Nat) {xn : Nat} {prev : Int} {c c' : Ctx},
    pixels resX start w xn prev c n = some c' → Kept c c' := by
  intro n
  induction n with
  | zero =>
    intro xn prev c c' h
    obtain rfl := Option.some.inj h
    exact .rfl
  | succ n ih =>
    intro xn prev c c' h
    simp only [pixels, Option.bind_eq_bind, Option.bind_eq_some_iff] at h
    obtain ⟨wx, -, h⟩ := h
    split at h
    · simp only [Option.bind_eq_some_iff] at h
      obtain ⟨_, -, ivl, -, c1, h1, c2, h2, h3⟩ := h
      have k1 : Kept c c1 := by
        unfold hold at h1
        split at h1
        · exact addAccInterval_kept h1
        · obtain rfl := Option.some.inj h1; exact .rfl
      exact k1.trans ((addWeightChange_kept h2).trans (ih h3))
    · exact ih h

theorem line_kept {p : Params} {img : Image} {ltr : Bool} {yn startX lengthX rep : Nat} {c c' : Ctx}
    (h : line p img ltr yn startX lengthX rep c = some c') : Kept c c' := by
  simp only [line, Option.bind_eq_bind, Option.bind_eq_some_iff] at h
  obtain ⟨_, -, _, -, _, -, c1, h1, _, -, c2, h2, _, -, _, -, c3, h3, h4⟩ := h
  exact (goto_kept h1).trans ((pixels_kept _ h2).trans ((addAccInterval_kept h3).trans (addWeightChange_kept h4)))

theorem lines_kept {p : Params} {img : Image} {yn startX lengthX : Nat} : ∀ (n : Nat) {rep : Nat} {s s' : Bool × Ctx},
    lines p img yn startX lengthX rep n s = some s' → Kept s.2 s'.2 := by
  intro n
  induction n with
  | zero =>
    intro rep s s' h
    obtain rfl := Option.some.inj h
    exact .rfl
  | succ n ih =>
    intro rep ⟨ltr, c⟩ s' h
    simp only [lines, Option.bind_eq_bind, Option.bind_eq_some_iff] at h
    obtain ⟨c1, h1, h2⟩ := h
    exact (line_kept h1).trans (ih h2)

theorem rows_kept {p : Params} {img : Image} : ∀ (n : Nat) {yn : Nat} {s s' : Bool × Ctx},
    rows p img yn n s = some s' → Kept s.2 s'.2 := by
  intro n
  induction n with
  | zero =>
    intro yn s s' h
    obtain rfl := Option.some.inj h
    exact .rfl
  | succ n ih =>
    intro yn s s' h
    simp only [rows, Option.bind_eq_bind] at h
    split at h <;> simp only [Option.bind_eq_some_iff] at h <;> obtain ⟨s1, h1, h2⟩ := h
    · exact (lines_kept _ h1).trans (ih h2)
    · obtain rfl := Option.some.inj h1
      exact ih h2

theorem stuck_raster {p : Params} {img : Image} {c : Ctx} (h : Stuck c.aMax c.vMax) : raster p img c = none := by
  cases hr : raster p img c with
  | none => rfl
  | some c' =>
    exfalso
    simp only [raster, Option.bind_eq_bind, Option.bind_eq_some_iff] at hr
    obtain ⟨_, -, ⟨b, c1⟩, h1, c2, h2, -⟩ := hr
    have k := rows_kept _ h1
    have := stuck_goto (c := c1) (by rw [k.1, k.2]; exact h) 0 0 rfl rfl
    rw [Ctx.stepGoto, this] at h2
    simp at h2

end StepperPaths.Raster
