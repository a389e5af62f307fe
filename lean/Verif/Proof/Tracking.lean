import Verif.Props.Approx
import Verif.Spec.Tracking

/-! How closely `approx_curve` follows a curve: the feedback loop of one axis. -/

namespace StepperPaths.Tracking
open Coords Curves Context IntegerCurve Spec Props Draw

/-- A region of the state space (`p`: half the predicted position error, `w`: the speed error, `I`: its
accumulated part) which the control loop does not leave when the disturbances are of size `S`.  The
inequalities were found by iterating the loop numerically; they are checked below. -/
structure Inv (S p w I : ℝ) : Prop where
  u0 : 10 * p ≤ 2640 / 100 * S
  l0 : -10 * p ≤ 2640 / 100 * S
  u1 : 10 * w ≤ 2135 / 100 * S
  l1 : -10 * w ≤ 2135 / 100 * S
  u2 : 10 * I ≤ 1991 / 100 * S
  l2 : -10 * I ≤ 1991 / 100 * S
  u3 : 10 * p - 3 * w ≤ 2204 / 100 * S
  l3 : -10 * p + 3 * w ≤ 2204 / 100 * S
  u4 : 10 * p + 10 * w ≤ 4764 / 100 * S
  l4 : -10 * p - 10 * w ≤ 4764 / 100 * S
  u5 : 10 * p - 9 * w + 9 * I ≤ 2479 / 100 * S
  l5 : -10 * p + 9 * w - 9 * I ≤ 2479 / 100 * S
  u6 : 10 * p - 10 * w ≤ 2413 / 100 * S
  l6 : -10 * p + 10 * w ≤ 2413 / 100 * S
  u7 : 10 * p + 3 * w ≤ 3277 / 100 * S
  l7 : -10 * p - 3 * w ≤ 3277 / 100 * S
  u8 : 2 * p - 2 * w + 10 * I ≤ 2061 / 100 * S
  l8 : -2 * p + 2 * w - 10 * I ≤ 2061 / 100 * S
  u9 : 5 * p - 10 * w ≤ 1932 / 100 * S
  l9 : -5 * p + 10 * w ≤ 1932 / 100 * S
  u10 : 3 * p - 10 * w ≤ 1978 / 100 * S
  l10 : -3 * p + 10 * w ≤ 1978 / 100 * S
  u11 : 10 * p - 3 * w + 8 * I ≤ 2204 / 100 * S
  l11 : -10 * p + 3 * w - 8 * I ≤ 2204 / 100 * S
  u12 : 2 * p + 10 * w ≤ 2656 / 100 * S
  l12 : -2 * p - 10 * w ≤ 2656 / 100 * S
  u13 : 3 * p - 1 * w + 10 * I ≤ 2016 / 100 * S
  l13 : -3 * p + 1 * w - 10 * I ≤ 2016 / 100 * S
  u14 : 10 * p - 6 * w + 2 * I ≤ 2238 / 100 * S
  l14 : -10 * p + 6 * w - 2 * I ≤ 2238 / 100 * S
  u15 : 10 * p - 6 * w ≤ 2238 / 100 * S
  l15 : -10 * p + 6 * w ≤ 2238 / 100 * S
  u16 : 10 * p - 7 * w + 5 * I ≤ 2272 / 100 * S
  l16 : -10 * p + 7 * w - 5 * I ≤ 2272 / 100 * S
  u17 : 10 * p + 2 * w + 5 * I ≤ 2303 / 100 * S
  l17 : -10 * p - 2 * w - 5 * I ≤ 2303 / 100 * S
  u18 : 2 * p + 10 * I ≤ 1991 / 100 * S
  l18 : -2 * p - 10 * I ≤ 1991 / 100 * S
  u19 : 8 * p - 8 * w + 10 * I ≤ 2566 / 100 * S
  l19 : -8 * p + 8 * w - 10 * I ≤ 2566 / 100 * S
  u20 : 8 * p - 10 * w ≤ 2109 / 100 * S
  l20 : -8 * p + 10 * w ≤ 2109 / 100 * S

theorem Inv.symm {S p w I : ℝ} (h : Inv S p w I) : Inv S (-p) (-w) (-I) := by
  constructor
  · linarith only [h.l0]
  · linarith only [h.u0]
  · linarith only [h.l1]
  · linarith only [h.u1]
  · linarith only [h.l2]
  · linarith only [h.u2]
  · linarith only [h.l3]
  · linarith only [h.u3]
  · linarith only [h.l4]
  · linarith only [h.u4]
  · linarith only [h.l5]
  · linarith only [h.u5]
  · linarith only [h.l6]
  · linarith only [h.u6]
  · linarith only [h.l7]
  · linarith only [h.u7]
  · linarith only [h.l8]
  · linarith only [h.u8]
  · linarith only [h.l9]
  · linarith only [h.u9]
  · linarith only [h.l10]
  · linarith only [h.u10]
  · linarith only [h.l11]
  · linarith only [h.u11]
  · linarith only [h.l12]
  · linarith only [h.u12]
  · linarith only [h.l13]
  · linarith only [h.u13]
  · linarith only [h.l14]
  · linarith only [h.u14]
  · linarith only [h.l15]
  · linarith only [h.u15]
  · linarith only [h.l16]
  · linarith only [h.u16]
  · linarith only [h.l17]
  · linarith only [h.u17]
  · linarith only [h.l18]
  · linarith only [h.u18]
  · linarith only [h.l19]
  · linarith only [h.u19]
  · linarith only [h.l20]
  · linarith only [h.u20]

/-- One pass of the loop with `0 ≤ p`, when the accumulated error is kept. -/
theorem Inv.keep {S p w I r d d' : ℝ} (hS : 0 ≤ S) (h : Inv S p w I) (hp : 0 ≤ p) (hJ : 0 ≤ I + p / 10)
    (r1 : r ≤ S / 2) (r2 : -r ≤ S / 2) (d1 : d ≤ S / 4) (d2 : -d ≤ S / 4) (e1 : d' ≤ S / 4) (e2 : -d' ≤ S / 4) :
    Inv S (p + w - 3 / 2 * (w / 2 + (p + (I + p / 10)) / 2 + r) + d)
      (w - (w / 2 + (p + (I + p / 10)) / 2 + r) + d') (I + p / 10) := by
  constructor
  · linarith only [hS, h.u1, h.u17, hJ, r2, d1]
  · linarith only [hS, h.u8, h.u19, hp, r1, d2]
  · linarith only [hS, h.l9, hp, hJ, r2, e1]
  · linarith only [hS, h.u1, h.u5, hp, r1, e2]
  · linarith only [hS, h.u1, h.u2, h.u18]
  · linarith only [hS, h.u0, h.u1, hJ]
  · linarith only [hS, h.u1, h.u17, hJ, r2, d1, e2]
  · linarith only [hS, h.u8, h.u13, hp, r1, d2, e1]
  · linarith only [hS, h.l9, h.l10, hJ, r2, d1, e1]
  · linarith only [hS, h.u8, h.u19, hp, r1, d2, e2]
  · linarith only [hS, h.u11, h.u17, h.u18, r2, d1, e2]
  · linarith only [hS, h.l9, hp, hJ, r1, d2, e1]
  · linarith only [hS, h.u3, h.u15, hJ, r2, d1, e2]
  · linarith only [hS, h.u2, h.l9, hp, r1, d2, e1]
  · linarith only [hS, h.u1, h.u17, hJ, r2, d1, e1]
  · linarith only [hS, h.u8, h.u19, hp, r1, d2, e2]
  · linarith only [hS, h.u11, h.u13, h.u18, r2, d1, e2]
  · linarith only [hS, h.l9, hp, hJ, r1, d2, e1]
  · linarith only [hS, h.u11, h.u14, h.u15, r1, d1, e2]
  · linarith only [hS, h.l9, hp, hJ, r2, d2, e1]
  · linarith only [hS, h.u6, h.u15, h.u16, r1, d1, e2]
  · linarith only [hS, h.l9, hp, hJ, r2, d2, e1]
  · linarith only [hS, h.u1, h.u17, hJ, r2, d1, e2]
  · linarith only [hS, h.u9, hp, hJ, r1, d2, e1]
  · linarith only [hS, h.l9, hp, hJ, r2, d1, e1]
  · linarith only [hS, h.u5, h.u19, hp, r1, d2, e2]
  · linarith only [hS, h.u1, h.u17, h.u18, r2, d1, e2]
  · linarith only [hS, h.u9, hp, hJ, r1, d2, e1]
  · linarith only [hS, h.u3, h.u17, hJ, r2, d1, e2]
  · linarith only [hS, h.u2, h.l9, hp, r1, d2, e1]
  · linarith only [hS, h.u3, h.u17, hJ, r2, d1, e2]
  · linarith only [hS, h.u2, h.l9, hp, r1, d2, e1]
  · linarith only [hS, h.u3, h.u11, h.u17, r2, d1, e2]
  · linarith only [hS, h.l9, hp, hJ, r1, d2, e1]
  · linarith only [hS, h.u1, h.u17, hJ, r2, d1, e1]
  · linarith only [hS, h.u1, h.u5, hp, r1, d2, e2]
  · linarith only [hS, h.u2, h.l9, h.u18, r2, d1]
  · linarith only [hS, h.u9, hp, hJ, r1, d2]
  · linarith only [hS, h.u11, h.u13, h.u18, r2, d1, e2]
  · linarith only [hS, h.l9, hp, hJ, r1, d2, e1]
  · linarith only [hS, h.u3, h.u15, hJ, r2, d1, e2]
  · linarith only [hS, h.u2, h.l9, hp, r1, d2, e1]

/-- One pass of the loop with `0 ≤ p`, when the accumulated error is dropped. -/
theorem Inv.drop {S p w I r d d' : ℝ} (hS : 0 ≤ S) (h : Inv S p w I) (hp : 0 ≤ p)
    (r1 : r ≤ S / 2) (r2 : -r ≤ S / 2) (d1 : d ≤ S / 4) (d2 : -d ≤ S / 4) (e1 : d' ≤ S / 4) (e2 : -d' ≤ S / 4) :
    Inv S (p + w - 3 / 2 * (w / 2 + (p + (0)) / 2 + r) + d)
      (w - (w / 2 + (p + (0)) / 2 + r) + d') (0) := by
  constructor
  · linarith only [hS, h.u0, h.u2, h.u4, r2, d1]
  · linarith only [hS, h.u2, h.u9, hp, r1, d2]
  · linarith only [hS, h.u2, h.l9, hp, r2, e1]
  · linarith only [hS, h.u0, h.u2, h.u6, r1, e2]
  · linarith only [hS]
  · linarith only [hS]
  · linarith only [hS, h.u0, h.u2, h.u7, r2, d1, e2]
  · linarith only [hS, h.u2, h.u9, hp, r1, d2, e1]
  · linarith only [hS, h.u2, h.l9, h.l10, r2, d1, e1]
  · linarith only [hS, h.u2, h.u9, hp, r1, d2, e2]
  · linarith only [hS, h.u0, h.u2, h.u3, r2, d1, e2]
  · linarith only [hS, h.u2, h.l9, hp, r1, d2, e1]
  · linarith only [hS, h.u2, h.u3, h.u15, r2, d1, e2]
  · linarith only [hS, h.u2, h.l9, hp, r1, d2, e1]
  · linarith only [hS, h.u2, h.u4, h.u12, r2, d1, e1]
  · linarith only [hS, h.u2, h.u9, hp, r1, d2, e2]
  · linarith only [hS, h.u2, h.u3, h.u15, r2, d1, e2]
  · linarith only [hS, h.u2, h.l9, hp, r1, d2, e1]
  · linarith only [hS, h.u14, h.u15, r1, d1, e2]
  · linarith only [hS, h.u2, h.l9, hp, r2, d2, e1]
  · linarith only [hS, h.u2, h.u6, h.u15, r1, d1, e2]
  · linarith only [hS, h.u2, h.l9, hp, r2, d2, e1]
  · linarith only [hS, h.u0, h.u2, h.u7, r2, d1, e2]
  · linarith only [hS, h.u2, h.u9, hp, r1, d2, e1]
  · linarith only [hS, h.u2, h.l9, hp, r2, d1, e1]
  · linarith only [hS, h.u2, h.u6, h.u20, r1, d2, e2]
  · linarith only [hS, h.u0, h.u2, h.u7, r2, d1, e2]
  · linarith only [hS, h.u2, h.u9, hp, r1, d2, e1]
  · linarith only [hS, h.u0, h.u2, h.u3, r2, d1, e2]
  · linarith only [hS, h.u2, h.l9, hp, r1, d2, e1]
  · linarith only [hS, h.u0, h.u2, h.u3, r2, d1, e2]
  · linarith only [hS, h.u2, h.l9, hp, r1, d2, e1]
  · linarith only [hS, h.u0, h.u2, h.u3, r2, d1, e2]
  · linarith only [hS, h.u2, h.l9, hp, r1, d2, e1]
  · linarith only [hS, h.u2, h.u4, h.u12, r2, d1, e1]
  · linarith only [hS, h.u2, h.u9, hp, r1, d2, e2]
  · linarith only [hS, h.u4, h.u11, r2, d1]
  · linarith only [hS, h.u2, h.u9, hp, r1, d2]
  · linarith only [hS, h.u2, h.u3, h.u15, r2, d1, e2]
  · linarith only [hS, h.u2, h.l9, hp, r1, d2, e1]
  · linarith only [hS, h.u2, h.u3, h.u15, r2, d1, e2]
  · linarith only [hS, h.u2, h.l9, hp, r1, d2, e1]

/-- `nextErr` keeps the accumulated error or drops it. -/
theorem nextErr_cases (I p : ℝ) :
    (nextErr I p = I + p / 10 ∧ (0 ≤ p ∧ 0 ≤ I + p / 10 ∨ p ≤ 0 ∧ I + p / 10 ≤ 0)) ∨
      (nextErr I p = 0 ∧ (0 ≤ p ∧ I + p / 10 ≤ 0 ∨ p ≤ 0 ∧ 0 ≤ I + p / 10)) := by
  have e : I + p * (1 / 10) = I + p / 10 := by ring
  unfold nextErr
  simp only [e]
  split
  · next h =>
    refine .inr ⟨rfl, ?_⟩
    rcases h with ⟨hJ, hp⟩ | ⟨hJ, hp⟩
    · exact .inr ⟨hp.le, hJ.le⟩
    · exact .inl ⟨hp.le, hJ.le⟩
  · next h =>
    push Not at h
    refine .inl ⟨rfl, ?_⟩
    rcases lt_trichotomy (I + p / 10) 0 with hJ | hJ | hJ
    · exact .inr ⟨h.2 hJ, hJ.le⟩
    · rcases le_total 0 p with hp | hp
      · exact .inl ⟨hp, hJ.ge⟩
      · exact .inr ⟨hp, hJ.le⟩
    · exact .inl ⟨h.1 hJ, hJ.le⟩

/-- The acceleration that the loop asks for, with a rounding error `r`. -/
noncomputable def ask (p w I r : ℝ) : ℝ := w / 2 + (p + nextErr I p) / 2 + r

theorem Inv.step {S p w I r d d' : ℝ} (hS : 0 ≤ S) (h : Inv S p w I) (hr : |r| ≤ S / 2) (hd : |d| ≤ S / 4)
    (hd' : |d'| ≤ S / 4) :
    Inv S (p + w - 3 / 2 * ask p w I r + d) (w - ask p w I r + d') (nextErr I p) := by
  obtain ⟨r1, r2⟩ := abs_le'.1 hr
  obtain ⟨d1, d2⟩ := abs_le'.1 hd
  obtain ⟨e1, e2⟩ := abs_le'.1 hd'
  unfold ask
  rcases nextErr_cases I p with ⟨e, ⟨hp, hJ⟩ | ⟨hp, hJ⟩⟩ | ⟨e, ⟨hp, hJ⟩ | ⟨hp, hJ⟩⟩ <;> rw [e]
  · exact h.keep hS hp hJ r1 r2 d1 d2 e1 e2
  · have := (h.symm.keep (r := -r) (d := -d) (d' := -d') hS (by linarith) (by linarith) r2
      (by linarith) d2 (by linarith) e2 (by linarith)).symm
    convert this using 1 <;> ring
  · exact h.drop hS hp r1 r2 d1 d2 e1 e2
  · have := (h.symm.drop (r := -r) (d := -d) (d' := -d') hS (by linarith) r2
      (by linarith) d2 (by linarith) e2 (by linarith)).symm
    convert this using 1 <;> ring

/-- The errors in the region. -/
theorem Inv.bounds {S p w I r : ℝ} (hS : 0 ≤ S) (h : Inv S p w I) (hr : |r| ≤ S / 2) :
    |p| ≤ 264 / 100 * S ∧ |w| ≤ 214 / 100 * S ∧ |2 * p - ask p w I r| ≤ 382 / 100 * S ∧
      |ask p w I r| ≤ 301 / 100 * S ∧ |w - ask p w I r| ≤ 214 / 100 * S := by
  have hs := h.step hS hr (d := 0) (d' := 0) (by rw [abs_zero]; linarith) (by rw [abs_zero]; linarith)
  obtain ⟨r1, r2⟩ := abs_le'.1 hr
  refine ⟨abs_le'.2 ⟨?_, ?_⟩, abs_le'.2 ⟨?_, ?_⟩, abs_le'.2 ⟨?_, ?_⟩, abs_le'.2 ⟨?_, ?_⟩, abs_le'.2 ⟨?_, ?_⟩⟩
  · linarith only [h.u0]
  · linarith only [h.l0]
  · linarith only [h.u1, hS]
  · linarith only [h.l1, hS]
  · unfold ask
    rcases nextErr_cases I p with ⟨e, ⟨hp, hJ⟩ | ⟨hp, hJ⟩⟩ | ⟨e, ⟨hp, hJ⟩ | ⟨hp, hJ⟩⟩ <;> rw [e]
    · linarith only [h.u3, h.u15, hJ, r1, r2, hS]
    · linarith only [h.l2, h.u9, h.u2, h.l9, hp, hJ, r1, r2, hS]
    · linarith only [h.u3, h.u15, hp, r1, r2, hS]
    · linarith only [h.u9, h.l9, hp, r1, r2, hS]
  · unfold ask
    rcases nextErr_cases I p with ⟨e, ⟨hp, hJ⟩ | ⟨hp, hJ⟩⟩ | ⟨e, ⟨hp, hJ⟩ | ⟨hp, hJ⟩⟩ <;> rw [e]
    · linarith only [h.l2, h.u9, h.u2, h.l9, hp, hJ, r1, r2, hS]
    · linarith only [h.l3, h.l15, hJ, r1, r2, hS]
    · linarith only [h.u9, h.l9, hp, r1, r2, hS]
    · linarith only [h.l3, h.l15, hp, r1, r2, hS]
  · unfold ask
    rcases nextErr_cases I p with ⟨e, ⟨hp, hJ⟩ | ⟨hp, hJ⟩⟩ | ⟨e, ⟨hp, hJ⟩ | ⟨hp, hJ⟩⟩ <;> rw [e]
    · linarith only [h.u1, h.u17, h.u18, r1, r2, hS]
    · linarith only [h.u9, h.l9, hp, hJ, r1, r2, hS]
    · linarith only [h.u4, h.u11, h.u2, h.u0, hp, r1, r2, hS]
    · linarith only [h.u9, h.l9, hp, r1, r2, hS]
  · unfold ask
    rcases nextErr_cases I p with ⟨e, ⟨hp, hJ⟩ | ⟨hp, hJ⟩⟩ | ⟨e, ⟨hp, hJ⟩ | ⟨hp, hJ⟩⟩ <;> rw [e]
    · linarith only [h.u9, h.l9, hp, hJ, r1, r2, hS]
    · linarith only [h.l1, h.l17, h.l18, r1, r2, hS]
    · linarith only [h.u9, h.l9, hp, r1, r2, hS]
    · linarith only [h.l4, h.l11, h.l2, h.l0, hp, r1, r2, hS]
  · linarith only [hs.u1, hS]
  · linarith only [hs.l1, hS]

/-- The region at the start of a curve. -/
theorem Inv.init {S p w : ℝ} (hp : |p| ≤ 3 / 2 * S) (hw : |w| ≤ 3 / 4 * S) : Inv S p w 0 := by
  obtain ⟨p1, p2⟩ := abs_le'.1 hp
  obtain ⟨w1, w2⟩ := abs_le'.1 hw
  constructor <;> linarith only [p1, p2, w1, w2]

/-! ### The loop -/

theorem limit_id {x a : ℝ} (h : |x| ≤ a) : limit x (-a) a = x := by
  rw [abs_le] at h
  unfold limit
  rw [if_neg (by linarith), if_neg (by linarith)]

theorem limitSpeed_id {v vMax acc a : ℤ} (hv : |v + acc| ≤ vMax) (h : limitSpeed v vMax acc = some a) :
    a = acc := by
  rw [abs_le] at hv
  unfold limitSpeed at h
  split at h
  · obtain ⟨s, hs, h⟩ := Option.bind_eq_some_iff.1 h
    have es := (toI32_eq hs).1
    rw [if_neg (by omega)] at h
    exact (Option.some.inj h).symm
  · split at h
    · obtain ⟨s, hs, h⟩ := Option.bind_eq_some_iff.1 h
      have es := (toI32_eq hs).1
      rw [if_neg (by omega)] at h
      exact (Option.some.inj h).symm
    · exact (Option.some.inj h).symm

/-- Without the limits the acceleration is the rounded answer of the feedback loop. -/
theorem wantedAcc_ask {ch : Channel} {aMax : ℤ} {P V I p w S : ℝ} (hS : 1 ≤ S) (hS2 : S ≤ 10000)
    (ha : 301 / 100 * S ≤ aMax) (ep : (P - ((ch.pos + 2 * ch.v : ℤ) : ℝ)) / 2 = p) (ew : V - (ch.v : ℝ) = w)
    (h : Inv S p w I) :
    accForPos ch aMax P = p ∧ ∃ r : ℝ, |r| ≤ S / 2 ∧ ((wantedAcc ch aMax P V (nextErr I p) : ℤ) : ℝ) = ask p w I r := by
  have hS0 : 0 ≤ S := by linarith
  obtain ⟨b1, b2, -, b4, -⟩ := h.bounds (r := 0) hS0 (by rw [abs_zero]; linarith)
  have e1 : accForPos ch aMax P = p := by
    unfold accForPos
    rw [ep, limit_id (by linarith)]
  have e2 : accForSpeed ch aMax V = w := by
    unfold accForSpeed
    rw [ew, limit_id (by linarith)]
  refine ⟨e1, ?_⟩
  have e3 : w * (1 - 1 / 2) + (p + nextErr I p) * (1 / 2) = ask p w I 0 := by unfold ask; ring
  have hr := round_near (ask p w I 0)
  refine ⟨(Draw.round (ask p w I 0) : ℝ) - ask p w I 0, by linarith, ?_⟩
  unfold wantedAcc
  rw [e1, e2, e3]
  have b : |((Draw.round (ask p w I 0) : ℤ) : ℝ)| ≤ ((32767 : ℤ) : ℝ) := by
    have := abs_sub_abs_le_abs_sub ((Draw.round (ask p w I 0) : ℤ) : ℝ) (ask p w I 0)
    push_cast
    linarith
  have b' : |Draw.round (ask p w I 0)| ≤ 32767 := by exact_mod_cast b
  rw [abs_le] at b'
  unfold satI16
  rw [if_neg (by omega), if_neg (by omega)]
  unfold ask
  ring

theorem trunc_near (x : ℝ) : |(trunc x : ℝ) - x| ≤ 1 := by
  unfold trunc
  split
  · have h1 := Int.floor_le x
    have h2 := Int.lt_floor_add_one x
    rw [abs_le]
    constructor <;> linarith
  · have h1 := Int.floor_le (-x)
    have h2 := Int.lt_floor_add_one (-x)
    push_cast
    rw [abs_le]
    constructor <;> linarith

/-- The loop keeps the errors of an axis in the region, when the wanted positions `P` and speeds `V`
of the axis change slowly. -/
theorem approxLoop_tracks {e : Env} {start : Vec} {curve : Curve} {v len S : ℝ} {n t : ℕ} {s s' : Approx}
    {i : Axis} {P V : ℕ → ℝ} {E : ℤ} (hn : Near s.ctx) (hS : 1 ≤ S) (hS2 : S ≤ 10000)
    (ha : 301 / 100 * S ≤ s.ctx.aMax i)
    (eP : ∀ k, P k = e.stepPos start (curve.value (k * len)).1 i)
    (eV : ∀ k, V k = e.stepV (curve.value (k * len)).2 v i)
    (hV : ∀ k < n, |V (t + k)| + 214 / 100 * S ≤ s.ctx.vMax i)
    (hP : ∀ k, k + 1 < n → |P (t + k + 1) - P (t + k) - 2 * V (t + k)| ≤ S / 2)
    (hW : ∀ k, k + 1 < n → |V (t + k + 1) - V (t + k)| ≤ S / 4)
    (hI : 0 < n → Inv S ((P t - (((s.ctx.channels i).pos + 2 * (s.ctx.channels i).v : ℤ) : ℝ)) / 2)
      (V t - ((s.ctx.channels i).v : ℝ)) (s.err i))
    (hE : 382 / 100 * S + 1 ≤ E)
    (h : approxLoop e start curve v len t n s = some s') :
    ∃ l, Moved s.ctx s'.ctx l ∧ (l i).length = n ∧
      (∀ k (hk : k < (l i).length),
        |(((s.ctx.channels i).pos + Spec.dist (s.ctx.channels i).v ((l i).take (k + 1)) : ℤ) : ℝ) - P (t + k)| ≤
          382 / 100 * S ∧
        |((endVel (s.ctx.channels i).v ((l i).take (k + 1)) : ℤ) : ℝ) - V (t + k)| ≤ 214 / 100 * S ∧
        |(((l i)[k] : ℤ) : ℝ)| ≤ 301 / 100 * S) ∧
      s'.maxErr i ≤ max (s.maxErr i) E := by
  have hS0 : 0 ≤ S := by linarith
  induction n generalizing t s with
  | zero =>
    cases h
    refine ⟨_, Moved.refl hn, rfl, fun k hk => ?_, le_max_left _ _⟩
    simp at hk
  | succ n ih =>
    simp only [approxLoop] at h
    obtain ⟨s1, h1, h⟩ := Option.bind_eq_some_iff.1 h
    obtain ⟨hc, he1, hm1⟩ := approxPass_eq h1
    obtain ⟨bx, yb, l1, l2, hc⟩ := approxTick_eq hc
    obtain ⟨M, -, -, -, -, w1⟩ := addAccInterval_spec hn (by norm_num) hc
    have hI := hI (by omega)
    have hV0 := hV 0 (by omega)
    rw [add_zero] at hV0
    have hl : limitSpeed (s.ctx.channels i).v (s.ctx.vMax i) (wantedAcc (s.ctx.channels i) (s.ctx.aMax i)
        (P t) (V t) (s1.err i)) = some (both bx yb i) := by
      rw [eP, eV]
      cases i
      · exact l1
      · exact l2
    have he1 := he1 i
    rw [← eP] at he1
    generalize ep : (P t - (((s.ctx.channels i).pos + 2 * (s.ctx.channels i).v : ℤ) : ℝ)) / 2 = p at hI
    generalize ew : V t - ((s.ctx.channels i).v : ℝ) = w at hI
    obtain ⟨q1, r, hr, q2⟩ := wantedAcc_ask hS hS2 ha ep ew hI
    rw [q1] at he1
    rw [← he1] at q2
    obtain ⟨b1, b2, b3, b4, b5⟩ := hI.bounds hS0 hr
    rw [← q2] at b3 b4 b5
    generalize wantedAcc (s.ctx.channels i) (s.ctx.aMax i) (P t) (V t) (s1.err i) = a at *
    have ea : both bx yb i = a := by
      refine limitSpeed_id ?_ hl
      have : |(((s.ctx.channels i).v + a : ℤ) : ℝ)| ≤ s.ctx.vMax i := by
        have e1 : (((s.ctx.channels i).v + a : ℤ) : ℝ) = V t - (w - a) := by
          rw [← ew]; push_cast; ring
        rw [e1]
        exact (abs_sub _ _).trans (by linarith)
      exact_mod_cast this
    have hch : s1.ctx.channels i = ⟨(s.ctx.channels i).pos + ((s.ctx.channels i).v +
        ((s.ctx.channels i).v + a)), (s.ctx.channels i).v + a, (s.ctx.channels i).ticks + 1⟩ := by
      rw [M.ch i, ← ea]
      simp [Spec.dist, endVel]
    obtain ⟨l, M2, hlen, hb, hm⟩ := ih (t := t + 1) M.near (by rw [M.aMax]; exact ha)
      (fun k hk => by
        have := hV (k + 1) (by omega)
        rw [M.vMax]
        rwa [show t + 1 + k = t + (k + 1) by omega])
      (fun k hk => by
        have := hP (k + 1) (by omega)
        rwa [show t + 1 + k = t + (k + 1) by omega])
      (fun k hk => by
        have := hW (k + 1) (by omega)
        rwa [show t + 1 + k = t + (k + 1) by omega])
      (fun hn0 => by
        have hp0 := hP 0 (by omega)
        have hw0 := hW 0 (by omega)
        rw [add_zero] at hp0 hw0
        have := hI.step hS0 hr (d := (P (t + 1) - P t - 2 * V t) / 2) (d' := V (t + 1) - V t)
          (by rw [abs_div, abs_of_pos (by norm_num : (0 : ℝ) < 2)]; linarith) hw0
        rw [← q2, ← he1] at this
        convert this using 1
        · rw [hch, ← ep, ← ew]; push_cast; ring
        · rw [hch, ← ew]; push_cast; ring)
      h
    have hpos : |(((s.ctx.channels i).pos + ((s.ctx.channels i).v + ((s.ctx.channels i).v + a)) : ℤ) : ℝ) - P t| ≤
        382 / 100 * S := by
      have e1 : (((s.ctx.channels i).pos + ((s.ctx.channels i).v + ((s.ctx.channels i).v + a)) : ℤ) : ℝ) - P t =
          -(2 * p - a) := by
        rw [← ep]; push_cast; ring
      rw [e1, abs_neg]
      exact b3
    refine ⟨_, M.trans M2, ?_, fun k hk => ?_, ?_⟩
    · simp [hlen]
    · rcases k with _ | k
      · simp only [List.replicate_one, List.cons_append, List.nil_append, List.take_succ_cons, List.take_zero,
          Spec.dist, endVel, List.getElem_cons_zero, add_zero, ea]
        refine ⟨hpos, ?_, b4⟩
        have e1 : (((s.ctx.channels i).v + a : ℤ) : ℝ) - V t = -(w - a) := by
          rw [← ew]; push_cast; ring
        rw [e1, abs_neg]
        exact b5
      · have := hb k (by simp at hk; omega)
        rw [hch] at this
        simp only [List.replicate_one, List.cons_append, List.nil_append, List.take_succ_cons,
          Spec.dist, endVel, List.getElem_cons_succ, ea]
        rw [show t + 1 + k = t + (k + 1) by omega] at this
        rw [← add_assoc (s.ctx.channels i).pos]
        exact this
    · refine hm.trans ?_
      rw [hm1 i, hch, ← eP]
      have : |(s.ctx.channels i).pos + ((s.ctx.channels i).v + ((s.ctx.channels i).v + a)) - trunc (P t)| ≤ E := by
        have e1 : |(((s.ctx.channels i).pos + ((s.ctx.channels i).v + ((s.ctx.channels i).v + a)) - trunc (P t) : ℤ) : ℝ)| ≤
            (E : ℝ) := by
          have := trunc_near (P t)
          have h3 := abs_add_le ((((s.ctx.channels i).pos + ((s.ctx.channels i).v + ((s.ctx.channels i).v + a)) : ℤ) : ℝ)
            - P t) (P t - (trunc (P t) : ℝ))
          rw [abs_sub_comm (P t)] at h3
          rw [sub_add_sub_cancel, ← Int.cast_sub] at h3
          linarith
        exact_mod_cast e1
      exact max_le (max_le (le_max_left _ _) (this.trans (le_max_right _ _))) (le_max_right _ _)

/-- `approx_curve` follows a curve when the steps from tick to tick are small, also the first one. -/
theorem approxCurve_follows {aMax vMax : Axis → ℤ} {e : Env} {c c' : Ctx} {start : Vec} {curve : Curve} {v S : ℝ}
    {err : Axis → ℤ} {i : Axis} (h : Reach aMax vMax c) (hS : 1 ≤ S) (hS2 : S ≤ 10000)
    (ha : 301 / 100 * S ≤ aMax i)
    (hV : ∀ k < approxSteps curve v, |wantVel e curve v i (k + 1)| + 214 / 100 * S ≤ vMax i)
    (hP : ∀ k, 1 ≤ k → k < approxSteps curve v →
      |wantPos e start curve v i (k + 1) - wantPos e start curve v i k - 2 * wantVel e curve v i k| ≤ S / 2)
    (hW : ∀ k, 1 ≤ k → k < approxSteps curve v → |wantVel e curve v i (k + 1) - wantVel e curve v i k| ≤ S / 4)
    (hp0 : 0 < approxSteps curve v →
      |wantPos e start curve v i 1 - ((c.channels i).pos : ℝ) - 2 * ((c.channels i).v : ℝ)| ≤ 3 * S)
    (hv0 : 0 < approxSteps curve v → |wantVel e curve v i 1 - ((c.channels i).v : ℝ)| ≤ 3 / 4 * S)
    (hr : approxCurve e c start curve v = some (c', err)) :
    FollowsWithin e start curve v i c'.events (c.channels i).ticks S := by
  intro k hk
  have hn := approx_near h hr (by omega)
  obtain ⟨-, htr, ea, ev, -⟩ := h.inv
  unfold approxCurve at hr
  obtain ⟨s, hs, hr⟩ := Option.bind_eq_some_iff.1 hr
  cases hr
  obtain ⟨l, M, hl, hb, -⟩ := approxLoop_tracks (i := i) (S := S) (P := wantPos e start curve v i)
    (V := wantVel e curve v i) (E := ⌈382 / 100 * S + 1⌉) hn hS hS2 (by rw [ea]; exact ha)
    (fun k => by unfold wantPos Env.stepPos; rw [add_comm])
    (fun k => rfl)
    (fun k hk => by rw [ev, add_comm 1]; exact hV k hk)
    (fun k hk => by rw [add_comm 1]; exact hP (k + 1) (by omega) hk)
    (fun k hk => by rw [add_comm 1]; exact hW (k + 1) (by omega) hk)
    (fun hpos => by
      refine Inv.init ?_ (hv0 hpos)
      have := hp0 hpos
      rw [abs_div, abs_of_pos (by norm_num : (0 : ℝ) < 2)]
      push_cast
      rw [← sub_sub]
      linarith)
    (Int.le_ceil _) hs
  obtain ⟨b1, b2, b3⟩ := hb k (by rw [hl]; exact hk)
  rw [add_comm 1] at b1 b2
  refine ⟨?_, ?_, ?_⟩
  · have := posAt_follows ((M.acc i).take (k := k + 1) (by rw [hl]; omega))
    rw [List.length_take, min_eq_left (by rw [hl]; omega)] at this
    rw [this, ← htr.pos, ← htr.vel]
    exact b1
  · rw [M.velAt htr i (by rw [hl]; omega)]
    exact b2
  · rw [M.accAt i (by rw [hl]; exact hk)]
    exact b3

end StepperPaths.Tracking
