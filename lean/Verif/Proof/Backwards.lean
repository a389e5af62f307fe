import Verif.Props.Rounded
import Verif.Model.RoundedProgram

/-! Strokes that get no tick: the laser stays off. -/

namespace StepperPaths.Rounded
open Coords Curves Context IntegerCurve Spec Props Draw Program

/-- The laser is off from tick `t` up to the current one. -/
def Dark (t : ℕ) (c : Ctx) : Prop :=
  t ≤ (c.channels .x).ticks ∧ ∀ w τ, t ≤ τ → τ < (c.channels .x).ticks → weightAt w c.events τ = 0

theorem drawCurve_dark {aMax vMax : Axis → ℤ} {fl : ℝ → ℝ} {e : Env} {c c' : Ctx} {start : Vec} {curve : Concat}
    {v : ℝ} {err : Axis → ℤ} {t : ℕ} (h : Sync aMax vMax c) (hd : Dark t c)
    (h0 : curve ≠ [] → approxSteps fl (concatInfo fl e curve) v = 0)
    (hr : drawCurve fl e c start curve v = some (c', err)) : Dark t c' := by
  by_cases hne : curve = []
  · subst hne
    unfold drawCurve at hr
    rw [if_pos (by simp)] at hr
    cases hr
    exact hd
  obtain ⟨c1, c2, c3, h1, h2, h3, h4⟩ := drawCurve_eq hne hr
  obtain ⟨s1, ch1, p1, -, m1, -, w1⟩ := weight_now h h1
  have s2 : Sync aMax vMax c2 := .step (op := .goto _ _ _ _) s1 trivial h2
  obtain ⟨_, _, -, -, M, -, -, -, hw⟩ := goto_spec s1.inv.1 h2
  have p2 := Moved.past M (fun w τ hτ => by rw [hw, if_pos hτ])
  obtain ⟨s3, ch3, p3, -, -, -, w3⟩ := weight_now s2 h3
  obtain ⟨r, h4⟩ := approx_eq h4
  rw [h0 hne] at h4
  cases h4
  have m0 : c.moveWeight = 0 := h.reach.inv.2.2.2.2
  refine ⟨?_, fun w τ q1 q2 => ?_⟩
  · have := hd.1
    have := p1.ticks
    have := p2.ticks
    have := p3.ticks
    omega
  · rw [ch3] at q2
    rw [w3, if_pos q2, hw]
    split
    · next q3 =>
      rw [w1, m0]
      rw [ch1] at q3
      rw [if_pos q3]
      exact hd.2 w τ q1 q3
    · rw [m1, m0]

/-- Every drawn stroke has one property, the collected curves another that implies it. -/
theorem flush_dark {aMax vMax : Axis → ℤ} {fl : ℝ → ℝ} {e : Env} {v : ℝ} {s s' : Pen} {t : ℕ} (hs : Sync aMax vMax s.ctx)
    (hd : Dark t s.ctx) (h0 : s.curves ≠ [] → approxSteps fl (concatInfo fl e s.curves) v = 0)
    (h : flush fl e v s = some s') : Dark t s'.ctx := by
  obtain ⟨err, h1, -⟩ := flush_eq h
  exact drawCurve_dark hs hd h0 h1

theorem finish_dark {aMax vMax : Axis → ℤ} {fl : ℝ → ℝ} {e : Env} {v : ℝ} {segs : List Seg} {s s' : Pen} {t : ℕ}
    (hs : Sync aMax vMax s.ctx) (hd : Dark t s.ctx) (h : finish fl e v segs s = some s')
    (h0 : ∀ st ∈ s'.drawn, st.2 ≠ [] → approxSteps fl (concatInfo fl e st.2) v = 0) : Dark t s'.ctx := by
  have drawn : ∀ {s1 : Pen}, flush fl e v s = some s1 → (s.start, s.curves) ∈ s1.drawn := by
    intro s1 h1
    obtain ⟨err, -, e1⟩ := flush_eq h1
    rw [e1]
    simp
  induction segs generalizing s with
  | nil => exact flush_dark hs hd (h0 _ (drawn h)) h
  | cons seg segs ih =>
    obtain ⟨s1, h1, h2⟩ := finish_cons.1 h
    obtain ⟨a, b⟩ := step_later hs h1
    have l2 := (finish_later a h2).2
    refine ih a ?_ h2 ?_
    · rcases step_flush h1 with ⟨e1, -, -⟩ | ⟨s2, e0, e1, -, e3⟩
      · rw [e1]; exact hd
      · rw [e1]
        refine flush_dark hs hd (h0 (s.start, s.curves) ?_) e0
        obtain ⟨l, hl⟩ := l2.drawn
        rw [hl, e3]
        exact List.mem_append_left _ (drawn e0)
    · intro s3 h3
      obtain ⟨err, -, e1⟩ := flush_eq h3
      rw [e1]
      simp

/-! ### Lengths -/

theorem total_add {fl : ℝ → ℝ} (c : Concat) (k : Curve) :
    (concatAdd fl c k).totalLength = fl (k.length + c.totalLength) := by
  simp [concatAdd, Concat.totalLength]

/-- All lengths are at least zero. -/
theorem finish_length {fl : ℝ → ℝ} (hpos : ∀ x, 0 ≤ x → 0 ≤ fl x) {e : Env} {v : ℝ} {segs : List Seg} {s s' : Pen}
    (hl : ∀ seg ∈ segs, ∀ p info next, e.other p seg = some (info, next) → 0 ≤ info.length)
    (h : finish fl e v segs s = some s') (hc : 0 ≤ s.curves.totalLength)
    (hd : ∀ st ∈ s.drawn, 0 ≤ Concat.totalLength st.2) : ∀ st ∈ s'.drawn, 0 ≤ Concat.totalLength st.2 := by
  have hz : (0 : ℝ) ≤ Concat.totalLength [] := by simp [Concat.totalLength]
  have fdrawn : ∀ {s s1 : Pen}, 0 ≤ s.curves.totalLength → (∀ st ∈ s.drawn, 0 ≤ Concat.totalLength st.2) →
      flush fl e v s = some s1 → ∀ st ∈ s1.drawn, 0 ≤ Concat.totalLength st.2 := by
    intro s s1 hc hd h1
    obtain ⟨err, -, e1⟩ := flush_eq h1
    rw [e1]
    intro st hst
    rcases List.mem_append.1 hst with h2 | h2
    · exact hd st h2
    · rw [List.mem_singleton.1 h2]
      exact hc
  induction segs generalizing s with
  | nil => exact fdrawn hc hd h
  | cons seg segs ih =>
    obtain ⟨s1, h1, h2⟩ := finish_cons.1 h
    have hl' : ∀ seg ∈ segs, ∀ p info next, e.other p seg = some (info, next) → 0 ≤ info.length :=
      fun q hq => hl q (List.mem_cons_of_mem _ hq)
    rcases step_eq h1 with ⟨p, -, h⟩ | ⟨p, -, rfl⟩ | ⟨info, next, hi, h⟩
    · rcases goTo_eq h with ⟨-, rfl⟩ | ⟨-, s2, h3, rfl⟩
      · exact ih hl' h2 hc hd
      · refine ih hl' h2 ?_ (fun st hst => fdrawn hc hd h3 st hst)
        obtain ⟨err, -, e1⟩ := flush_eq h3
        rw [e1]
        exact hz
    · exact ih hl' h2 hc hd
    · have hi0 : 0 ≤ info.length := by
        cases seg with
        | goTo p => simp [segInfo] at hi
        | lineTo p =>
          simp only [segInfo, Option.some.injEq, Prod.mk.injEq] at hi
          rw [← hi.1]
          exact hpos _ (Real.sqrt_nonneg _)
        | closeTo p =>
          simp only [segInfo, Option.some.injEq, Prod.mk.injEq] at hi
          rw [← hi.1]
          exact hpos _ (Real.sqrt_nonneg _)
        | curveTo _ _ _ => exact hl _ List.mem_cons_self _ _ _ hi
        | arc _ _ _ _ _ => exact hl _ List.mem_cons_self _ _ _ hi
      rcases add_eq h with ⟨-, s2, h3, rfl⟩ | ⟨-, rfl⟩
      · refine ih hl' h2 ?_ (fun st hst => fdrawn hc hd h3 st hst)
        simp only [total_add]
        exact hpos _ (add_nonneg hi0 hz)
      · refine ih hl' h2 ?_ hd
        simp only [total_add]
        exact hpos _ (add_nonneg hi0 hc)

theorem steps_zero {fl : ℝ → ℝ} {k : Curve} {v : ℝ} : approxSteps fl k v = 0 ↔ fl (k.length / v) < 1 / 2 := by
  unfold approxSteps
  rw [Int.toNat_eq_zero]
  have : satI32 (Draw.round (fl (k.length / v))) ≤ 0 ↔ Draw.round (fl (k.length / v)) ≤ 0 := by
    unfold satI32
    split
    · omega
    · split <;> omega
  rw [this]
  generalize fl (k.length / v) = x
  unfold Draw.round
  split
  · next h =>
    rw [← not_lt, ← Int.add_one_le_iff, zero_add, Int.le_floor, Int.cast_one]
    constructor <;> intro h <;> linarith
  · next h =>
    have h1 : 0 ≤ ⌊-x + 1 / 2⌋ := Int.floor_nonneg.2 (by linarith)
    constructor
    · intro _; linarith
    · intro _; omega

theorem small_of_nonpos {fl : ℝ → ℝ} (R : FloatRounding fl) {x : ℝ} (h : x ≤ 0) : fl x < 1 / 2 := by
  have := (abs_le.1 (R.near x)).2
  rw [abs_of_nonpos h] at this
  have h1 : (2⁻¹ : ℝ) ^ 53 ≤ 1 / 4 := by norm_num
  have h2 : (2⁻¹ : ℝ) ^ 1075 ≤ 1 / 4 := (pow_le_pow_of_le_one (by norm_num) (by norm_num) (by norm_num : 53 ≤ 1075)).trans h1
  have h3 := mul_le_mul_of_nonneg_right h1 (neg_nonneg.2 h)
  generalize (2⁻¹ : ℝ) ^ 53 * -x = a at *
  generalize (2⁻¹ : ℝ) ^ 1075 = b at *
  linarith

/-- `draw_curves` of strokes without ticks. -/
theorem draw_dark {aMax vMax : Axis → ℤ} {fl : ℝ → ℝ} {e : Env} {c c' : Ctx} {segs : List Seg} {v : ℝ} {err : Axis → ℤ} {t : ℕ}
    (h : Sync aMax vMax c) (hd : Dark t c) (hr : drawCurves fl e c segs v = some (c', err))
    (h0 : ∀ s, drawPen fl e c segs v = some s → ∀ st ∈ s.drawn, st.2 ≠ [] → approxSteps fl (concatInfo fl e st.2) v = 0) :
    Sync aMax vMax c' ∧ Dark t c' ∧ (segs ≠ [] → ∀ w τ, t ≤ τ → weightAt w c'.events τ = 0) := by
  unfold drawCurves at hr
  split at hr
  · next he =>
    cases hr
    exact ⟨h, hd, fun hne => absurd (by simpa using he) hne⟩
  · obtain ⟨s, h1, h2⟩ := Option.bind_eq_some_iff.1 hr
    obtain ⟨c1, h3, h4⟩ := Option.bind_eq_some_iff.1 h2
    cases h4
    have h1' : finish fl e v segs (init fl e c) = some s := h1
    have hs := (finish_later (s := init fl e c) h h1').1
    have hd' := finish_dark (s := init fl e c) h hd h1' (h0 s h1)
    obtain ⟨s1, ch1, -, -, -, -, w1⟩ := weight_now hs h3
    have m0 : s.ctx.moveWeight = 0 := hs.reach.inv.2.2.2.2
    have all : ∀ w τ, t ≤ τ → weightAt w c'.events τ = 0 := by
      intro w τ q1
      rw [w1]
      split
      · exact hd'.2 w τ q1 (by assumption)
      · exact m0
    exact ⟨s1, ⟨by rw [ch1]; exact hd'.1, fun w τ q1 _ => all w τ q1⟩, fun _ => all⟩

theorem times_dark {aMax vMax : Axis → ℤ} {fl : ℝ → ℝ} {e : Env} {path : List Seg} {v : ℝ} {t : ℕ}
    (h0 : ∀ c s, drawPen fl e c path v = some s → ∀ st ∈ s.drawn, st.2 ≠ [] → approxSteps fl (concatInfo fl e st.2) v = 0)
    (n : ℕ) {c c' : Ctx} (h : Sync aMax vMax c) (hd : Dark t c) (hr : drawTimesF fl e path v n c = some c') :
    Sync aMax vMax c' ∧ Dark t c' := by
  induction n generalizing c with
  | zero => cases hr; exact ⟨h, hd⟩
  | succ n ih =>
    unfold drawTimesF at hr
    obtain ⟨⟨c1, err⟩, h1, h2⟩ := Option.bind_eq_some_iff.1 hr
    obtain ⟨a, b, -⟩ := draw_dark h hd h1 (h0 c)
    exact ih a b h2

end StepperPaths.Rounded
