import Verif.Proof.Limits
import Verif.Proof.CheckedSvg
import Verif.Proof.CheckedRaster

namespace StepperPaths.Rounded
open Coords Curves Context IntegerCurve Config Control Program StepperPaths.Svg
open Draw (Approx Pen Seg)

variable {fl : ℝ → ℝ} {e : Env}

theorem approxLoop_kept {start : Vec} {curve : Curve} {v l : ℝ} : ∀ (n : ℕ) {t : ℕ} {s s' : Approx},
    approxLoop fl e start curve v l t n s = some s' → Kept s.ctx s'.ctx := by
  intro n
  induction n with
  | zero =>
    intro t s s' h
    obtain rfl := Option.some.inj h
    exact .rfl
  | succ n ih =>
    intro t s s' h
    simp only [approxLoop, Option.bind_eq_bind, Option.bind_eq_some_iff] at h
    obtain ⟨s1, h1, h2⟩ := h
    simp only [approxPass, Option.bind_eq_bind, Option.bind_eq_some_iff, Option.pure_def, Option.some.injEq] at h1
    obtain ⟨c, h3, rfl⟩ := h1
    exact (approxTick_kept h3).trans (ih h2)

theorem drawCurve_kept {c : Ctx} {start : Vec} {curve : Concat} {v : ℝ} {r : Ctx × (Axis → ℤ)}
    (h : drawCurve fl e c start curve v = some r) : Kept c r.1 := by
  unfold drawCurve at h
  split at h
  · obtain rfl := Option.some.inj h
    exact .rfl
  · simp only [Option.bind_eq_bind, Option.bind_eq_some_iff] at h
    obtain ⟨c1, h1, c2, h2, c3, h3, h4⟩ := h
    simp only [gotoSpeed, Option.bind_eq_bind, Option.bind_eq_some_iff] at h2
    obtain ⟨_, -, _, -, _, -, _, -, h2⟩ := h2
    simp only [approxCurve, Option.bind_eq_bind, Option.bind_eq_some_iff, Option.pure_def, Option.some.injEq] at h4
    obtain ⟨s, h4, rfl⟩ := h4
    exact (addWeightChange_kept h1).trans ((goto_kept h2).trans ((addWeightChange_kept h3).trans (approxLoop_kept _ h4)))

theorem flush_kept {v : ℝ} {s s' : Pen} (h : flush fl e v s = some s') : Kept s.ctx s'.ctx := by
  simp only [flush, Option.bind_eq_bind, Option.bind_eq_some_iff, Option.pure_def, Option.some.injEq] at h
  obtain ⟨r, h1, rfl⟩ := h
  exact drawCurve_kept h1

theorem add_kept {v : ℝ} {s s' : Pen} {k : Curve} {q : Vec} (h : add fl e v s k q = some s') : Kept s.ctx s'.ctx := by
  unfold add at h
  simp only [Option.bind_eq_bind] at h
  split at h <;> simp only [Option.bind_eq_some_iff, Option.map_eq_some_iff, Option.pure_def, Option.some.injEq] at h
  · obtain ⟨_, ⟨s1, h1, rfl⟩, rfl⟩ := h
    have := flush_kept h1
    exact ⟨this.1, this.2⟩
  · obtain ⟨_, rfl, rfl⟩ := h
    exact .rfl

theorem step_kept {v : ℝ} {s s' : Pen} {seg : Seg} (h : step fl e v s seg = some s') : Kept s.ctx s'.ctx := by
  unfold step at h
  split at h
  · simp only [goTo, Option.bind_eq_bind, Option.bind_eq_some_iff] at h
    obtain ⟨b, -, h⟩ := h
    split at h
    · obtain rfl := Option.some.inj h
      exact .rfl
    · simp only [Option.bind_eq_some_iff, Option.pure_def, Option.some.injEq] at h
      obtain ⟨s1, h1, rfl⟩ := h
      have := flush_kept h1
      exact ⟨this.1, this.2⟩
  · split at h
    · obtain rfl := Option.some.inj h
      exact .rfl
    · simp only [Option.bind_eq_bind, Option.bind_eq_some_iff] at h
      obtain ⟨_, -, h⟩ := h
      exact add_kept h
  · simp only [Option.bind_eq_bind, Option.bind_eq_some_iff] at h
    obtain ⟨_, -, h⟩ := h
    exact add_kept h

theorem run_kept {v : ℝ} : ∀ (segs : List Seg) {s s' : Pen}, run fl e v segs s = some s' → Kept s.ctx s'.ctx := by
  intro segs
  induction segs with
  | nil =>
    intro s s' h
    obtain rfl := Option.some.inj h
    exact .rfl
  | cons seg segs ih =>
    intro s s' h
    simp only [run, Option.bind_eq_bind, Option.bind_eq_some_iff] at h
    obtain ⟨s1, h1, h2⟩ := h
    exact (step_kept h1).trans (ih h2)

theorem drawCurves_kept {c : Ctx} {segs : List Seg} {v : ℝ} {r : Ctx × (Axis → ℤ)}
    (h : drawCurves fl e c segs v = some r) : Kept c r.1 := by
  unfold drawCurves at h
  split at h
  · obtain rfl := Option.some.inj h
    exact .rfl
  · simp only [drawPen, Option.bind_eq_bind, Option.bind_eq_some_iff, Option.pure_def, Option.some.injEq] at h
    obtain ⟨s, ⟨s1, h1, h2⟩, c1, h3, rfl⟩ := h
    have k1 : Kept c s1.ctx := run_kept _ h1
    exact k1.trans ((flush_kept h2).trans (addWeightChange_kept h3))

theorem drawTimes_kept {path : List Seg} {v : ℝ} : ∀ (n : ℕ) {c c' : Ctx}, drawTimesF fl e path v n c = some c' → Kept c c' := by
  intro n
  induction n with
  | zero =>
    intro c c' h
    obtain rfl := Option.some.inj h
    exact .rfl
  | succ n ih =>
    intro c c' h
    simp only [drawTimesF, Option.bind_eq_bind, Option.bind_eq_some_iff] at h
    obtain ⟨r, h1, h2⟩ := h
    exact (drawCurves_kept h1).trans (ih h2)

theorem stuck_events {aMax vMax : Axis → ℤ} (h : Stuck aMax vMax) (weight : ℤ) (path : List Seg) (v : ℝ) (n : ℕ) :
    svgEventsF fl e aMax vMax weight path v n = none := by
  cases hr : svgEventsF fl e aMax vMax weight path v n with
  | none => rfl
  | some c' =>
    exfalso
    simp only [svgEventsF, Option.bind_eq_bind, Option.bind_eq_some_iff] at hr
    obtain ⟨c1, h1, c2, h2, -⟩ := hr
    have k := drawTimes_kept _ h1
    have := stuck_goto (c := c1) (by rw [k.1, k.2]; exact h) 0 0 rfl rfl
    rw [Ctx.stepGoto, this] at h2
    simp at h2

theorem stuck_checked {aMax vMax : Axis → ℤ} (h : Stuck aMax vMax) (weight : ℤ) (path : List Seg) (v : ℝ) (n : ℕ) :
    CheckedSvg.svgEvents fl e aMax vMax weight path v n = none := by
  cases hr : CheckedSvg.svgEvents fl e aMax vMax weight path v n with
  | none => rfl
  | some c' =>
    have := CheckedSvg.svgEvents_le _ _ _ _ _ _ _ _ _ hr
    rw [stuck_events h] at this
    exact this.symm

theorem stuck_checkedRaster {p : Raster.Params} {img : Raster.Image} {c : Ctx} (h : Stuck c.aMax c.vMax) :
    Checked.raster p img c = none := by
  cases hr : Checked.raster p img c with
  | none => rfl
  | some c' =>
    have := Checked.raster_le _ _ _ _ hr
    rw [Raster.stuck_raster h] at this
    exact this.symm

end StepperPaths.Rounded
