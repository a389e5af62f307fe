import Verif.Proof.BigAcc
import Verif.Proof.LimitsSvg

/-! Accelerations that do not fit `i16`: `svg_path` cannot go to the start of a picture. -/

namespace StepperPaths.Rounded
open Coords Curves Context IntegerCurve Config Control Program StepperPaths.Svg
open Draw (Approx Pen Seg coord)

variable {fl : ℝ → ℝ} {e : Env}

/-- A machine at rest at the origin with an acceleration limit that does not fit. -/
structure BigRest (c : Ctx) : Prop where
  big : ∃ i, 32768 < c.aMax i
  acc : ∀ i, 0 < c.aMax i
  speed : ∀ i, 0 < c.vMax i
  rest : ∀ i, c.channels i = ⟨0, 0, 0⟩

/-- A point with a coordinate, in steps, beyond the speed limit. -/
def Far (fl : ℝ → ℝ) (e : Env) (vMax : Axis → ℤ) (p : Vec) : Prop :=
  ∃ i, vMax i + 1 < Draw.round (fl (coord p i * e.stepScale i))

theorem drawCurve_big {c : Ctx} (B : BigRest c) {p : Vec} (F : Far fl e c.vMax p) {curve : Concat} (hc : curve ≠ []) (v : ℝ) :
    drawCurve fl e c p curve v = none := by
  cases h : drawCurve fl e c p curve v with
  | none => rfl
  | some r =>
    exfalso
    unfold drawCurve at h
    rw [if_neg (by simpa using hc)] at h
    simp only [Option.bind_eq_bind, Option.bind_eq_some_iff] at h
    obtain ⟨c1, h1, c2, h2, -⟩ := h
    obtain ⟨k1, k2⟩ := addWeightChange_kept h1
    have k3 : c1.channels = c.channels := by
      simp only [Ctx.addWeightChange, Option.bind_eq_bind, Option.bind_eq_some_iff] at h1
      obtain ⟨_, -, _, -, h1⟩ := h1
      exact push_channels h1
    simp only [gotoSpeed, Option.bind_eq_bind, Option.bind_eq_some_iff] at h2
    obtain ⟨x, hx, y, hy, vx, -, vy, -, h2⟩ := h2
    have hg := h2
    simp only [Ctx.stepGotoSpeed, Option.bind_eq_bind, Option.bind_eq_some_iff, cassert] at hg
    obtain ⟨_, g1, _, g2, -⟩ := hg
    have g1 : vx ≤ c.vMax .x := by rw [← k2]; by_contra hn; simp [hn] at g1
    have g2 : vy ≤ c.vMax .y := by rw [← k2]; by_contra hn; simp [hn] at g2
    have s := B.speed .x
    have G := goto_big (by rw [k1]; exact B.big) ⟨.x, by rw [k1]; exact B.acc _, by rw [k2]; exact s,
      by rw [k3, k2, B.rest]; simp only; omega, by rw [k3, k2, B.rest]; simp only [pick]; omega⟩ h2
    obtain ⟨i, hi⟩ := F
    have := (G i).1
    rw [k3, B.rest] at this
    cases i
    · simp only [pick, abs_le, toSteps_eq hx] at this
      simp only [coord] at hi
      omega
    · simp only [pick, abs_le, toSteps_eq hy] at this
      simp only [coord] at hi
      omega

theorem run_big {c : Ctx} (B : BigRest c) {p : Vec} (F : Far fl e c.vMax p) (v : ℝ) : ∀ (segs : List Seg) (s : Pen),
    s.ctx = c → s.start = p → s.curves ≠ [] → (run fl e v segs s).bind (flush fl e v) = none := by
  have fl_none : ∀ s : Pen, s.ctx = c → s.start = p → s.curves ≠ [] → flush fl e v s = none := by
    intro s h1 h2 h3
    simp only [flush, h1, h2, drawCurve_big B F h3, Option.bind_eq_bind, Option.bind_none]
  intro segs
  induction segs with
  | nil => exact fl_none
  | cons seg segs ih =>
    intro s h1 h2 h3
    simp only [run, Option.bind_eq_bind]
    have hadd : ∀ (k : Curve) (q : Vec), ((add fl e v s k q).bind fun s => run fl e v segs s).bind (flush fl e v) = none := by
      intro k q
      unfold add
      split
      · simp only [fl_none s h1 h2 h3, Option.map_none, Option.bind_eq_bind, Option.bind_none]
      · simp only [Option.bind_eq_bind, Option.bind_some, Option.pure_def]
        exact ih _ h1 h2 (by simp [concatAdd])
    have hinfo : ∀ (o : Option (Curve × Vec)), ((o.bind fun x => add fl e v s x.1 x.2).bind fun s => run fl e v segs s).bind
        (flush fl e v) = none := by
      intro o
      cases o with
      | none => rfl
      | some x => exact hadd x.1 x.2
    unfold step
    split
    · simp only [goTo, Option.bind_eq_bind]
      rename_i q
      cases atMachine fl e s q with
      | none => rfl
      | some b =>
        cases b with
        | true => exact ih _ h1 h2 h3
        | false =>
          simp only [Option.bind_some, Bool.false_eq_true, if_false, fl_none s h1 h2 h3, Option.bind_none]
    · split
      · exact ih _ h1 h2 h3
      · exact hinfo _
    · exact hinfo _

/-- A segment that is drawn whatever its length. -/
def Drawn : Seg → Prop
  | .goTo _ | .closeTo _ => False
  | _ => True

theorem events_big {aMax vMax : Axis → ℤ} (hbig : ∃ i, 32768 < aMax i) (h0 : ∀ i, 0 ≤ aMax i) {p : Vec}
    (F : Far fl e vMax p) {seg : Seg} (hs : Drawn seg) (segs : List Seg) (weight : ℤ) (v : ℝ) (n : ℕ) :
    svgEventsF fl e aMax vMax weight (.goTo p :: seg :: segs) v (n + 1) = none := by
  by_cases st : Stuck aMax vMax
  · exact stuck_events st _ _ _ _
  have ha : ∀ i, 0 < aMax i := fun i => by
    by_contra hn
    exact st ⟨i, .inl (by have := h0 i; omega)⟩
  have hv : ∀ i, 0 < vMax i := fun i => by
    by_contra hn
    have := ha i
    exact st ⟨i, .inr (by omega)⟩
  have B : BigRest ((Ctx.new aMax vMax).setWeight weight) := ⟨hbig, ha, hv, fun _ => rfl⟩
  have key : drawPen fl e ((Ctx.new aMax vMax).setWeight weight) (.goTo p :: seg :: segs) v = none := by
    unfold drawPen
    simp only [Option.bind_eq_bind]
    have hm : ∀ b, atMachine fl e (init fl e ((Ctx.new aMax vMax).setWeight weight)) p = some b → b = false := by
      intro b hb
      simp only [atMachine, Option.bind_eq_bind, Option.bind_eq_some_iff] at hb
      obtain ⟨x, hx, hb⟩ := hb
      split at hb
      · exact (Option.some.inj hb).symm
      · next h1 =>
        simp only [ne_eq, not_not] at h1
        simp only [Option.bind_eq_some_iff, Option.pure_def, Option.some.injEq] at hb
        obtain ⟨y, hy, rfl⟩ := hb
        rw [decide_eq_false_iff_not]
        intro h2
        obtain ⟨i, hi⟩ := F
        have h3 := hv i
        rw [toSteps_eq hx] at h1
        rw [toSteps_eq hy] at h2
        change _ = (0 : ℤ) at h1 h2
        cases i <;> simp only [coord] at hi <;> omega
    simp only [run, step, goTo, Option.bind_eq_bind]
    cases hq : atMachine fl e (init fl e ((Ctx.new aMax vMax).setWeight weight)) p with
    | none => rfl
    | some b =>
      obtain rfl := hm b hq
      have hf : flush fl e v (init fl e ((Ctx.new aMax vMax).setWeight weight)) =
          some { init fl e ((Ctx.new aMax vMax).setWeight weight) with
            maxErr := fun i => Draw.accMax 0 0, drawn := [((init fl e ((Ctx.new aMax vMax).setWeight weight)).start, [])] } := by
        simp [flush, init, drawCurve]
      simp only [Option.bind_some, Bool.false_eq_true, if_false, hf, Option.pure_def]
      have hinfo : ∀ (s : Pen) (o : Option (Curve × Vec)), s.ctx = (Ctx.new aMax vMax).setWeight weight → s.start = p →
          s.curves = [] → s.prevDir = none → ((o.bind fun x => add fl e v s x.1 x.2).bind fun s => run fl e v segs s).bind
          (flush fl e v) = none := by
        intro s o h1 h2 h3 h4
        cases o with
        | none => rfl
        | some x =>
          simp only [Option.bind_some]
          unfold add
          rw [if_neg (by simp [turns, h4])]
          simp only [Option.bind_eq_bind, Option.bind_some, Option.pure_def]
          exact run_big B F v segs _ h1 h2 (by simp [concatAdd])
      cases seg with
      | goTo _ => exact absurd hs (by simp [Drawn])
      | closeTo _ => exact absurd hs (by simp [Drawn])
      | _ => exact hinfo _ _ rfl rfl rfl rfl
  simp only [svgEventsF, drawTimesF, drawCurves, List.isEmpty_cons, Bool.false_eq_true, if_false, key, Option.bind_eq_bind, Option.bind_none]

theorem checked_big {aMax vMax : Axis → ℤ} (hbig : ∃ i, 32768 < aMax i) (h0 : ∀ i, 0 ≤ aMax i) {p : Vec}
    (F : Far fl e vMax p) {seg : Seg} (hs : Drawn seg) (segs : List Seg) (weight : ℤ) (v : ℝ) (n : ℕ) :
    CheckedSvg.svgEvents fl e aMax vMax weight (.goTo p :: seg :: segs) v (n + 1) = none := by
  cases hr : CheckedSvg.svgEvents fl e aMax vMax weight (.goTo p :: seg :: segs) v (n + 1) with
  | none => rfl
  | some c' =>
    have := CheckedSvg.svgEvents_le _ _ _ _ _ _ _ _ _ hr
    rw [events_big hbig h0 F hs] at this
    exact this.symm

theorem checkedRaster_big {p : Raster.Params} {img : Raster.Image} {aMax vMax : Axis → ℤ} (hbig : ∃ i, 32768 < aMax i)
    (ha : 0 ≤ aMax .x) (hv : 2 ≤ p.vX) (hv' : p.vX < 2 ^ 31) (hr : 0 < p.resY)
    (hp : ∃ x y, x < img.width ∧ y < img.height ∧ img.pixel x y < 255) :
    Checked.raster p img (Ctx.new aMax vMax) = none := by
  cases hs : Checked.raster p img (Ctx.new aMax vMax) with
  | none => rfl
  | some c' =>
    have := Checked.raster_le _ _ _ _ hs
    rw [Raster.raster_big hbig ha hv hv' hr hp] at this
    exact this.symm

end StepperPaths.Rounded
