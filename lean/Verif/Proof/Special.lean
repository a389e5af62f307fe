import Verif.Model.Special
import Verif.Proof.BigAccSvg
import Mathlib.Tactic.Linarith

/-! Options that are infinite or not a number: finite ones are as in the other model, and what the others do. -/

namespace StepperPaths.Special
open Coords Curves Context IntegerCurve Config Control Program Raster StepperPaths.Svg Rounded StepperPaths.Cli
open Draw (satI32 trunc Approx Pen Seg accMax)

variable {fl : ℝ → ℝ} {e : Env}

/-! ### Finite numbers -/

theorem trunc_int (n : ℤ) : trunc (n : ℝ) = n := by
  unfold trunc
  split
  · exact Int.floor_intCast n
  · rw [← Int.cast_neg, Int.floor_intCast]
    omega

@[simp] theorem round_asI32 (x : ℝ) : (Num.fin x).round.asI32 = satI32 (Draw.round x) := by
  simp [Num.round, Num.asI32, trunc_int]

@[simp] theorem round_asU32 (x : ℝ) : (Num.fin x).round.asU32 = satU32 (Draw.round x) := by
  simp [Num.round, Num.asU32, trunc_int]

@[simp] theorem round_asI64 (x : ℝ) : (Num.fin x).round.asI64 = satI64 (Draw.round x) := by
  simp [Num.round, Num.asI64, trunc_int]

theorem div_fin {x y : ℝ} (h : y ≠ 0) : Num.div fl (.fin x) (.fin y) = .fin (fl (x / y)) := by simp [Num.div, h]

@[simp] theorem mul_fin (x y : ℝ) : Num.mul fl (.fin x) (.fin y) = .fin (fl (x * y)) := rfl

theorem vScale_fin {c : Xy} (h : c.ticksPerSecond ≠ 0) (i : Axis) : vScale fl c i = .fin (cfgVScale fl c i) := by
  have : (2 * (c.ticksPerSecond : ℝ)) ≠ 0 := by simpa using h
  rw [vScale, div_fin this]
  rfl

theorem vLimit_fin {c : Xy} (h : c.ticksPerSecond ≠ 0) (o : Option ℝ) (i : Axis) :
    vLimit fl c (o.map .fin) i = vLimitF fl c o i := by
  cases o
  · simp [vLimit, vLimitF, vScale_fin h, Num.abs]
  · simp [vLimit, vLimitF, vScale_fin h, Num.abs, Num.asI32]

theorem svgAScale_fin {c : Xy} (h : c.ticksPerSecond ≠ 0) (i : Axis) : svgAScale fl c i = .fin (svgAScaleF fl c i) := by
  have : (c.ticksPerSecond : ℝ) ≠ 0 := by simpa using h
  rw [svgAScale, vScale_fin h, div_fin this]
  rfl

theorem svgALimit_fin {c : Xy} (h : c.ticksPerSecond ≠ 0) (o : Option ℝ) (i : Axis) :
    svgALimit fl c (o.map .fin) i = svgALimitF fl c o i := by
  cases o
  · simp [svgALimit, svgALimitF, svgAScale_fin h, Num.abs]
  · simp [svgALimit, svgALimitF, svgAScale_fin h, Num.abs, Num.asI32]

theorem drawSpeed_fin {c : Xy} (h : c.ticksPerSecond ≠ 0) (o : Option ℝ) :
    drawSpeed fl c (o.map .fin) = .fin (drawSpeedF fl c o) := by
  have : (c.ticksPerSecond : ℝ) ≠ 0 := by simpa using h
  cases o <;> simp [drawSpeed, drawSpeedF, div_fin this]

theorem toStepV_fin (v : ℝ) (i : Axis) : toStepV fl e (.fin v) i = Rounded.toStepV fl e v i := rfl

theorem gotoSpeed_fin (c : Ctx) (x y vx vy : ℝ) :
    gotoSpeed fl e c x y (.fin vx) (.fin vy) = CheckedSvg.gotoSpeed fl e c x y vx vy := rfl

theorem approxCurve_fin (c : Ctx) (start : Vec) (curve : Curve) {v : ℝ} (hv : v ≠ 0) :
    approxCurve fl e c start curve (.fin v) = CheckedSvg.approxCurve fl e c start curve v := by
  unfold approxCurve CheckedSvg.approxCurve
  simp only [div_fin hv, round_asI32]
  by_cases h0 : Draw.round (fl (curve.length / v)) = 0
  · simp only [Num.round, Num.div, h0, Int.cast_zero, if_true]
    by_cases h1 : curve.length = 0
    · simp [h1] at h0 ⊢
      simp [h0, approxSteps, CheckedSvg.approxLoop, satI32, h1]
    · simp [h0, h1, approxSteps, CheckedSvg.approxLoop, satI32]
  · have : ((Draw.round (fl (curve.length / v)) : ℤ) : ℝ) ≠ 0 := by exact_mod_cast h0
    simp only [Num.round, div_fin this]
    rfl

theorem drawCurve_fin (c : Ctx) (start : Vec) (curve : Concat) {v : ℝ} (hv : v ≠ 0) :
    drawCurve fl e c start curve (.fin v) = CheckedSvg.drawCurve fl e c start curve v := by
  unfold drawCurve CheckedSvg.drawCurve
  simp only [mul_fin, gotoSpeed_fin, approxCurve_fin _ _ _ hv, vmul]

theorem flush_fin (s : Pen) {v : ℝ} (hv : v ≠ 0) : flush fl e (.fin v) s = CheckedSvg.flush fl e v s := by
  simp only [flush, CheckedSvg.flush, drawCurve_fin _ _ _ hv]

theorem step_fin (s : Pen) (seg : Seg) {v : ℝ} (hv : v ≠ 0) : step fl e (.fin v) s seg = CheckedSvg.step fl e v s seg := by
  have h1 : ∀ p, goTo fl e (.fin v) s p = CheckedSvg.goTo fl e v s p := fun p => by
    simp only [goTo, CheckedSvg.goTo, flush_fin _ hv]
  have h2 : ∀ k q, add fl e (.fin v) s k q = CheckedSvg.add fl e v s k q := fun k q => by
    simp only [add, CheckedSvg.add, flush_fin _ hv]
  cases seg <;> simp only [step, CheckedSvg.step, h1, h2]

theorem run_fin {v : ℝ} (hv : v ≠ 0) : ∀ (segs : List Seg) (s : Pen),
    run fl e (.fin v) segs s = CheckedSvg.run fl e v segs s
  | [], _ => rfl
  | seg :: segs, s => by
    simp only [run, CheckedSvg.run, step_fin _ _ hv, run_fin hv segs]

theorem drawCurves_fin (c : Ctx) (segs : List Seg) {v : ℝ} (hv : v ≠ 0) :
    drawCurves fl e c segs (.fin v) = CheckedSvg.drawCurves fl e c segs v := by
  simp only [drawCurves, CheckedSvg.drawCurves, drawPen, CheckedSvg.drawPen, run_fin hv, flush_fin _ hv]

theorem drawTimes_fin (path : List Seg) {v : ℝ} (hv : v ≠ 0) : ∀ (n : ℕ) (c : Ctx),
    drawTimes fl e path (.fin v) n c = CheckedSvg.drawTimes fl e path v n c
  | 0, _ => rfl
  | n + 1, c => by
    simp only [drawTimes, CheckedSvg.drawTimes, drawCurves_fin _ _ hv, drawTimes_fin path hv n]

theorem svgEvents_fin (aMax vMax : Axis → ℤ) (weight : ℤ) (path : List Seg) {v : ℝ} (hv : v ≠ 0) (n : ℕ) :
    svgEvents fl e aMax vMax weight path (.fin v) n = CheckedSvg.svgEvents fl e aMax vMax weight path v n := by
  simp only [svgEvents, CheckedSvg.svgEvents, drawTimes_fin path hv]

/-! ### Drawing speeds that are infinite or not a number -/

/-- Not a finite number. -/
def Wild (v : Num) : Prop := ∀ x, v ≠ .fin x

theorem mul_wild (x : ℝ) {v : Num} (h : Wild v) : Wild (.mul fl (.fin x) v) := by
  intro y
  cases v with
  | fin z => exact absurd rfl (h z)
  | inf b => simp only [Num.mul]; split <;> simp
  | nan => simp [Num.mul]

theorem wild_mul (x : ℝ) {v : Num} (h : Wild v) : Wild (.mul fl v (.fin x)) := by
  intro y
  cases v with
  | fin z => exact absurd rfl (h z)
  | inf b => simp only [Num.mul]; split <;> simp
  | nan => simp [Num.mul]

theorem wild_div (x : ℝ) {v : Num} (h : Wild v) : Wild (.div fl v (.fin x)) := by
  intro y
  cases v with
  | fin z => exact absurd rfl (h z)
  | inf b => simp [Num.div]
  | nan => simp [Num.div]

theorem toStepV_wild {v : Num} (h : Wild v) (i : Axis) : toStepV fl e v i = none := by
  unfold toStepV
  have := wild_mul (fl := fl) (Rounded.vScale fl e i) h
  split
  · next x hx => exact absurd hx (this x)
  · rfl

theorem drawCurve_wild (c : Ctx) (start : Vec) {curve : Concat} (hc : curve ≠ []) {v : Num} (h : Wild v) :
    drawCurve fl e c start curve v = none := by
  unfold drawCurve
  rw [if_neg (by simpa using hc)]
  simp only [gotoSpeed, toStepV_wild (mul_wild _ h), Option.bind_eq_bind, Option.bind_none]
  simp

theorem flush_wild {s : Pen} (hc : s.curves ≠ []) {v : Num} (h : Wild v) : flush fl e v s = none := by
  simp only [flush, drawCurve_wild _ _ hc h, Option.bind_eq_bind, Option.bind_none]

theorem run_wild {v : Num} (h : Wild v) : ∀ (segs : List Seg) (s : Pen),
    (s.curves ≠ [] ∨ ∃ seg ∈ segs, Rounded.Drawn seg) → (run fl e v segs s).bind (flush fl e v) = none := by
  intro segs
  induction segs with
  | nil =>
    rintro s (hs | ⟨_, hs, -⟩)
    · exact flush_wild hs h
    · simp at hs
  | cons seg segs ih =>
    intro s hs
    simp only [run, Option.bind_eq_bind]
    have hinfo : ∀ (o : Option (Curve × Vec)), ((o.bind fun x => add fl e v s x.1 x.2).bind fun s => run fl e v segs s).bind
        (flush fl e v) = none := by
      intro o
      cases o with
      | none => rfl
      | some x =>
        simp only [Option.bind_some, add, Option.bind_eq_bind, Option.pure_def]
        split
        · cases flush fl e v s with
          | none => rfl
          | some s' => exact ih _ (.inl (by simp [concatAdd]))
        · exact ih _ (.inl (by simp [concatAdd]))
    unfold step
    split
    · rename_i q
      have hs : s.curves ≠ [] ∨ ∃ seg ∈ segs, Rounded.Drawn seg := by
        rcases hs with hs | ⟨x, hx, hd⟩
        · exact .inl hs
        · rcases List.mem_cons.1 hx with rfl | hx
          · exact hd.elim
          · exact .inr ⟨x, hx, hd⟩
      simp only [goTo, Option.bind_eq_bind]
      cases atMachine fl e s q with
      | none => rfl
      | some b =>
        cases b with
        | true => exact ih _ hs
        | false =>
          simp only [Option.bind_some, Bool.false_eq_true, if_false, Option.pure_def]
          rcases hs with hs | hs
          · simp only [flush_wild hs h, Option.bind_none]
          · cases flush fl e v s with
            | none => rfl
            | some s' => exact ih _ (.inr hs)
    · have hs : s.curves ≠ [] ∨ ∃ seg ∈ segs, Rounded.Drawn seg := by
        rcases hs with hs | ⟨x, hx, hd⟩
        · exact .inl hs
        · rcases List.mem_cons.1 hx with rfl | hx
          · exact hd.elim
          · exact .inr ⟨x, hx, hd⟩
      split
      · exact ih _ hs
      · exact hinfo _
    · exact hinfo _

theorem drawCurves_wild {v : Num} (h : Wild v) (c : Ctx) {segs : List Seg} (hs : ∃ seg ∈ segs, Rounded.Drawn seg) :
    drawCurves fl e c segs v = none := by
  have : segs ≠ [] := by rintro rfl; simp at hs
  unfold drawCurves drawPen
  rw [if_neg (by simpa using this)]
  have := run_wild (fl := fl) (e := e) h segs (init fl e c) (.inr hs)
  simp only [Option.bind_eq_bind, this, Option.bind_none]

theorem svgEvents_wild {v : Num} (h : Wild v) (aMax vMax : Axis → ℤ) (weight : ℤ) {segs : List Seg}
    (hs : ∃ seg ∈ segs, Rounded.Drawn seg) {n : ℕ} (hn : n ≠ 0) : svgEvents fl e aMax vMax weight segs v n = none := by
  obtain ⟨n, rfl⟩ := Nat.exists_eq_succ_of_ne_zero hn
  simp only [svgEvents, drawTimes, drawCurves_wild h _ hs, Option.bind_eq_bind, Option.bind_none]

/-- If nothing is drawn, the speed does not matter. -/
theorem run_moves {v v' : Num} : ∀ (segs : List Seg) (s : Pen), s.curves = [] → (∀ seg ∈ segs, ∃ q, seg = .goTo q) →
    (run fl e v segs s).bind (flush fl e v) = (run fl e v' segs s).bind (flush fl e v') := by
  have fe : ∀ s : Pen, s.curves = [] → flush fl e v s = flush fl e v' s := by
    intro s h
    simp [flush, drawCurve, h]
  intro segs
  induction segs with
  | nil => intro s h _; exact fe s h
  | cons seg segs ih =>
    intro s h hm
    obtain ⟨q, rfl⟩ := hm seg (List.mem_cons_self ..)
    have hm' : ∀ seg ∈ segs, ∃ q, seg = .goTo q := fun x hx => hm x (List.mem_cons_of_mem _ hx)
    simp only [run, step, goTo, Option.bind_eq_bind]
    cases atMachine fl e s q with
    | none => rfl
    | some b =>
      cases b with
      | true => exact ih _ h hm'
      | false =>
        simp only [Option.bind_some, Bool.false_eq_true, if_false, Option.pure_def, fe s h]
        cases hf : flush fl e v' s with
        | none => rfl
        | some s' =>
          refine ih _ ?_ hm'
          simp only [flush, Option.bind_eq_bind, Option.bind_eq_some_iff, Option.pure_def, Option.some.injEq] at hf
          obtain ⟨_, -, rfl⟩ := hf
          rfl

theorem svgEvents_moves (v v' : Num) (aMax vMax : Axis → ℤ) (weight : ℤ) {segs : List Seg} (hm : ∀ seg ∈ segs, ∃ q, seg = .goTo q)
    (n : ℕ) : svgEvents fl e aMax vMax weight segs v n = svgEvents fl e aMax vMax weight segs v' n := by
  have hd : ∀ c, drawCurves fl e c segs v = drawCurves fl e c segs v' := by
    intro c
    have := run_moves (fl := fl) (e := e) (v := v) (v' := v') segs (init fl e c) rfl hm
    simp only [drawCurves, drawPen, Option.bind_eq_bind, this]
  have ht : ∀ n c, drawTimes fl e segs v n c = drawTimes fl e segs v' n c := by
    intro n
    induction n with
    | zero => intro c; rfl
    | succ n ih => intro c; simp only [drawTimes, hd, ih]
  simp only [svgEvents, ht]

end StepperPaths.Special
