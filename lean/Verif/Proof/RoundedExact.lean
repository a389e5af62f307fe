import Verif.Model.Rounded

/-! The model with rounding, without rounding, is the model in exact arithmetic. -/

namespace StepperPaths.Rounded
open Coords Curves Context Draw

/-- The environment of the exact model. -/
noncomputable def exactEnv (e : Draw.Env) : Rounded.Env := ⟨e.stepScale, e.find, e.segInfo⟩

variable (e : Draw.Env)

theorem vadd_id : vadd id = (· + ·) := rfl
theorem vsub_id : vsub id = (· - ·) := rfl
theorem vmul_id : vmul id = (· * ·) := rfl
theorem vlength_id : vlength id = Vec.length := rfl
theorem vunit_id : vunit id = Vec.unit := rfl

theorem line_id (v : Vec) : line id v = (Line.new v).info := rfl

theorem concatAdd_id (c : Concat) (k : Curve) : concatAdd id c k = c.add k := rfl

theorem concatValue_id (c : Concat) (i : ℕ) (pos : ℝ) : concatValue id c i pos = c.valueAt i pos := rfl

theorem toSteps_id (x : ℝ) (i : Axis) : toSteps id (exactEnv e) x i = e.toSteps x i := rfl
theorem toStepV_id (x : ℝ) (i : Axis) : toStepV id (exactEnv e) x i = e.toStepV x i := rfl
theorem coordFromSteps_id (n : ℤ) (i : Axis) : coordFromSteps id (exactEnv e) n i = e.coordFromSteps n i := rfl

theorem gotoSpeed_id (c : Ctx) (x y vx vy : ℝ) : gotoSpeed id (exactEnv e) c x y vx vy = Draw.gotoSpeed e c x y vx vy := rfl

theorem wantedAcc_id (ch : Channel) (aMax : ℤ) (p v err : ℝ) : wantedAcc id ch aMax p v err = Draw.wantedAcc ch aMax p v err := by
  unfold wantedAcc Draw.wantedAcc
  rw [show (1 - 1 / 2 : ℝ) = 1 / 2 by norm_num]
  rfl

theorem approxPass_id (start : Vec) (curve : Curve) (v p : ℝ) (s : Approx) :
    approxPass id (exactEnv e) start curve v p s = Draw.approxPass e start curve v p s := by
  unfold approxPass Draw.approxPass
  simp only [wantedAcc_id]
  rfl

theorem approxLoop_id (start : Vec) (curve : Curve) (v len : ℝ) (t n : ℕ) (s : Approx) :
    approxLoop id (exactEnv e) start curve v len t n s = Draw.approxLoop e start curve v len t n s := by
  induction n generalizing t s with
  | zero => rfl
  | succ n ih =>
    rw [approxLoop, Draw.approxLoop, approxPass_id]
    simp only [ih]
    rfl

theorem approxCurve_id (c : Ctx) (start : Vec) (curve : Curve) (v : ℝ) :
    approxCurve id (exactEnv e) c start curve v = Draw.approxCurve e c start curve v := by
  unfold approxCurve Draw.approxCurve
  simp only [approxLoop_id]
  rfl

theorem segInfo_id (pos : Vec) (seg : Seg) : segInfo id (exactEnv e) pos seg = e.segInfo pos seg := by
  cases seg <;> rfl

theorem concatInfo_id (c : Concat) : concatInfo id (exactEnv e) c = e.concatInfo c := rfl

theorem drawCurve_id (c : Ctx) (start : Vec) (curve : Concat) (v : ℝ) :
    drawCurve id (exactEnv e) c start curve v = Draw.drawCurve e c start curve v := by
  unfold drawCurve Draw.drawCurve
  simp only [approxCurve_id]
  rfl

theorem flush_id (v : ℝ) (s : Pen) : flush id (exactEnv e) v s = s.flush e v := by
  unfold flush Pen.flush
  rw [drawCurve_id]

theorem goTo_id (v : ℝ) (s : Pen) (p : Vec) : goTo id (exactEnv e) v s p = s.goTo e v p := by
  unfold goTo Pen.goTo
  simp only [flush_id]
  rfl

theorem add_id (v : ℝ) (s : Pen) (info : Curve) (next : Vec) : add id (exactEnv e) v s info next = s.add e v info next := by
  unfold add Pen.add
  simp only [flush_id]
  rfl

theorem step_id (v : ℝ) (s : Pen) (seg : Seg) : step id (exactEnv e) v s seg = s.step e v seg := by
  cases seg
  case goTo p => exact goTo_id e v s p
  all_goals
    unfold step Pen.step
    simp only [add_id, segInfo_id]
    try rfl

theorem run_id (v : ℝ) (segs : List Seg) (s : Pen) : run id (exactEnv e) v segs s = s.run e v segs := by
  induction segs generalizing s with
  | nil => rfl
  | cons seg segs ih =>
    rw [run, Pen.run, step_id]
    simp only [ih]

/-- The two models agree. -/
theorem drawCurves_id (c : Ctx) (segs : List Seg) (v : ℝ) :
    drawCurves id (exactEnv e) c segs v = Draw.drawCurves e c segs v := by
  unfold drawCurves Draw.drawCurves drawPen Draw.drawPen
  simp only [run_id, flush_id]
  rfl

end StepperPaths.Rounded
