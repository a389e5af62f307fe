import Verif.Model.Special
import Verif.Spec.Power
import Mathlib.Tactic.Ring

/-! No decision of `svg_path` depends on the power of the laser. -/

namespace StepperPaths.Power
open Coords Curves Context Control Spec IntegerCurve Rounded Config
open Draw (Pen Seg Approx accMax)
open Special (Num)

theorem bind_of {α β γ δ : Type} {x : Option α} {k : α → Option β} {x' : Option γ} {k' : γ → Option δ} (φ : α → γ) (ψ : β → δ)
    (h : x' = x.map φ) (hk : ∀ a, k' (φ a) = (k a).map ψ) : x'.bind k' = (x.bind k).map ψ := by
  subst h
  cases x
  · rfl
  · exact hk _

theorem bind_same {α β δ : Type} {x : Option α} {k : α → Option β} {k' : α → Option δ} (ψ : β → δ)
    (hk : ∀ a, k' a = (k a).map ψ) : x.bind k' = (x.bind k).map ψ := by
  cases x
  · rfl
  · exact hk _

variable (w : ℤ)

/-- The context with all weights multiplied by `w`. -/
def re (c : Ctx) : Ctx :=
  { c with events := c.events.map (withPower w), moveWeight := c.moveWeight * w, curveWeight := c.curveWeight * w }

variable {w}

theorem push_acc (c : Ctx) (t : ℕ) (i : Axis) (a : ℤ) : (re w c).push t (.acc i a) = (c.push t (.acc i a)).map (re w) := by
  unfold Ctx.push
  refine bind_same _ fun d => ?_
  simp [re, withPower]

theorem push_weight (c : Ctx) (t : ℕ) (x : ℤ) : (re w c).push t (.weight (x * w)) = (c.push t (.weight x)).map (re w) := by
  unfold Ctx.push
  refine bind_same _ fun d => ?_
  simp [re, withPower]

theorem setCh (c : Ctx) (i : Axis) (ch : Channel) : (re w c).setCh i ch = re w (c.setCh i ch) := rfl

theorem weightChange (c : Ctx) (x : ℤ) (t : ℕ) : (re w c).addWeightChange (x * w) t = (c.addWeightChange x t).map (re w) := by
  unfold Ctx.addWeightChange
  refine bind_same _ fun _ => bind_same _ fun _ => push_weight c t x

theorem accChannel (c : Ctx) (i : Axis) (acc : ℤ) (n : ℕ) : Checked.addAccChannel (re w c) i acc n = (Checked.addAccChannel c i acc n).map (re w) := by
  unfold Checked.addAccChannel
  exact bind_same _ fun _ => bind_same _ fun _ => bind_same _ fun _ => bind_of (re w) _ (push_acc c _ i acc) fun _ => rfl

theorem accInterval (c : Ctx) (x y : ℤ) (n : ℕ) : Checked.addAccInterval (re w c) x y n = (Checked.addAccInterval c x y n).map (re w) := by
  unfold Checked.addAccInterval
  refine bind_same _ fun _ => bind_of (re w) _ (accChannel c .x x n) fun c => bind_of (re w) _ (accChannel c .y y n) fun c => ?_
  exact bind_same _ fun _ => rfl

theorem takeSegment (c : Ctx) (i : Axis) (s : AccSegment) : (re w c).takeSegment i s = (c.takeSegment i s).map (re w) := by
  unfold Ctx.takeSegment
  exact bind_same _ fun _ => bind_of (re w) _ (push_acc c _ i _) fun _ => rfl

theorem segsToEvents : ∀ (n : ℕ) (sx sy : List AccSegment), sx.length + sy.length = n → ∀ c : Ctx,
    (re w c).accSegsToEvents sx sy = (c.accSegsToEvents sx sy).map (re w) := by
  intro n
  induction n with
  | zero =>
    intro sx sy h c
    obtain rfl : sx = [] := List.length_eq_zero_iff.1 (by omega)
    obtain rfl : sy = [] := List.length_eq_zero_iff.1 (by omega)
    simp [Ctx.accSegsToEvents]
  | succ n ih =>
    intro sx sy h c
    match sx, sy with
    | [], [] => simp at h
    | a :: sx, [] =>
      rw [Ctx.accSegsToEvents, Ctx.accSegsToEvents]
      exact bind_of (re w) _ (takeSegment c .x a) fun c => ih sx [] (by simp at h ⊢; omega) c
    | [], b :: sy =>
      rw [Ctx.accSegsToEvents, Ctx.accSegsToEvents]
      exact bind_of (re w) _ (takeSegment c .y b) fun c => ih [] sy (by simp at h ⊢; omega) c
    | a :: sx, b :: sy =>
      rw [Ctx.accSegsToEvents, Ctx.accSegsToEvents]
      have e : (re w c).channels = c.channels := rfl
      rw [e]
      split
      · exact bind_of (re w) _ (takeSegment c .y b) fun c => ih (a :: sx) sy (by simp at h ⊢; omega) c
      · exact bind_of (re w) _ (takeSegment c .x a) fun c => ih sx (b :: sy) (by simp at h ⊢; omega) c

theorem gotoChannel (c : Ctx) (i : Axis) (seq : List AccSegment) (v : ℤ) :
    Checked.gotoChannel (re w c) i seq v = (Checked.gotoChannel c i seq v).map (re w) := by
  unfold Checked.gotoChannel
  exact bind_same _ fun _ => bind_same _ fun _ => bind_same _ fun _ => rfl

theorem gotoFollow (c : Ctx) (sx sy : List AccSegment) (vx vy : ℤ) :
    Checked.gotoFollow (re w c) sx sy vx vy = (Checked.gotoFollow c sx sy vx vy).map (re w) := by
  unfold Checked.gotoFollow
  refine bind_of (re w) _ (gotoChannel c .x sx vx) fun c => bind_of (re w) _ (gotoChannel c .y sy vy) fun c => ?_
  refine bind_of (re w) _ (segsToEvents _ sx sy rfl ((c.setCh .x { c.channels .x with v := vx }).setCh .y
    { (c.setCh .x { c.channels .x with v := vx }).channels .y with v := vy })) fun c => ?_
  exact bind_same _ fun _ => rfl

theorem goto (c : Ctx) (x y vx vy : ℤ) : Checked.stepGotoSpeed (re w c) x y vx vy = (Checked.stepGotoSpeed c x y vx vy).map (re w) := by
  unfold Checked.stepGotoSpeed
  refine bind_same _ fun _ => bind_same _ fun _ => bind_of (re w) _ (push_weight c _ _) fun c => ?_
  refine bind_same _ fun _ => bind_same _ fun _ => bind_same _ fun seq => ?_
  split
  · exact gotoFollow c _ _ vx vy
  · rfl

theorem tick (c : Ctx) (x y : ℤ) : Checked.approxTick (re w c) x y = (Checked.approxTick c x y).map (re w) := by
  unfold Checked.approxTick
  exact bind_same _ fun _ => bind_same _ fun _ => accInterval c _ _ 1

theorem readEvents (c : Ctx) : (re w c).readEvents = (c.readEvents).map (re w) := by
  unfold Ctx.readEvents
  exact bind_same _ fun _ => bind_of (re w) _ (push_weight c _ _) fun c => bind_of (re w) _ (push_acc c _ _ _) fun c => push_acc c _ _ _

variable {fl : ℝ → ℝ} {e : Rounded.Env}

/-- The same for the loop of `approx_curve`. -/
def reA (w : ℤ) (s : Approx) : Approx := { s with ctx := re w s.ctx }

theorem pass (start : Vec) (curve : Curve) (v p : ℝ) (s : Approx) :
    CheckedSvg.approxPass fl e start curve v p (reA w s) = (CheckedSvg.approxPass fl e start curve v p s).map (reA w) := by
  unfold CheckedSvg.approxPass
  refine bind_same _ fun _ => bind_same _ fun _ => bind_of (re w) _ (tick s.ctx _ _) fun c => ?_
  exact bind_same _ fun _ => bind_same _ fun _ => rfl

theorem loop (start : Vec) (curve : Curve) (v l : ℝ) (n : ℕ) : ∀ (t : ℕ) (s : Approx),
    CheckedSvg.approxLoop fl e start curve v l t n (reA w s) = (CheckedSvg.approxLoop fl e start curve v l t n s).map (reA w) := by
  induction n with
  | zero => intro t s; rfl
  | succ n ih =>
    intro t s
    exact bind_of (reA w) _ (pass start curve v _ s) fun s => ih _ s

/-- A context and an error. -/
def reP (w : ℤ) (r : Ctx × (Axis → ℤ)) : Ctx × (Axis → ℤ) := (re w r.1, r.2)

theorem approx (c : Ctx) (start : Vec) (curve : Curve) (v : Num) :
    Special.approxCurve fl e (re w c) start curve v = (Special.approxCurve fl e c start curve v).map (reP w) := by
  unfold Special.approxCurve
  simp only
  split
  · exact bind_of (reA w) _ (loop start curve _ _ _ _ ⟨c, fun _ => 0, fun _ => 0⟩) fun _ => rfl
  · split <;> rfl

theorem gotoSpeed (c : Ctx) (x y : ℝ) (vx vy : Num) :
    Special.gotoSpeed fl e (re w c) x y vx vy = (Special.gotoSpeed fl e c x y vx vy).map (re w) := by
  unfold Special.gotoSpeed
  exact bind_same _ fun _ => bind_same _ fun _ => bind_same _ fun _ => bind_same _ fun _ => goto c _ _ _ _

theorem draw (c : Ctx) (start : Vec) (curve : Concat) (v : Num) :
    Special.drawCurve fl e (re w c) start curve v = (Special.drawCurve fl e c start curve v).map (reP w) := by
  unfold Special.drawCurve
  split
  · rfl
  · refine bind_of (re w) _ (weightChange c _ _) fun c => bind_of (re w) _ (gotoSpeed c _ _ _ _) fun c => ?_
    exact bind_of (re w) _ (weightChange c _ _) fun c => approx c start _ v

/-- The same for the loop of `draw_curves`. -/
def reS (w : ℤ) (s : Pen) : Pen := { s with ctx := re w s.ctx }

theorem flush (v : Num) (s : Pen) : Special.flush fl e v (reS w s) = (Special.flush fl e v s).map (reS w) := by
  unfold Special.flush
  exact bind_of (reP w) _ (draw s.ctx s.start s.curves v) fun _ => rfl

theorem goTo (v : Num) (s : Pen) (p : Vec) : Special.goTo fl e v (reS w s) p = (Special.goTo fl e v s p).map (reS w) := by
  unfold Special.goTo
  have h : atMachine fl e (reS w s) p = atMachine fl e s p := rfl
  rw [h]
  refine bind_same _ fun b => ?_
  cases b
  · simp only [Bool.false_eq_true, if_false]
    exact bind_of (reS w) _ (flush v s) fun _ => rfl
  · rfl

theorem add (v : Num) (s : Pen) (info : Curve) (next : Vec) :
    Special.add fl e v (reS w s) info next = (Special.add fl e v s info next).map (reS w) := by
  unfold Special.add
  have h : turns fl (reS w s) (info.value 0).2 = turns fl s (info.value 0).2 := rfl
  rw [h]
  by_cases ht : turns fl s (info.value 0).2
  · rw [if_pos ht, if_pos ht]
    refine bind_of (reS w) (reS w) ?_ fun _ => rfl
    rw [flush v s, Option.map_map, Option.map_map]
    rfl
  · rw [if_neg ht, if_neg ht]
    rfl

theorem step (v : Num) (s : Pen) (seg : Seg) : Special.step fl e v (reS w s) seg = (Special.step fl e v s seg).map (reS w) := by
  cases seg with
  | goTo p => exact goTo v s p
  | closeTo p =>
    simp only [Special.step]
    have h : (reS w s).current = s.current := rfl
    rw [h]
    split
    · rfl
    · exact bind_same (reS w) fun r : Curve × Vec => add v s r.1 r.2
  | lineTo p =>
    simp only [Special.step]
    exact bind_same (reS w) fun r : Curve × Vec => add v s r.1 r.2
  | curveTo p c1 c2 =>
    simp only [Special.step]
    exact bind_same (reS w) fun r : Curve × Vec => add v s r.1 r.2
  | arc rx ry a b r =>
    simp only [Special.step]
    exact bind_same (reS w) fun r : Curve × Vec => add v s r.1 r.2

theorem run (v : Num) (segs : List Seg) : ∀ s : Pen, Special.run fl e v segs (reS w s) = (Special.run fl e v segs s).map (reS w) := by
  induction segs with
  | nil => intro s; rfl
  | cons seg segs ih => intro s; exact bind_of (reS w) _ (step v s seg) ih

theorem curves (c : Ctx) (segs : List Seg) (v : Num) :
    Special.drawCurves fl e (re w c) segs v = (Special.drawCurves fl e c segs v).map (reP w) := by
  unfold Special.drawCurves
  split
  · rfl
  · have h : Special.drawPen fl e (re w c) segs v = (Special.drawPen fl e c segs v).map (reS w) := by
      unfold Special.drawPen
      exact bind_of (reS w) _ (run v segs (init fl e c)) fun s => flush v s
    refine bind_of (reS w) _ h fun s => ?_
    exact bind_of (re w) _ (weightChange s.ctx _ _) fun _ => rfl

theorem times (path : List Seg) (v : Num) (n : ℕ) : ∀ c : Ctx,
    Special.drawTimes fl e path v n (re w c) = (Special.drawTimes fl e path v n c).map (re w) := by
  induction n with
  | zero => intro c; rfl
  | succ n ih => intro c; exact bind_of (reP w) _ (curves c path v) fun r => ih r.1

/-- The whole motion. -/
theorem svg (aMax vMax : Axis → ℤ) (x : ℤ) (path : List Seg) (v : Num) (n : ℕ) :
    Special.svgEvents fl e aMax vMax (x * w) path v n = (Special.svgEvents fl e aMax vMax x path v n).map (re w) := by
  unfold Special.svgEvents
  have h : (Ctx.new aMax vMax).setWeight (x * w) = re w ((Ctx.new aMax vMax).setWeight x) := by
    simp [Ctx.new, Ctx.setWeight, re]
  simp only
  rw [h]
  refine bind_of (re w) _ (times path v n _) fun c => bind_of (re w) _ (goto c _ _ _ _) fun c => ?_
  exact bind_same _ fun _ => readEvents c

/-! ### What is played -/

theorem acc_after (i : Axis) (a : ℤ) (ev : Event) : accAfter i a (withPower w ev).cmd = accAfter i a ev.cmd := by
  obtain ⟨t, c⟩ := ev
  cases c <;> rfl

theorem with_ticks (ev : Event) : (withPower w ev).ticks = ev.ticks := by
  obtain ⟨t, c⟩ := ev
  cases c <;> rfl

theorem acc_from (i : Axis) (es : List Event) : ∀ (now : ℕ) (a : ℤ) (τ : ℕ),
    valueFrom (accAfter i) now a (es.map (withPower w)) τ = valueFrom (accAfter i) now a es τ := by
  induction es with
  | nil => intro now a τ; rfl
  | cons ev es ih =>
    intro now a τ
    simp only [List.map_cons, valueFrom, with_ticks, acc_after, ih]

theorem weight_from (es : List Event) : ∀ (now : ℕ) (x : ℤ) (τ : ℕ),
    valueFrom weightAfter now (x * w) (es.map (withPower w)) τ = valueFrom weightAfter now x es τ * w := by
  induction es with
  | nil => intro now a τ; rfl
  | cons ev es ih =>
    intro now x τ
    obtain ⟨t, c⟩ := ev
    cases c <;> simp only [List.map_cons, valueFrom, withPower, weightAfter, ih, ite_mul]

end StepperPaths.Power
