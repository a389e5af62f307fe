import Verif.Model.CheckedMotion
import Verif.Props.Checked
import Verif.Proof.DrawReturns

/-! The checked motion agrees with the unbounded one: always when it returns, and it returns under
bounds on positions and speeds. -/

namespace StepperPaths.Checked
open Coords Curves Context IntegerCurve Draw Spec Props

/-! ### What the checked functions return -/

theorem accDistanceFrom_le (segs : List AccSegment) (s v : Int) :
    Le (accDistanceFrom s v segs) (StepperPaths.accDistanceFrom s v segs) := by
  induction segs generalizing s v with
  | nil => exact Le.refl _
  | cons seg rest ih => exact Le.bind (Le.refl _) fun _ => Le.bind (Le.refl _) fun _ => Le.eval (ih _ _)

theorem accDistance_le (segs : List AccSegment) (v : Int) :
    Le (accDistance segs v) (StepperPaths.accDistance segs v) := accDistanceFrom_le segs 0 v

theorem addAccChannel_le (c : Ctx) (i : Axis) (acc : Int) (n : Nat) :
    Le (addAccChannel c i acc n) (c.addAccChannel i acc n) := Le.eval (Le.refl _)

theorem addAccInterval_le (c : Ctx) (ax ay : Int) (n : Nat) :
    Le (addAccInterval c ax ay n) (c.addAccInterval ax ay n) :=
  Le.bind (Le.refl _) fun _ => Le.bind (addAccChannel_le _ _ _ _) fun _ =>
    Le.bind (addAccChannel_le _ _ _ _) fun _ => Le.refl _

theorem limits_le (c : Ctx) (i : Axis) (x v : Int) : Le (limits c i x v) (some (c.limits i x v)) := Le.eval (Le.refl _)

theorem gotoChannel_le (c : Ctx) (i : Axis) (seq : List AccSegment) (v : Int) :
    Le (gotoChannel c i seq v) (c.gotoChannel i seq v) :=
  Le.bind (accDistance_le _ _) fun _ => Le.eval (Le.refl _)

theorem gotoFollow_le (c : Ctx) (sx sy : List AccSegment) (vx vy : Int) :
    Le (gotoFollow c sx sy vx vy) (c.gotoFollow sx sy vx vy) :=
  Le.bind (gotoChannel_le _ _ _ _) fun _ => Le.bind (gotoChannel_le _ _ _ _) fun _ => Le.refl _

theorem stepGotoSpeed_le (c : Ctx) (x y vx vy : Int) :
    Le (stepGotoSpeed c x y vx vy) (c.stepGotoSpeed x y vx vy) := by
  refine Le.bind (Le.refl _) fun _ => Le.bind (Le.refl _) fun _ => Le.bind (Le.refl _) fun c => ?_
  refine Le.step (limits_le c .x x vx) (Le.step (limits_le c .y y vy) ?_)
  refine Le.bind (shortestCurveSequences_le _) fun seq => ?_
  split
  · exact gotoFollow_le _ _ _ _ _
  · intro w hw
    cases hw

theorem speedChannel_le (ch : Channel) (a v : Int) :
    Le (speedChannel ch a v) (Context.speedChannel ch a v) := by
  refine Le.bind (Le.refl _) fun d => Le.bind (Le.refl _) fun t => Le.bind (Le.refl _) fun dt => ?_
  refine Le.bind (Le.refl _) fun a => Le.bind (Le.refl _) fun v2 => Le.bind (Le.refl _) fun dv => ?_
  refine Le.bind (Le.refl _) fun sum => Le.bind (Le.refl _) fun ds => Le.eval (Le.ite ?_ (Le.refl _))
  exact Le.bind (Le.refl _) fun vt => Le.bind (Le.refl _) fun ds => Le.eval (Le.refl _)

theorem speed_le (c : Ctx) (vx vy : Int) : Le (speed c vx vy) (c.speed vx vy) :=
  Le.bind (speedChannel_le _ _ _) fun _ => Le.bind (speedChannel_le _ _ _) fun _ => Le.refl _

theorem approxTick_le (c : Ctx) (ax ay : Int) : Le (approxTick c ax ay) (c.approxTick ax ay) :=
  Le.bind (Le.refl _) fun _ => Le.bind (Le.refl _) fun _ => addAccInterval_le _ _ _ _

/-- The same result up to the reported errors. -/
def LeUp {α : Type} (r : α → α → Prop) (o p : Option α) : Prop := ∀ w, o = some w → ∃ w', p = some w' ∧ r w w'

theorem LeUp.bind {α β : Type} {r : α → α → Prop} {q : β → β → Prop} {o p : Option α} {f g : α → Option β}
    (h : LeUp r o p) (k : ∀ x y, r x y → LeUp q (f x) (g y)) : LeUp q (o >>= f) (p >>= g) := by
  intro w hw
  obtain ⟨x, h1, h2⟩ := Option.bind_eq_some_iff.1 hw
  obtain ⟨y, h3, h4⟩ := h x h1
  obtain ⟨w', h5, h6⟩ := k x y h4 w h2
  exact ⟨w', Option.bind_eq_some_iff.2 ⟨y, h3, h5⟩, h6⟩

theorem Le.up {α : Type} {o p : Option α} (h : Le o p) : LeUp Eq o p := fun w hw => ⟨w, h w hw, rfl⟩

theorem LeUp.skip {α β : Type} {q : β → β → Prop} {o : Option α} {f : α → Option β} {p : Option β}
    (k : ∀ x, LeUp q (f x) p) : LeUp q (o >>= f) p := by
  intro w hw
  obtain ⟨x, -, h2⟩ := Option.bind_eq_some_iff.1 hw
  exact k x w h2

theorem LeUp.pure {α : Type} {r : α → α → Prop} {x y : α} (h : r x y) : LeUp r (some x) (some y) := by
  rintro w ⟨⟩
  exact ⟨y, rfl, h⟩

def SameA (s s' : Approx) : Prop := s.ctx = s'.ctx ∧ s.err = s'.err
def SameC (s s' : Ctx × (Axis → ℤ)) : Prop := s.1 = s'.1
def SameP (s s' : Pen) : Prop := s' = { s with maxErr := s'.maxErr }

theorem approxPass_le {e : Env} {start : Vec} {curve : Curve} {v p : ℝ} {s s' : Approx} (h : SameA s s') :
    LeUp SameA (approxPass e start curve v p s) (Draw.approxPass e start curve v p s') := by
  obtain ⟨c, er, m⟩ := s
  obtain ⟨c', er', m'⟩ := s'
  obtain ⟨h1, h2⟩ := h
  cases h1
  cases h2
  refine LeUp.skip fun _ => LeUp.skip fun _ => LeUp.bind (approxTick_le _ _ _).up ?_
  rintro x _ rfl
  exact LeUp.skip fun _ => LeUp.skip fun _ => LeUp.pure ⟨rfl, rfl⟩

theorem approxLoop_le {e : Env} {start : Vec} {curve : Curve} {v l : ℝ} (n t : ℕ) {s s' : Approx} (h : SameA s s') :
    LeUp SameA (approxLoop e start curve v l t n s) (Draw.approxLoop e start curve v l t n s') := by
  induction n generalizing t s s' with
  | zero => exact LeUp.pure h
  | succ n ih => exact LeUp.bind (approxPass_le h) fun _ _ k => ih _ k

theorem approxCurve_le (e : Env) (c : Ctx) (start : Vec) (curve : Curve) (v : ℝ) :
    LeUp SameC (approxCurve e c start curve v) (Draw.approxCurve e c start curve v) :=
  LeUp.bind (approxLoop_le _ _ ⟨rfl, rfl⟩) fun _ _ h => LeUp.pure h.1

theorem gotoSpeed_le (e : Env) (c : Ctx) (x y vx vy : ℝ) :
    Le (gotoSpeed e c x y vx vy) (Draw.gotoSpeed e c x y vx vy) :=
  Le.bind (Le.refl _) fun _ => Le.bind (Le.refl _) fun _ => Le.bind (Le.refl _) fun _ =>
    Le.bind (Le.refl _) fun _ => stepGotoSpeed_le _ _ _ _ _

theorem drawCurve_le (e : Env) (c : Ctx) (start : Vec) (curve : Concat) (v : ℝ) :
    LeUp SameC (drawCurve e c start curve v) (Draw.drawCurve e c start curve v) := by
  unfold drawCurve Draw.drawCurve
  split
  · exact LeUp.pure rfl
  · refine LeUp.bind (Le.refl _).up ?_
    rintro c _ rfl
    refine LeUp.bind (gotoSpeed_le _ _ _ _ _ _).up ?_
    rintro c _ rfl
    refine LeUp.bind (Le.refl _).up ?_
    rintro c _ rfl
    exact approxCurve_le _ _ _ _ _

theorem flush_le {e : Env} {v : ℝ} {s s' : Pen} (h : SameP s s') :
    LeUp SameP (flush e v s) (s'.flush e v) := by
  obtain ⟨m, rfl⟩ : ∃ m, s' = { s with maxErr := m } := ⟨_, h⟩
  refine LeUp.bind (drawCurve_le _ _ _ _ _) ?_
  rintro ⟨c, e1⟩ ⟨c', e2⟩ h
  obtain rfl : c = c' := h
  exact LeUp.pure rfl

theorem penGoTo_le {e : Env} {v : ℝ} {s s' : Pen} (p : Vec) (h : SameP s s') :
    LeUp SameP (penGoTo e v s p) (s'.goTo e v p) := by
  have hf := flush_le (e := e) (v := v) h
  obtain ⟨m, rfl⟩ : ∃ m, s' = { s with maxErr := m } := ⟨_, h⟩
  refine LeUp.bind (Le.refl (s.atMachine e p)).up ?_
  rintro b _ rfl
  split
  · exact LeUp.pure rfl
  · refine LeUp.bind hf ?_
    intro x y h
    obtain ⟨m, rfl⟩ : ∃ m, y = { x with maxErr := m } := ⟨_, h⟩
    exact LeUp.pure rfl

open Classical in
theorem penAdd_le {e : Env} {v : ℝ} {s s' : Pen} (k : Curve) (q : Vec) (h : SameP s s') :
    LeUp SameP (penAdd e v s k q) (s'.add e v k q) := by
  have hf := flush_le (e := e) (v := v) h
  obtain ⟨m, rfl⟩ : ∃ m, s' = { s with maxErr := m } := ⟨_, h⟩
  have fin : ∀ x y : Pen, SameP x y → LeUp SameP
      (some { x with current := q, prevDir := some (k.value k.length).2, curves := x.curves.add k })
      (some { y with current := q, prevDir := some (k.value k.length).2, curves := y.curves.add k }) := by
    intro x y h
    obtain ⟨m, rfl⟩ : ∃ m, y = { x with maxErr := m } := ⟨_, h⟩
    exact LeUp.pure rfl
  unfold penAdd Pen.add
  by_cases ht : s.turns (k.value 0).2
  · rw [if_pos ht, if_pos (show Pen.turns { s with maxErr := m } (k.value 0).2 from ht)]
    refine LeUp.bind (r := SameP) ?_ fin
    intro w hw
    obtain ⟨x, h1, rfl⟩ := Option.map_eq_some_iff.1 hw
    obtain ⟨y, h3, h4⟩ := hf x h1
    obtain ⟨m', rfl⟩ : ∃ m, y = { x with maxErr := m } := ⟨_, h4⟩
    exact ⟨_, Option.map_eq_some_iff.2 ⟨_, h3, rfl⟩, rfl⟩
  · rw [if_neg ht, if_neg (show ¬Pen.turns { s with maxErr := m } (k.value 0).2 from ht)]
    exact fin _ _ rfl

open Classical in
theorem penStep_le {e : Env} {v : ℝ} {s s' : Pen} (seg : Seg) (h : SameP s s') :
    LeUp SameP (penStep e v s seg) (s'.step e v seg) := by
  have hc : s'.current = s.current := by rw [show s' = _ from h]
  have hl : ∀ seg : Seg, LeUp SameP ((e.segInfo s.current seg) >>= fun x => penAdd e v s x.1 x.2)
      ((e.segInfo s'.current seg) >>= fun x => s'.add e v x.1 x.2) := by
    intro seg
    rw [hc]
    refine LeUp.bind (Le.refl _).up ?_
    rintro x _ rfl
    exact penAdd_le _ _ h
  cases seg with
  | goTo p => exact penGoTo_le p h
  | closeTo p =>
    simp only [penStep, Pen.step]
    rw [hc]
    split
    · refine LeUp.pure ?_
      rw [show s' = _ from h]
      rfl
    · have := hl (.closeTo p)
      rw [hc] at this
      exact this
  | lineTo p => exact hl _
  | curveTo p c1 c2 => exact hl _
  | arc a b c d r => exact hl _

theorem penRun_le {e : Env} {v : ℝ} (segs : List Seg) {s s' : Pen} (h : SameP s s') :
    LeUp SameP (penRun e v segs s) (s'.run e v segs) := by
  induction segs generalizing s s' with
  | nil => exact LeUp.pure h
  | cons seg segs ih => exact LeUp.bind (penStep_le seg h) fun _ _ k => ih k

theorem drawPen_le (e : Env) (c : Ctx) (segs : List Seg) (v : ℝ) :
    LeUp SameP (drawPen e c segs v) (Draw.drawPen e c segs v) :=
  LeUp.bind (penRun_le segs rfl) fun _ _ h => flush_le h

theorem drawCurves_le (e : Env) (c : Ctx) (segs : List Seg) (v : ℝ) :
    LeUp SameC (drawCurves e c segs v) (Draw.drawCurves e c segs v) := by
  unfold drawCurves Draw.drawCurves
  split
  · exact LeUp.pure rfl
  · refine LeUp.bind (drawPen_le _ _ _ _) fun x y h => ?_
    obtain ⟨m, rfl⟩ : ∃ m, y = { x with maxErr := m } := ⟨_, h⟩
    refine LeUp.bind (Le.refl (x.ctx.addWeightChange x.ctx.moveWeight (x.ctx.channels .x).ticks)).up ?_
    rintro c _ rfl
    exact LeUp.pure rfl

/-! ### No overflow -/

theorem toI32_eq {x y : Int} (h : toI32 x = some y) : y = x := by
  unfold toI32 at h
  split at h <;> simp_all

theorem accDistanceFrom_ge {V : Int} (segs : List AccSegment) (s v : Int) (hv : |v| ≤ V)
    (hm : ∀ x ∈ vels v (expand segs), |x| ≤ V) (hs : |s| + 2 * V * (expand segs).length ≤ 2 ^ 61) :
    Le (StepperPaths.accDistanceFrom s v segs) (accDistanceFrom s v segs) := by
  induction segs generalizing s v with
  | nil => exact Le.refl _
  | cons seg rest ih =>
    refine Ge.bind (Le.refl _) fun w hw => Ge.bind (Le.refl _) fun z hz => ?_
    have ew := toI32_eq hw
    have ez := toI32_eq hz
    rw [expand_cons, List.length_append, List.length_replicate] at hs
    rw [expand_cons, vels_append, endVel_replicate, ← ew] at hm
    have hw' : |w| ≤ V := by
      by_cases h0 : seg.interval = 0
      · rw [ew, h0]
        simpa using hv
      · apply hm w
        refine List.mem_append_left _ ?_
        have := endVel_take_mem v (List.replicate seg.interval seg.acc) (k := seg.interval) (by omega) (by simp)
        rw [List.take_of_length_le (by simp), endVel_replicate, ← ew] at this
        exact this
    have hz' : |z| ≤ 2 * V := by
      rw [ez]
      have := abs_add_le v w
      omega
    have hV0 : 0 ≤ V := (abs_nonneg v).trans hv
    have hp : |z * (seg.interval : Int)| ≤ 2 * V * seg.interval := by
      rw [abs_mul, Nat.abs_cast]
      exact mul_le_mul_of_nonneg_right hz' (by positivity)
    have hl : (0 : Int) ≤ 2 * V * (expand rest).length := by positivity
    push_cast at hs
    rw [mul_add] at hs
    have hi : (seg.interval : Int) ≤ 2 ^ 61 ∨ z = 0 := by
      by_cases hz0 : z = 0
      · exact .inr hz0
      · left
        have : 1 ≤ |z| := Int.one_le_abs hz0
        have h2 : 1 * (seg.interval : Int) ≤ 2 * V * seg.interval :=
          mul_le_mul_of_nonneg_right (this.trans hz') (by positivity)
        have := abs_nonneg s
        omega
    have e1 : (some z *? some (seg.interval : Int)) = some (z * seg.interval) := by
      refine ck_eq ?_
      have := abs_nonneg s
      refine lt_of_le_of_lt hp ?_
      clear hi hm ih hw hz ew ez
      norm_num at hs ⊢
      linarith
    have e2 : (some s +? some z *? some (seg.interval : Int)) = some (s + z * seg.interval) := by
      rw [e1]
      refine ck_eq ?_
      have := abs_add_le s (z * seg.interval)
      norm_num at *
      omega
    refine Ge.step e2 (ih _ _ hw' (fun x hx => hm x (List.mem_append_right _ hx)) ?_)
    have := abs_add_le s (z * seg.interval)
    omega

/-- The sequences for limits of this size are not longer than 2^18 ticks. -/
theorem sequences_short {ls : List PathLimits} (hne : ls ≠ []) (h : ∀ l ∈ ls, Bounded l) {seqs : List (List AccSegment)}
    (hs : IntegerCurve.shortestCurveSequences ls = some seqs) :
    List.Forall₂ (fun l s => (expand s).length ≤ 2 ^ 18 ∧ ∀ x ∈ vels l.v0 (expand s), |x| ≤ l.vmax) ls seqs := by
  obtain ⟨T, e, h1, -, hc, -⟩ := sequences_T hne (fun l hl => (h l hl).valid)
  rw [hs] at e
  have f := mapM_some_forall₂ e.symm
  have key : ∀ l ∈ ls, ∀ segs, (do
      let path ← IntegerCurve.adjustCurve T l.ds l.v0 l.vn l.a
      path.accSeq) = some segs →
      (expand segs).length ≤ 2 ^ 18 ∧ ∀ x ∈ vels l.v0 (expand segs), |x| ≤ l.vmax := by
    intro l hl segs hs
    obtain ⟨s1, s2⟩ := hc l hl
    obtain ⟨t1, p, d, k, q1, q2, q3, q4, q5, q6, q7, q8, q9, q10, q11, _⟩ := accepted (h l hl).valid s1 s2
    rw [q1] at hs
    obtain ⟨e1, c1⟩ := q11 segs hs
    subst e1
    refine ⟨?_, q10.vel⟩
    have : T ≤ 2 ^ 18 := by
      by_cases h3 : 1 < p.tTotal
      · have := (accSeq_bounds hs (by rw [q4]; exact (h l hl).a1) h3).1
        omega
      · omega
    omega
  clear e hs hne hc h
  induction f with
  | nil => exact .nil
  | cons hx _ ih => exact .cons (key _ (by simp) _ hx) (ih (fun l hl => key l (by simp [hl])))

theorem dist_bound {v V : Int} {l : List Int} (hv : |v| ≤ V) (hm : ∀ x ∈ vels v l, |x| ≤ V) :
    |Spec.dist v l| ≤ 2 * V * l.length := by
  induction l generalizing v with
  | nil => simp [Spec.dist]
  | cons a l ih =>
    simp only [vels, List.mem_cons, forall_eq_or_imp] at hm
    have h1 := ih hm.1 hm.2
    have h2 := abs_add_le (v + (v + a)) (dist (v + a) l)
    have h3 := abs_add_le v (v + a)
    simp only [Spec.dist, List.length_cons]
    push_cast
    linarith [hm.1]

theorem gotoChannel_ge {c : Ctx} {i : Axis} {seq : List AccSegment} {vEnd V : Int} (hV : V ≤ 2 ^ 27)
    (hv : |(c.channels i).v| ≤ V) (hl : (expand seq).length ≤ 2 ^ 18)
    (hm : ∀ x ∈ vels (c.channels i).v (expand seq), |x| ≤ V) (hp : |(c.channels i).pos| ≤ 2 ^ 61) :
    Le (c.gotoChannel i seq vEnd) (gotoChannel c i seq vEnd) := by
  have hV0 : 0 ≤ V := (abs_nonneg _).trans hv
  have hVl : V * (expand seq).length ≤ 2 ^ 27 * 2 ^ 18 :=
    mul_le_mul hV (by exact_mod_cast hl) (by positivity) (by norm_num)
  refine Ge.bind (accDistanceFrom_ge seq 0 _ hv hm (by norm_num at *; linarith)) ?_
  rintro ⟨d, w⟩ hd
  obtain ⟨e1, -⟩ := accDistanceFrom_some hd
  have hb : |d| ≤ 2 ^ 46 := by
    rw [e1, zero_add]
    have := dist_bound (v := (c.channels i).v) (V := V) hv hm
    norm_num at *
    linarith
  have _ : Mag d (2 ^ 46) := ⟨by exact_mod_cast hb⟩
  have _ : Mag (c.channels i).pos (2 ^ 61) := ⟨by exact_mod_cast hp⟩
  exact Ge.eval (by norm_num) (Le.refl _)

theorem stepGotoSpeed_ge {c : Ctx} {x y vx vy : Int} (hx : FitsI64 (c.limits .x x vx)) (hy : FitsI64 (c.limits .y y vy))
    (hp : ∀ i, |(c.channels i).pos| ≤ 2 ^ 61) (h1 : |x| ≤ 2 ^ 61) (h2 : |y| ≤ 2 ^ 61) :
    Le (c.stepGotoSpeed x y vx vy) (stepGotoSpeed c x y vx vy) := by
  refine Ge.bind (Le.refl _) fun _ _ => Ge.bind (Le.refl _) fun _ _ => Ge.bind (Le.refl _) fun c1 hc1 => ?_
  obtain ⟨-, hc1⟩ := push_eq hc1
  have hch : c1.channels = c.channels := by rw [hc1]
  have hlim : ∀ i t v, c1.limits i t v = c.limits i t v := by
    intro i t v
    rw [hc1]
    rfl
  have lim : ∀ i t v, |t| ≤ 2 ^ 61 → limits c1 i t v = some (c.limits i t v) := by
    intro i t v ht
    have _ : Mag t (2 ^ 61) := ⟨by exact_mod_cast ht⟩
    have _ : Mag (c1.channels i).pos (2 ^ 61) := ⟨by rw [hch]; exact_mod_cast hp i⟩
    unfold limits
    rw [bind_eval _ (by norm_num), ← hlim]
    rfl
  refine Ge.step (lim .x x vx h1) (Ge.step (lim .y y vy h2) ?_)
  rw [hlim, hlim]
  have fit : ∀ l ∈ [c.limits .x x vx, c.limits .y y vy], FitsI64 l := by
    intro l hl
    simp only [List.mem_cons, List.not_mem_nil, or_false] at hl
    rcases hl with rfl | rfl
    · exact hx
    · exact hy
  refine Ge.bind (by rw [C87_no_overflow _ fit]; exact Le.refl _) fun seq hseq => ?_
  have short := sequences_short (by simp) (fun l hl => (fit l hl).bounded) hseq
  split
  · rename_i sx sy
    obtain _ | ⟨⟨lx, vx'⟩, _ | ⟨⟨ly, vy'⟩, _⟩⟩ := short
    refine Ge.bind (gotoChannel_ge hx.v_max (by rw [hch]; exact hx.start) lx (by rw [hch]; exact vx')
      (by rw [hch]; exact hp .x)) fun c2 hc2 => ?_
    have hy2 : c2.channels .y = c.channels .y := by
      obtain ⟨d, -, hc2⟩ := Option.bind_eq_some_iff.1 hc2
      have := (cassert_bind.1 hc2).2
      cases this
      simp [Ctx.setCh, hch]
    exact Ge.bind (gotoChannel_ge hy.v_max (by rw [hy2]; exact hy.start) ly (by rw [hy2]; exact vy')
      (by rw [hy2]; exact hp .y)) fun _ _ => Le.refl _
  · intro w hw
    cases hw

/-! ### Curves -/

theorem addAccChannel_ge {c : Ctx} {i : Axis} {acc : Int} {n : ℕ} (hn : n ≤ 2 ^ 23) (hp : |(c.channels i).pos| ≤ 2 ^ 62)
    (hv : |(c.channels i).v| ≤ 2 ^ 31) (ha : |acc| ≤ 2 ^ 15) :
    Le (c.addAccChannel i acc n) (addAccChannel c i acc n) := by
  have _ : Mag acc (2 ^ 15) := ⟨by exact_mod_cast ha⟩
  have _ : Mag (n : Int) (2 ^ 23) := ⟨by rw [Nat.abs_cast]; exact_mod_cast hn⟩
  have _ : Mag (c.channels i).pos (2 ^ 62) := ⟨by exact_mod_cast hp⟩
  have _ : Mag (c.channels i).v (2 ^ 31) := ⟨by exact_mod_cast hv⟩
  exact Ge.eval (by norm_num) (Le.refl _)

theorem addAccChannel_other {c c1 : Ctx} {acc : Int} {n : ℕ} (h : c.addAccChannel .x acc n = some c1) :
    c1.channels .y = c.channels .y := by
  obtain ⟨d, -, hc1⟩ := Option.bind_eq_some_iff.1 h
  obtain ⟨v, -, hc1⟩ := Option.bind_eq_some_iff.1 hc1
  obtain ⟨c2, h2, hc1⟩ := Option.bind_eq_some_iff.1 hc1
  obtain ⟨-, e⟩ := push_eq h2
  cases hc1
  simp [Ctx.setCh, e]

theorem addAccInterval_ge {c : Ctx} {ax ay : Int} {n : ℕ} (hn : n ≤ 2 ^ 23) (hp : ∀ i, |(c.channels i).pos| ≤ 2 ^ 62)
    (hv : ∀ i, |(c.channels i).v| ≤ 2 ^ 31) (hx : |ax| ≤ 2 ^ 15) (hy : |ay| ≤ 2 ^ 15) :
    Le (c.addAccInterval ax ay n) (addAccInterval c ax ay n) := by
  refine Ge.bind (Le.refl _) fun _ _ => Ge.bind (addAccChannel_ge hn (hp .x) (hv .x) hx) fun c1 hc1 => ?_
  have e := addAccChannel_other hc1
  exact Ge.bind (addAccChannel_ge hn (by rw [e]; exact hp .y) (by rw [e]; exact hv .y) hy) fun _ _ => Le.refl _

theorem toI32_mag {x y : Int} (h : toI32 x = some y) : Mag y (2 ^ 31) := by
  constructor
  unfold toI32 at h
  split at h
  · cases h
    rw [abs_le]
    push_cast
    omega
  · cases h

theorem speedChannel_ge {ch : Channel} {a v : Int} (hp : |ch.pos| ≤ 2 ^ 61) :
    Le (Context.speedChannel ch a v) (speedChannel ch a v) := by
  have _ : Mag ch.pos (2 ^ 61) := ⟨by exact_mod_cast hp⟩
  refine Ge.bind (Le.refl _) fun d _ => Ge.bind (Le.refl _) fun t _ => Ge.bind (Le.refl _) fun dt _ => ?_
  refine Ge.bind (Le.refl _) fun a _ => Ge.bind (Le.refl _) fun v2 _ => Ge.bind (Le.refl _) fun dv _ => ?_
  refine Ge.bind (Le.refl _) fun sum _ => Ge.bind (Le.refl _) fun ds hds => ?_
  have _ := toI32_mag hds
  refine Ge.eval (by norm_num) (Ge.ite (fun _ => ?_) fun _ => Le.refl _)
  refine Ge.bind (Le.refl _) fun vt _ => Ge.bind (Le.refl _) fun ds hds => ?_
  have _ := toI32_mag hds
  exact Ge.eval (by norm_num) (Le.refl _)

theorem speed_ge {c : Ctx} {vx vy : Int} (hp : ∀ i, |(c.channels i).pos| ≤ 2 ^ 61) :
    Le (c.speed vx vy) (speed c vx vy) :=
  Ge.bind (speedChannel_ge (hp .x)) fun _ _ => Ge.bind (speedChannel_ge (hp .y)) fun _ _ => Le.refl _

theorem approxTick_ge {c : Ctx} {ax ay : Int} (hx : -32768 ≤ ax ∧ ax ≤ 32767) (hy : -32768 ≤ ay ∧ ay ≤ 32767)
    (hv : ∀ i, |(c.channels i).v| ≤ c.vMax i) (hm : ∀ i, c.vMax i ≤ 2 ^ 30)
    (hp : ∀ i, |(c.channels i).pos| ≤ 2 ^ 62) :
    Le (c.approxTick ax ay) (approxTick c ax ay) := by
  refine Ge.bind (Le.refl _) fun a ha => Ge.bind (Le.refl _) fun b hb => ?_
  obtain ⟨-, x2, -⟩ := limitSpeed_spec (hv .x) hx.1 hx.2 ha
  obtain ⟨-, y2, -⟩ := limitSpeed_spec (hv .y) hy.1 hy.2 hb
  exact addAccInterval_ge (by norm_num) hp (fun i => ((hv i).trans (hm i)).trans (by norm_num))
    (x2.trans (by rw [abs_le]; omega)) (y2.trans (by rw [abs_le]; omega))

theorem passErr_eq {ch : Channel} {x : ℝ} (hp : |ch.pos| ≤ 2 ^ 62) (hx : |ch.pos - trunc x| ≤ 2 ^ 60) :
    passErr ch x = some |ch.pos - trunc x| := by
  have ht : |trunc x| ≤ 2 ^ 62 + 2 ^ 60 := by
    rw [abs_le] at *
    constructor <;> linarith [hp.1, hp.2, hx.1, hx.2]
  have hs : satI64 (trunc x) = trunc x := by
    rw [abs_le] at ht
    unfold satI64
    norm_num at ht
    rw [if_neg (by omega), if_neg (by omega)]
  have e1 : (some ch.pos -? some (trunc x)) = some (ch.pos - trunc x) :=
    ck_eq (hx.trans_lt (by norm_num))
  unfold passErr
  rw [hs, e1]
  have _ : Mag (ch.pos - trunc x) (2 ^ 60) := ⟨by exact_mod_cast hx⟩
  exact eval (by norm_num)

/-- One pass: no overflow, and the position changes by at most twice the greatest speed. -/
theorem approxPass_ge {e : Env} {start : Vec} {curve : Curve} {v p : ℝ} {s : Approx} (hn : Context.Near s.ctx)
    (hv : ∀ i, |(s.ctx.channels i).v| ≤ s.ctx.vMax i) (hm : ∀ i, s.ctx.vMax i ≤ 2 ^ 30)
    (hp : ∀ i, |(s.ctx.channels i).pos| ≤ 2 ^ 61) {s' : Approx} (h : Draw.approxPass e start curve v p s = some s') :
    ((∀ i, s'.maxErr i ≤ 2 ^ 60) → approxPass e start curve v p s = some s') ∧
      Context.Near s'.ctx ∧ s'.ctx.vMax = s.ctx.vMax ∧ (∀ i, |(s'.ctx.channels i).v| ≤ s'.ctx.vMax i) ∧
      ∀ i, |(s'.ctx.channels i).pos| ≤ |(s.ctx.channels i).pos| + 2 * s.ctx.vMax i := by
  have spec : ∀ {c' : Ctx} {ax ay : Int}, (-32768 ≤ ax ∧ ax ≤ 32767) → (-32768 ≤ ay ∧ ay ≤ 32767) →
      s.ctx.approxTick ax ay = some c' → Context.Near c' ∧ c'.vMax = s.ctx.vMax ∧
        (∀ i, |(c'.channels i).v| ≤ c'.vMax i) ∧
        ∀ i, |(c'.channels i).pos| ≤ |(s.ctx.channels i).pos| + 2 * s.ctx.vMax i := by
    intro c' ax ay hax hay hc
    obtain ⟨a, b, ha, hb, hc⟩ := approxTick_eq hc
    obtain ⟨x1, -, -⟩ := limitSpeed_spec (hv .x) hax.1 hax.2 ha
    obtain ⟨y1, -, -⟩ := limitSpeed_spec (hv .y) hay.1 hay.2 hb
    obtain ⟨M, -⟩ := addAccInterval_spec hn (by norm_num) hc
    have hvel : ∀ i, |(s.ctx.channels i).v + both a b i| ≤ s.ctx.vMax i := by
      intro i; cases i
      · exact x1
      · exact y1
    refine ⟨M.near, M.vMax, fun i => ?_, fun i => ?_⟩
    · rw [M.vMax, M.ch i]
      simpa [endVel] using hvel i
    · rw [M.ch i]
      simp only [List.replicate_one, Spec.dist, add_zero]
      have h1 := hvel i
      have h2 := hv i
      rw [abs_le] at h1 h2
      rw [abs_le]
      have h3 := neg_abs_le (s.ctx.channels i).pos
      have h4 := le_abs_self (s.ctx.channels i).pos
      constructor <;> linarith
  have wb : ∀ ch a sp sv er, -32768 ≤ wantedAcc ch a sp sv er ∧ wantedAcc ch a sp sv er ≤ 32767 :=
    fun _ _ _ _ _ => (satI16_abs _).2
  refine ⟨fun he => ?_, spec (wb _ _ _ _ _) (wb _ _ _ _ _) (approxPass_eq h).1⟩
  · have ah : ∀ i, ∃ z, ahead (s.ctx.channels i) = some z := by
      intro i
      have _ : Mag (s.ctx.channels i).pos (2 ^ 61) := ⟨by exact_mod_cast hp i⟩
      have _ : Mag (s.ctx.channels i).v (2 ^ 30) := ⟨by exact_mod_cast (hv i).trans (hm i)⟩
      unfold ahead
      exact ⟨_, eval (by norm_num)⟩
    obtain ⟨zx, ax⟩ := ah .x
    obtain ⟨zy, ay⟩ := ah .y
    obtain ⟨c, hc, h⟩ := Option.bind_eq_some_iff.1 h
    obtain ⟨-, -, -, q⟩ := spec (wb _ _ _ _ _) (wb _ _ _ _ _) hc
    have hp' : ∀ i, |(c.channels i).pos| ≤ 2 ^ 62 := by
      intro i
      have h1 := q i
      have h2 := hp i
      have h3 := hm i
      norm_num at h1 h2 h3 ⊢
      linarith
    cases h
    have hx : ∀ i, |(c.channels i).pos - trunc (e.stepPos start (curve.value p).1 i)| ≤ 2 ^ 60 := fun i =>
      (le_max_right _ _).trans ((accMax_eq _ _).symm.le.trans (he i))
    unfold approxPass
    simp only [ax, ay, Option.bind_eq_bind, Option.bind_some, passErr_eq (hp' .x) (hx .x),
      passErr_eq (hp' .y) (hx .y), approxTick_ge (wb _ _ _ _ _) (wb _ _ _ _ _) hv hm
      (fun i => (hp i).trans (by norm_num)) _ hc]
    refine congrArg some ?_
    congr 1
    funext i
    cases i <;> rfl

theorem approxLoop_mono {e : Env} {start : Vec} {curve : Curve} {v len : ℝ} (n t : ℕ) {s s' : Approx}
    (h : Draw.approxLoop e start curve v len t n s = some s') (i : Axis) : s.maxErr i ≤ s'.maxErr i := by
  induction n generalizing t s with
  | zero => cases h; exact le_rfl
  | succ n ih =>
    obtain ⟨s1, h1, h⟩ := Option.bind_eq_some_iff.1 h
    have := (approxPass_eq h1).2.2 i
    exact ((le_max_left _ _).trans this.ge).trans (ih _ h)

theorem approxLoop_ge {e : Env} {start : Vec} {curve : Curve} {v len : ℝ} (n t : ℕ) {s s' : Approx}
    (hn : Context.Near s.ctx) (hv : ∀ i, |(s.ctx.channels i).v| ≤ s.ctx.vMax i) (hm : ∀ i, s.ctx.vMax i ≤ 2 ^ 30)
    (hp : ∀ i, |(s.ctx.channels i).pos| + 2 * s.ctx.vMax i * n ≤ 2 ^ 61)
    (h : Draw.approxLoop e start curve v len t n s = some s') (he : ∀ i, s'.maxErr i ≤ 2 ^ 60) :
    approxLoop e start curve v len t n s = some s' := by
  induction n generalizing t s with
  | zero => exact h
  | succ n ih =>
    have h0 : ∀ i, 0 ≤ 2 * s.ctx.vMax i * (n + 1 : ℕ) := fun i => by
      have := (abs_nonneg _).trans (hv i)
      positivity
    obtain ⟨s1, h1, h⟩ := Option.bind_eq_some_iff.1 h
    obtain ⟨g, k1, k2, k3, k4⟩ := approxPass_ge hn hv hm (fun i => by have := hp i; have := h0 i; linarith) h1
    unfold approxLoop
    rw [g fun i => (approxLoop_mono _ _ h i).trans (he i)]
    refine ih (t + 1) k1 k3 (by rw [k2]; exact hm) (fun i => ?_) h
    have h1 := k4 i
    have h2 := hp i
    rw [k2]
    push_cast at h2
    linarith

theorem approxCurve_ge {e : Env} {c : Ctx} {start : Vec} {curve : Curve} {v : ℝ} (hn : Context.Near c)
    (hv : ∀ i, |(c.channels i).v| ≤ c.vMax i) (hm : ∀ i, c.vMax i ≤ 2 ^ 30)
    (hp : ∀ i, |(c.channels i).pos| + 2 * c.vMax i * approxSteps curve v ≤ 2 ^ 61) {r : Ctx × (Axis → ℤ)}
    (h : Draw.approxCurve e c start curve v = some r) (he : ∀ i, r.2 i ≤ 2 ^ 60) :
    approxCurve e c start curve v = some r := by
  obtain ⟨s, h1, h⟩ := Option.bind_eq_some_iff.1 h
  cases h
  have := approxLoop_ge _ _ hn hv hm hp h1 he
  simp only [approxCurve, this, Option.bind_eq_bind, Option.bind_some]
  rfl

theorem gotoSpeed_ge {aMax vMax : Axis → ℤ} {e : Env} {c : Ctx} {x y vx vy : ℝ}
    (hM : Machine aMax vMax) (hb : ∀ i, vMax i ≤ 2 ^ 24) (ha : c.aMax = aMax) (hv : c.vMax = vMax)
    (hc : ∀ i, |(c.channels i).v| ≤ vMax i) (hp : ∀ i, |(c.channels i).pos| ≤ 2 ^ 61)
    (hs : ∀ i, |coord ⟨x, y⟩ i * e.stepScale i| ≤ 2 ^ 60)
    (hd : ∀ i, |coord ⟨vx, vy⟩ i * e.vScale i| + 1 / 2 ≤ vMax i)
    (hf : ∀ i, |Draw.round (coord ⟨x, y⟩ i * e.stepScale i) - (c.channels i).pos| ≤ vMax i * 65535) :
    Le (Draw.gotoSpeed e c x y vx vy) (gotoSpeed e c x y vx vy) := by
  have lim : ∀ i, FitsI64 (c.limits i (Draw.round (coord ⟨x, y⟩ i * e.stepScale i))
      (Draw.round (coord ⟨vx, vy⟩ i * e.vScale i))) := by
    intro i
    have h1 := hb i
    refine ⟨?_, ?_, ?_, ?_, ?_, ?_, ?_⟩ <;> simp only [Ctx.limits, ha, hv]
    · exact hM.a1 i
    · have := hM.a2 i
      norm_num
      omega
    · exact hM.v1 i
    · norm_num at *
      omega
    · exact hc i
    · exact abs_round_le (hd i)
    · refine (hf i).trans ?_
      norm_num at *
      omega
  have big : ∀ i, |Draw.round (coord ⟨x, y⟩ i * e.stepScale i)| ≤ 2 ^ 61 := by
    intro i
    apply abs_round_le
    have := hs i
    push_cast
    norm_num at *
    linarith
  unfold Draw.gotoSpeed gotoSpeed
  have e1 := toSteps_ok (hs .x)
  have e2 := toSteps_ok (hs .y)
  have e3 := toStepV_ok (hM.v2 .x) (hd .x)
  have e4 := toStepV_ok (hM.v2 .y) (hd .y)
  simp only [coord] at e1 e2 e3 e4
  simp only [e1, e2, e3, e4, Option.bind_eq_bind, Option.bind_some]
  exact stepGotoSpeed_ge (lim .x) (lim .y) hp (big .x) (big .y)

theorem drawCurve_ge {aMax vMax : Axis → ℤ} {e : Env} {c : Ctx} {start : Vec} {curve : Concat} {v : ℝ}
    (hM : Machine aMax vMax) (hb : ∀ i, vMax i ≤ 2 ^ 24) (h : Sync aMax vMax c)
    (hc : ∀ i, |(c.channels i).v| ≤ vMax i) (hp : ∀ i, |(c.channels i).pos| ≤ 2 ^ 61)
    (hs : ∀ i, |coord start i * e.stepScale i| ≤ 2 ^ 60)
    (hd : ∀ i, |coord ((e.concatInfo curve).value 0).2 i * v * e.vScale i| + 1 / 2 ≤ vMax i)
    (hf : ∀ i, |Draw.round (coord start i * e.stepScale i) - (c.channels i).pos| ≤ vMax i * 65535)
    {r : Ctx × (Axis → ℤ)} (hr : Draw.drawCurve e c start curve v = some r) (he : ∀ i, r.2 i ≤ 2 ^ 60) :
    drawCurve e c start curve v = some r := by
  unfold Draw.drawCurve at hr
  unfold drawCurve
  by_cases hne : curve.isEmpty
  · rw [if_pos hne] at hr ⊢
    exact hr
  rw [if_neg hne] at hr ⊢
  obtain ⟨c1, h1, hr⟩ := Option.bind_eq_some_iff.1 hr
  obtain ⟨c2, h2, hr⟩ := Option.bind_eq_some_iff.1 hr
  obtain ⟨c3, h3, hr⟩ := Option.bind_eq_some_iff.1 hr
  obtain ⟨s1, ch1, p1, k1, m1, a1, w1⟩ := weight_now h h1
  obtain ⟨-, -, av⟩ := s1.reach.inv
  have lim : ∀ i, InLimits (Draw.round (coord start i * e.stepScale i) - (c1.channels i).pos) (c1.channels i).v
      (Draw.round (coord ((e.concatInfo curve).value 0).2 i * v * e.vScale i)) (aMax i) (vMax i) := by
    intro i
    have h0 := hM.v2 i
    rw [ch1]
    refine ⟨hM.a1 i, hM.v1 i, by norm_num at *; omega, hc i, abs_round_le (hd i), ?_⟩
    refine (hf i).trans ?_
    norm_num at *
    omega
  have h2' := gotoSpeed_ge hM hb av.1 av.2.1 (by rw [ch1]; exact hc) (by rw [ch1]; exact hp) hs
    (by intro i; cases i; exacts [hd .x, hd .y]) (by rw [ch1]; exact hf) c2 h2
  have g2 := h2
  unfold Draw.gotoSpeed at g2
  have e1 := toSteps_ok (hs .x)
  have e2 := toSteps_ok (hs .y)
  have e3 := toStepV_ok (x := (((e.concatInfo curve).value 0).2 * v).x) (hM.v2 .x) (hd .x)
  have e4 := toStepV_ok (x := (((e.concatInfo curve).value 0).2 * v).y) (hM.v2 .y) (hd .y)
  simp only [coord] at e1 e2
  simp only [e1, e2, e3, e4, Option.bind_eq_bind, Option.bind_some] at g2
  have s2 : Sync aMax vMax c2 := .step (op := .goto _ _ _ _) s1 trivial g2
  obtain ⟨s3, ch3, p3, k3, m3, a3, w3⟩ := weight_now s2 h3
  obtain ⟨-, -, av3⟩ := s3.reach.inv
  obtain ⟨ar, apx, apy, -⟩ := C25_arrives aMax vMax c1 c2 s1.reach _ _ _ _ (lim .x) (lim .y) g2
  have hv3 : ∀ i, |(c3.channels i).v| ≤ c3.vMax i := by
    intro i
    rw [ch3, av3.2.1]
    have e1 := congrArg Prod.fst ar
    have e2 := congrArg Prod.snd ar
    simp only [Ctx.velocity] at e1 e2
    cases i
    · rw [e1]; exact (lim .x).stop
    · rw [e2]; exact (lim .y).stop
  have hp3 : ∀ i, |(c3.channels i).pos| ≤ 2 ^ 60 + 2 := by
    intro i
    have h1 : |Draw.round (coord start i * e.stepScale i)| ≤ 2 ^ 60 + 1 := by
      apply abs_round_le
      have := hs i
      push_cast
      norm_num at *
      linarith
    have h2 : |(c2.channels i).pos - Draw.round (coord start i * e.stepScale i)| ≤ 1 := by
      cases i
      · exact apx
      · exact apy
    rw [ch3]
    rw [abs_le] at *
    norm_num at *
    omega
  have hst : (approxSteps (e.concatInfo curve) v : ℤ) ≤ 2 ^ 31 := by
    unfold approxSteps satI32
    split
    · norm_num
    · split
      · norm_num
      · norm_num at *
        omega
  simp only [h1, h2', h3, Option.bind_eq_bind, Option.bind_some]
  refine approxCurve_ge s3.inv.1 hv3 (fun i => by rw [av3.2.1]; have := hb i; norm_num at this ⊢; omega) (fun i => ?_) hr he
  have h1 : c3.vMax i * (approxSteps (e.concatInfo curve) v : ℤ) ≤ 2 ^ 24 * 2 ^ 31 := by
    refine mul_le_mul ?_ hst (by positivity) (by norm_num)
    rw [av3.2.1]
    exact hb i
  have h2 := hp3 i
  norm_num at h1 h2 ⊢
  linarith

/-! ### Paths -/

theorem flush_ge {aMax vMax : Axis → ℤ} {e : Env} {v : ℝ} {S : Vec → Prop} {B : Axis → ℝ} {N : ℕ}
    {rest : ℝ} {s : Pen} (hM : Machine aMax vMax) (hb : ∀ i, vMax i ≤ 2 ^ 24) (hR : Reachable vMax e v B N)
    (box : ∀ p, S p → ∀ i, |coord p i * e.stepScale i| ≤ B i)
    (h : PenOK aMax vMax e v S B N rest s) {s1 : Pen} (h1 : s.flush e v = some s1) (he : ∀ i, s1.maxErr i ≤ 2 ^ 60) :
    flush e v s = some s1 := by
  have big : ∀ i, B i ≤ 2 ^ 46 ∧ B i + 3 / 2 + 2 * vMax i * N ≤ 2 ^ 60 := by
    intro i
    have h1 := hR.near i
    have h2 := hM.v2 i
    have h2' : (vMax i : ℝ) < 2 ^ 30 := by exact_mod_cast h2
    have h3 := abs_nonneg (coord s.start i * e.stepScale i)
    have h4 := box _ h.start i
    have h5 : (0 : ℝ) ≤ 2 * vMax i * N := by
      have : (1 : ℝ) ≤ vMax i := by exact_mod_cast hM.v1 i
      positivity
    norm_num at h1 h2' h3 h4 h5 ⊢
    constructor <;> linarith
  have hpos : ∀ i, |(s.ctx.channels i).pos| ≤ 2 ^ 61 := by
    intro i
    have : |((s.ctx.channels i).pos : ℝ)| ≤ 2 ^ 61 := by
      have h1 := h.pos i
      have h2 := (big i).2
      refine h1.trans (h2.trans ?_)
      norm_num
    exact_mod_cast this
  have hd : ∀ i, |coord ((e.concatInfo s.curves).value 0).2 i * v * e.vScale i| + 1 / 2 ≤ vMax i := by
    intro i
    have h1 := concat_dir (e := e) (c := s.curves) zero_le_one i (fun part hpart x => h.dir part hpart x i) 0
    refine le_trans ?_ (hR.speed i)
    rw [mul_assoc, abs_mul]
    have := mul_le_mul_of_nonneg_right h1 (abs_nonneg (v * e.vScale i))
    linarith
  unfold Pen.flush at h1
  unfold flush
  obtain ⟨⟨c1, err⟩, hc, h1⟩ := Option.bind_eq_some_iff.1 h1
  have he' : ∀ i, err i ≤ 2 ^ 60 := by
    intro i
    cases h1
    exact (le_max_right _ _).trans ((accMax_eq _ _).symm.le.trans (he i))
  have key := drawCurve_ge (start := s.start) (curve := s.curves) (v := v) hM hb h.sync h.vel hpos (by
      intro i
      have h1 := box _ h.start i
      have h2 := (big i).1
      refine h1.trans (h2.trans ?_)
      norm_num) hd (by
      intro i
      have h1 := box _ h.start i
      have h2 := h.pos i
      have h3 := hR.near i
      have h4 := round_near (coord s.start i * e.stepScale i)
      have : |((Draw.round (coord s.start i * e.stepScale i) - (s.ctx.channels i).pos : ℤ) : ℝ)| ≤
          ((vMax i * 65535 : ℤ) : ℝ) := by
        push_cast
        rw [abs_le] at *
        constructor <;> linarith [h1.1, h1.2, h2.1, h2.2, h4.1, h4.2]
      exact_mod_cast this) hc he'
  rw [key]
  exact h1

theorem flush_mono {e : Env} {v : ℝ} {s s1 : Pen} (h : s.flush e v = some s1) (i : Axis) :
    s.maxErr i ≤ s1.maxErr i := by
  obtain ⟨_, -, h⟩ := Option.bind_eq_some_iff.1 h
  cases h
  exact (le_max_left _ _).trans (accMax_eq _ _).ge

theorem add_ge {aMax vMax : Axis → ℤ} {e : Env} {v : ℝ} {S : Vec → Prop} {B : Axis → ℝ} {N : ℕ}
    {rest : ℝ} {s s1 : Pen} {k : Curve} {q : Vec} (hM : Machine aMax vMax) (hb : ∀ i, vMax i ≤ 2 ^ 24)
    (hR : Reachable vMax e v B N) (box : ∀ p, S p → ∀ i, |coord p i * e.stepScale i| ≤ B i)
    (h : PenOK aMax vMax e v S B N rest s) (h1 : s.add e v k q = some s1) (he : ∀ i, s1.maxErr i ≤ 2 ^ 60) :
    (∀ i, s.maxErr i ≤ s1.maxErr i) ∧ penAdd e v s k q = some s1 := by
  unfold Pen.add at h1
  unfold penAdd
  by_cases ht : s.turns (k.value 0).2
  · rw [if_pos ht] at h1 ⊢
    obtain ⟨f', h0, h1⟩ := Option.bind_eq_some_iff.1 h1
    obtain ⟨f, hf, rfl⟩ := Option.map_eq_some_iff.1 h0
    have e1 : s1.maxErr = f.maxErr := by cases h1; rfl
    rw [flush_ge hM hb hR box h hf (by rw [← e1]; exact he)]
    exact ⟨by rw [e1]; exact flush_mono hf, h1⟩
  · rw [if_neg ht] at h1 ⊢
    refine ⟨?_, h1⟩
    cases h1
    exact fun _ => le_rfl

theorem goTo_ge {aMax vMax : Axis → ℤ} {e : Env} {v : ℝ} {S : Vec → Prop} {B : Axis → ℝ} {N : ℕ}
    {rest : ℝ} {s s1 : Pen} {p : Vec} (hM : Machine aMax vMax) (hb : ∀ i, vMax i ≤ 2 ^ 24)
    (hR : Reachable vMax e v B N) (box : ∀ p, S p → ∀ i, |coord p i * e.stepScale i| ≤ B i)
    (h : PenOK aMax vMax e v S B N rest s) (h1 : s.goTo e v p = some s1) (he : ∀ i, s1.maxErr i ≤ 2 ^ 60) :
    (∀ i, s.maxErr i ≤ s1.maxErr i) ∧ penGoTo e v s p = some s1 := by
  unfold Pen.goTo at h1
  unfold penGoTo
  cases ha : s.atMachine e p with
  | none => rw [ha] at h1; cases h1
  | some b =>
    rw [ha] at h1
    cases b
    · simp only [Option.bind_eq_bind, Option.bind_some, Bool.false_eq_true, if_false] at h1 ⊢
      obtain ⟨f, hf, h1⟩ := Option.bind_eq_some_iff.1 h1
      have e1 : s1.maxErr = f.maxErr := by cases h1; rfl
      rw [flush_ge hM hb hR box h hf (by rw [← e1]; exact he)]
      exact ⟨by rw [e1]; exact flush_mono hf, h1⟩
    · simp only [Option.bind_eq_bind, Option.bind_some, if_true] at h1 ⊢
      refine ⟨?_, h1⟩
      cases h1
      exact fun _ => le_rfl

theorem step_ge {aMax vMax : Axis → ℤ} {e : Env} {v : ℝ} {S : Vec → Prop} {B : Axis → ℝ} {N : ℕ}
    {rest : ℝ} {s s1 : Pen} {seg : Seg} (hM : Machine aMax vMax) (hb : ∀ i, vMax i ≤ 2 ^ 24)
    (hR : Reachable vMax e v B N) (box : ∀ p, S p → ∀ i, |coord p i * e.stepScale i| ≤ B i)
    (h : PenOK aMax vMax e v S B N rest s) (h1 : s.step e v seg = some s1) (he : ∀ i, s1.maxErr i ≤ 2 ^ 60) :
    (∀ i, s.maxErr i ≤ s1.maxErr i) ∧ penStep e v s seg = some s1 := by
  have add : ∀ {o : Option (Curve × Vec)}, (do let (k, q) ← o; s.add e v k q) = some s1 →
      (∀ i, s.maxErr i ≤ s1.maxErr i) ∧ (do let (k, q) ← o; penAdd e v s k q) = some s1 := by
    intro o h1
    obtain ⟨⟨k, q⟩, rfl, h1⟩ := Option.bind_eq_some_iff.1 h1
    exact add_ge hM hb hR box h h1 he
  cases seg with
  | goTo p => exact goTo_ge hM hb hR box h h1 he
  | closeTo p =>
    simp only [Pen.step] at h1
    simp only [penStep]
    by_cases hc : (s.current - p).length < 1 / 1000000
    · rw [if_pos hc] at h1 ⊢
      refine ⟨?_, h1⟩
      cases h1
      exact fun _ => le_rfl
    · rw [if_neg hc] at h1 ⊢
      exact add h1
  | lineTo p => exact add h1
  | curveTo p c1 c2 => exact add h1
  | arc a b c d r => exact add h1

/-- `penRun` and the last `flush`. -/
theorem finish_ge {aMax vMax : Axis → ℤ} {e : Env} {v : ℝ} {S : Vec → Prop} {B : Axis → ℝ} {N : ℕ}
    {ℓ : ℝ} {segs : List Seg} {s s' : Pen} (hM : Machine aMax vMax) (hb : ∀ i, vMax i ≤ 2 ^ 24)
    (hR : Reachable vMax e v B N) (hS : InRegion e S B ℓ segs) (hℓ : 0 ≤ ℓ)
    (h : PenOK aMax vMax e v S B N (segs.length * ℓ) s) (h' : s.finish e v segs = some s')
    (he : ∀ i, s'.maxErr i ≤ 2 ^ 60) :
    (∀ i, s.maxErr i ≤ s'.maxErr i) ∧ (do let s ← penRun e v segs s; flush e v s) = some s' := by
  induction segs generalizing s with
  | nil =>
    rw [finish_nil] at h'
    exact ⟨flush_mono h', flush_ge (rest := 0) hM hb hR hS.box (by simpa using h) h' he⟩
  | cons seg segs ih =>
    obtain ⟨s1, h1, h2⟩ := finish_cons.1 h'
    have h0 : PenOK aMax vMax e v S B N (ℓ + segs.length * ℓ) s := by
      have e1 : ℓ + (segs.length : ℝ) * ℓ = ((seg :: segs).length : ℝ) * ℓ := by
        push_cast [List.length_cons]; ring
      rw [e1]; exact h
    obtain ⟨t1, k1, k2⟩ := step_ok (rest := segs.length * ℓ) hM hR hS hℓ (by positivity) h0
    rw [h1] at k1
    cases k1
    obtain ⟨i1, i2⟩ := ih (s := s1) ⟨hS.box, fun p hp => hS.move p (List.mem_cons_of_mem _ hp),
      fun p hp => hS.short p (List.mem_cons_of_mem _ hp),
      fun seg hs => hS.draw seg (List.mem_cons_of_mem _ hs)⟩ k2 h2
    obtain ⟨j1, j2⟩ := step_ge hM hb hR hS.box h h1 (fun i => (i1 i).trans (he i))
    refine ⟨fun i => (j1 i).trans (i1 i), ?_⟩
    simp only [penRun, j2, Option.bind_eq_bind, Option.bind_some]
    exact i2

end StepperPaths.Checked
