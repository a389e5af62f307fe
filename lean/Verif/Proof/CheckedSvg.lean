import Verif.Model.CheckedSvg
import Verif.Proof.CheckedMotion
import Verif.Proof.RoundedDraw
import Verif.Proof.RoundedReturns
import Verif.Proof.CurveLines

/-! `svg_path` with rounding and checked integers. -/

namespace StepperPaths.CheckedSvg
open Coords Curves Context IntegerCurve Spec Props Rounded Checked Program StepperPaths.Svg Control
open Draw hiding Env wantedAcc nextErr accForPos approxSteps gotoSpeed approxPass approxLoop approxCurve drawCurve drawPen drawCurves

theorem approxPass_le {fl : ℝ → ℝ} {e : Rounded.Env} {start : Vec} {curve : Curve} {v p : ℝ} {s s' : Approx} (h : SameA s s') :
    LeUp SameA (CheckedSvg.approxPass fl e start curve v p s) (Rounded.approxPass fl e start curve v p s') := by
  obtain ⟨c, er, m⟩ := s
  obtain ⟨c', er', m'⟩ := s'
  obtain ⟨h1, h2⟩ := h
  cases h1
  cases h2
  refine LeUp.skip fun _ => LeUp.skip fun _ => LeUp.bind (approxTick_le _ _ _).up ?_
  rintro x _ rfl
  exact LeUp.skip fun _ => LeUp.skip fun _ => LeUp.pure ⟨rfl, rfl⟩

theorem approxLoop_le {fl : ℝ → ℝ} {e : Rounded.Env} {start : Vec} {curve : Curve} {v l : ℝ} (n t : ℕ) {s s' : Approx} (h : SameA s s') :
    LeUp SameA (CheckedSvg.approxLoop fl e start curve v l t n s) (Rounded.approxLoop fl e start curve v l t n s') := by
  induction n generalizing t s s' with
  | zero => exact LeUp.pure h
  | succ n ih => exact LeUp.bind (approxPass_le h) fun _ _ k => ih _ k

theorem approxCurve_le (fl : ℝ → ℝ) (e : Rounded.Env) (c : Ctx) (start : Vec) (curve : Curve) (v : ℝ) :
    LeUp SameC (CheckedSvg.approxCurve fl e c start curve v) (Rounded.approxCurve fl e c start curve v) :=
  LeUp.bind (approxLoop_le _ _ ⟨rfl, rfl⟩) fun _ _ h => LeUp.pure h.1

theorem gotoSpeed_le (fl : ℝ → ℝ) (e : Rounded.Env) (c : Ctx) (x y vx vy : ℝ) :
    Le (CheckedSvg.gotoSpeed fl e c x y vx vy) (Rounded.gotoSpeed fl e c x y vx vy) :=
  Le.bind (Le.refl _) fun _ => Le.bind (Le.refl _) fun _ => Le.bind (Le.refl _) fun _ =>
    Le.bind (Le.refl _) fun _ => stepGotoSpeed_le _ _ _ _ _

theorem drawCurve_le (fl : ℝ → ℝ) (e : Rounded.Env) (c : Ctx) (start : Vec) (curve : Concat) (v : ℝ) :
    LeUp SameC (CheckedSvg.drawCurve fl e c start curve v) (Rounded.drawCurve fl e c start curve v) := by
  unfold CheckedSvg.drawCurve Rounded.drawCurve
  split
  · exact LeUp.pure rfl
  · refine LeUp.bind (Le.refl _).up ?_
    rintro c _ rfl
    refine LeUp.bind (gotoSpeed_le _ _ _ _ _ _ _).up ?_
    rintro c _ rfl
    refine LeUp.bind (Le.refl _).up ?_
    rintro c _ rfl
    exact approxCurve_le _ _ _ _ _ _

theorem flush_le {fl : ℝ → ℝ} {e : Rounded.Env} {v : ℝ} {s s' : Pen} (h : SameP s s') :
    LeUp SameP (CheckedSvg.flush fl e v s) (Rounded.flush fl e v s') := by
  obtain ⟨m, rfl⟩ : ∃ m, s' = { s with maxErr := m } := ⟨_, h⟩
  refine LeUp.bind (drawCurve_le _ _ _ _ _ _) ?_
  rintro ⟨c, e1⟩ ⟨c', e2⟩ h
  obtain rfl : c = c' := h
  exact LeUp.pure rfl

theorem goTo_le {fl : ℝ → ℝ} {e : Rounded.Env} {v : ℝ} {s s' : Pen} (p : Vec) (h : SameP s s') :
    LeUp SameP (CheckedSvg.goTo fl e v s p) (Rounded.goTo fl e v s' p) := by
  have hf := flush_le (fl := fl) (e := e) (v := v) h
  obtain ⟨m, rfl⟩ : ∃ m, s' = { s with maxErr := m } := ⟨_, h⟩
  refine LeUp.bind (Le.refl (atMachine fl e s p)).up ?_
  rintro b _ rfl
  split
  · exact LeUp.pure rfl
  · refine LeUp.bind hf ?_
    intro x y h
    obtain ⟨m, rfl⟩ : ∃ m, y = { x with maxErr := m } := ⟨_, h⟩
    exact LeUp.pure rfl

open Classical in
theorem add_le {fl : ℝ → ℝ} {e : Rounded.Env} {v : ℝ} {s s' : Pen} (k : Curve) (q : Vec) (h : SameP s s') :
    LeUp SameP (CheckedSvg.add fl e v s k q) (Rounded.add fl e v s' k q) := by
  have hf := flush_le (fl := fl) (e := e) (v := v) h
  obtain ⟨m, rfl⟩ : ∃ m, s' = { s with maxErr := m } := ⟨_, h⟩
  have fin : ∀ x y : Pen, SameP x y → LeUp SameP
      (some { x with current := q, prevDir := some (k.value k.length).2, curves := concatAdd fl x.curves k })
      (some { y with current := q, prevDir := some (k.value k.length).2, curves := concatAdd fl y.curves k }) := by
    intro x y h
    obtain ⟨m, rfl⟩ : ∃ m, y = { x with maxErr := m } := ⟨_, h⟩
    exact LeUp.pure rfl
  unfold CheckedSvg.add Rounded.add
  by_cases ht : turns fl s (k.value 0).2
  · rw [if_pos ht, if_pos (show turns fl { s with maxErr := m } (k.value 0).2 from ht)]
    refine LeUp.bind (r := SameP) ?_ fin
    intro w hw
    obtain ⟨x, h1, rfl⟩ := Option.map_eq_some_iff.1 hw
    obtain ⟨y, h3, h4⟩ := hf x h1
    obtain ⟨m', rfl⟩ : ∃ m, y = { x with maxErr := m } := ⟨_, h4⟩
    exact ⟨_, Option.map_eq_some_iff.2 ⟨_, h3, rfl⟩, rfl⟩
  · rw [if_neg ht, if_neg (show ¬turns fl { s with maxErr := m } (k.value 0).2 from ht)]
    exact fin _ _ rfl

open Classical in
theorem step_le {fl : ℝ → ℝ} {e : Rounded.Env} {v : ℝ} {s s' : Pen} (seg : Seg) (h : SameP s s') :
    LeUp SameP (CheckedSvg.step fl e v s seg) (Rounded.step fl e v s' seg) := by
  have hc : s'.current = s.current := by rw [show s' = _ from h]
  have hl : ∀ seg : Seg, LeUp SameP ((segInfo fl e s.current seg) >>= fun x => CheckedSvg.add fl e v s x.1 x.2)
      ((segInfo fl e s'.current seg) >>= fun x => Rounded.add fl e v s' x.1 x.2) := by
    intro seg
    rw [hc]
    refine LeUp.bind (Le.refl _).up ?_
    rintro x _ rfl
    exact add_le _ _ h
  cases seg with
  | goTo p => exact goTo_le p h
  | closeTo p =>
    simp only [CheckedSvg.step, Rounded.step]
    rw [hc]
    split
    · refine LeUp.pure ?_
      rw [show s' = _ from h]
      rfl
    · have := hl (.closeTo p)
      rw [hc] at this
      exact this
  | lineTo p => exact hl _
  | curveTo p c1 c2 => exact hl _
  | arc a b c d r => exact hl _

theorem run_le {fl : ℝ → ℝ} {e : Rounded.Env} {v : ℝ} (segs : List Seg) {s s' : Pen} (h : SameP s s') :
    LeUp SameP (CheckedSvg.run fl e v segs s) (Rounded.run fl e v segs s') := by
  induction segs generalizing s s' with
  | nil => exact LeUp.pure h
  | cons seg segs ih => exact LeUp.bind (step_le seg h) fun _ _ k => ih k

theorem drawPen_le (fl : ℝ → ℝ) (e : Rounded.Env) (c : Ctx) (segs : List Seg) (v : ℝ) :
    LeUp SameP (CheckedSvg.drawPen fl e c segs v) (Rounded.drawPen fl e c segs v) :=
  LeUp.bind (run_le segs rfl) fun _ _ h => flush_le h

theorem drawCurves_le (fl : ℝ → ℝ) (e : Rounded.Env) (c : Ctx) (segs : List Seg) (v : ℝ) :
    LeUp SameC (CheckedSvg.drawCurves fl e c segs v) (Rounded.drawCurves fl e c segs v) := by
  unfold CheckedSvg.drawCurves Rounded.drawCurves
  split
  · exact LeUp.pure rfl
  · refine LeUp.bind (drawPen_le _ _ _ _ _) fun x y h => ?_
    obtain ⟨m, rfl⟩ : ∃ m, y = { x with maxErr := m } := ⟨_, h⟩
    refine LeUp.bind (Le.refl (x.ctx.addWeightChange x.ctx.moveWeight (x.ctx.channels .x).ticks)).up ?_
    rintro c _ rfl
    exact LeUp.pure rfl


theorem drawTimes_le (fl : ℝ → ℝ) (e : Rounded.Env) (path : List Seg) (v : ℝ) (n : ℕ) (c : Ctx) :
    Le (drawTimes fl e path v n c) (drawTimesF fl e path v n c) := by
  induction n generalizing c with
  | zero => exact Le.refl _
  | succ n ih =>
    intro w hw
    obtain ⟨⟨c1, e1⟩, h1, h2⟩ := Option.bind_eq_some_iff.1 hw
    obtain ⟨⟨c2, e2⟩, h3, h4⟩ := drawCurves_le _ _ _ _ _ _ h1
    obtain rfl : c1 = c2 := h4
    rw [drawTimesF, h3]
    exact ih _ _ h2

theorem svgEvents_le (fl : ℝ → ℝ) (e : Rounded.Env) (aMax vMax : Axis → ℤ) (weight : ℤ) (path : List Seg) (v : ℝ) (n : ℕ) :
    Le (svgEvents fl e aMax vMax weight path v n) (svgEventsF fl e aMax vMax weight path v n) :=
  Le.bind (drawTimes_le _ _ _ _ _ _) fun _ => Le.bind (stepGotoSpeed_le _ _ _ _ _) fun _ => Le.refl _

theorem weight_le {percent w : ℤ} (h : weight percent = some w) : w = weightOf percent := by
  obtain ⟨a, h1, h2⟩ := Option.bind_eq_some_iff.1 h
  cases h2
  rw [Checked.toI32_eq h1]
  rfl

theorem svgProgram_le (fl : ℝ → ℝ) (lib : Lib) (cfg : Config.Xy) (o : Options) (layer : Option (List Char)) (e : Rounded.Env)
    (doc : List XmlEvent) (port : Port) :
    Le (svgProgram fl lib cfg o layer e doc port) (svgProgramF fl lib cfg o layer e doc port) := by
  intro r h
  obtain ⟨_, -, h⟩ := Option.bind_eq_some_iff.1 h
  unfold svgProgramF
  simp only at h ⊢
  split at h
  · next hc => rwa [if_pos hc]
  next hc =>
    rw [if_neg hc]
    obtain ⟨w, hw, h⟩ := Option.bind_eq_some_iff.1 h
    obtain rfl := weight_le hw
    split at h
    · next path hp =>
      rw [hp]
      exact Le.bind (svgEvents_le _ _ _ _ _ _ _ _) (fun _ => Le.refl _) r h
    · exact absurd h (by simp)

/-! ### No overflow -/

/-- One pass: no overflow, and the position changes by at most twice the greatest speed. -/
theorem approxPass_ge {fl : ℝ → ℝ} {e : Rounded.Env} {start : Vec} {curve : Curve} {v p : ℝ} {s : Approx} (hn : Context.Near s.ctx)
    (hv : ∀ i, |(s.ctx.channels i).v| ≤ s.ctx.vMax i) (hm : ∀ i, s.ctx.vMax i ≤ 2 ^ 30)
    (hp : ∀ i, |(s.ctx.channels i).pos| ≤ 2 ^ 61) {s' : Approx} (h : Rounded.approxPass fl e start curve v p s = some s') :
    ((∀ i, s'.maxErr i ≤ 2 ^ 60) → CheckedSvg.approxPass fl e start curve v p s = some s') ∧
      Context.Near s'.ctx ∧ s'.ctx.vMax = s.ctx.vMax ∧ (∀ i, |(s'.ctx.channels i).v| ≤ s'.ctx.vMax i) ∧
      ∀ i, |(s'.ctx.channels i).pos| ≤ |(s.ctx.channels i).pos| + 2 * s.ctx.vMax i := by
  have spec : ∀ {c' : Ctx} {ax ay : Int}, (-32768 ≤ ax ∧ ax ≤ 32767) → (-32768 ≤ ay ∧ ay ≤ 32767) →
      s.ctx.approxTick ax ay = some c' → Context.Near c' ∧ c'.vMax = s.ctx.vMax ∧
        (∀ i, |(c'.channels i).v| ≤ c'.vMax i) ∧
        ∀ i, |(c'.channels i).pos| ≤ |(s.ctx.channels i).pos| + 2 * s.ctx.vMax i := by
    intro c' ax ay hax hay hc
    obtain ⟨a, b, ha, hb, hc⟩ := approxTick_eq hc
    obtain ⟨x1, -, -⟩ := limitSpeed_spec (hv .x) hax.1 hax.2 ha
    obtain ⟨y1, -, -⟩ := limitSpeed_spec (hv .y) hay.1 hay.2 hb
    obtain ⟨M, -⟩ := addAccInterval_spec hn (by norm_num) hc
    have hvel : ∀ i, |(s.ctx.channels i).v + both a b i| ≤ s.ctx.vMax i := by
      intro i; cases i
      · exact x1
      · exact y1
    refine ⟨M.near, M.vMax, fun i => ?_, fun i => ?_⟩
    · rw [M.vMax, M.ch i]
      simpa [endVel] using hvel i
    · rw [M.ch i]
      simp only [List.replicate_one, Spec.dist, add_zero]
      have h1 := hvel i
      have h2 := hv i
      rw [abs_le] at h1 h2
      rw [abs_le]
      have h3 := neg_abs_le (s.ctx.channels i).pos
      have h4 := le_abs_self (s.ctx.channels i).pos
      constructor <;> linarith
  have wb : ∀ ch a sp sv er, -32768 ≤ wantedAcc fl ch a sp sv er ∧ wantedAcc fl ch a sp sv er ≤ 32767 :=
    fun _ _ _ _ _ => (satI16_abs _).2
  refine ⟨fun he => ?_, spec (wb _ _ _ _ _) (wb _ _ _ _ _) (Rounded.approxPass_eq h).1⟩
  · have ah : ∀ i, ∃ z, ahead (s.ctx.channels i) = some z := by
      intro i
      have _ : Mag (s.ctx.channels i).pos (2 ^ 61) := ⟨by exact_mod_cast hp i⟩
      have _ : Mag (s.ctx.channels i).v (2 ^ 30) := ⟨by exact_mod_cast (hv i).trans (hm i)⟩
      unfold ahead
      exact ⟨_, eval (by norm_num)⟩
    obtain ⟨zx, ax⟩ := ah .x
    obtain ⟨zy, ay⟩ := ah .y
    obtain ⟨c, hc, h⟩ := Option.bind_eq_some_iff.1 h
    obtain ⟨-, -, -, q⟩ := spec (wb _ _ _ _ _) (wb _ _ _ _ _) hc
    have hp' : ∀ i, |(c.channels i).pos| ≤ 2 ^ 62 := by
      intro i
      have h1 := q i
      have h2 := hp i
      have h3 := hm i
      norm_num at h1 h2 h3 ⊢
      linarith
    cases h
    have hx : ∀ i, |(c.channels i).pos - trunc (stepPos fl e start (curve.value p).1 i)| ≤ 2 ^ 60 := fun i =>
      (le_max_right _ _).trans ((accMax_eq _ _).symm.le.trans (he i))
    unfold CheckedSvg.approxPass
    simp only [ax, ay, Option.bind_eq_bind, Option.bind_some, passErr_eq (hp' .x) (hx .x),
      passErr_eq (hp' .y) (hx .y), approxTick_ge (wb _ _ _ _ _) (wb _ _ _ _ _) hv hm
      (fun i => (hp i).trans (by norm_num)) _ hc]
    refine congrArg some ?_
    congr 1
    funext i
    cases i <;> rfl

theorem approxLoop_mono {fl : ℝ → ℝ} {e : Rounded.Env} {start : Vec} {curve : Curve} {v len : ℝ} (n t : ℕ) {s s' : Approx}
    (h : Rounded.approxLoop fl e start curve v len t n s = some s') (i : Axis) : s.maxErr i ≤ s'.maxErr i := by
  induction n generalizing t s with
  | zero => cases h; exact le_rfl
  | succ n ih =>
    obtain ⟨s1, h1, h⟩ := Option.bind_eq_some_iff.1 h
    have := (Rounded.approxPass_eq h1).2.2 i
    exact ((le_max_left _ _).trans this.ge).trans (ih _ h)

theorem approxLoop_ge {fl : ℝ → ℝ} {e : Rounded.Env} {start : Vec} {curve : Curve} {v len : ℝ} (n t : ℕ) {s s' : Approx}
    (hn : Context.Near s.ctx) (hv : ∀ i, |(s.ctx.channels i).v| ≤ s.ctx.vMax i) (hm : ∀ i, s.ctx.vMax i ≤ 2 ^ 30)
    (hp : ∀ i, |(s.ctx.channels i).pos| + 2 * s.ctx.vMax i * n ≤ 2 ^ 61)
    (h : Rounded.approxLoop fl e start curve v len t n s = some s') (he : ∀ i, s'.maxErr i ≤ 2 ^ 60) :
    CheckedSvg.approxLoop fl e start curve v len t n s = some s' := by
  induction n generalizing t s with
  | zero => exact h
  | succ n ih =>
    have h0 : ∀ i, 0 ≤ 2 * s.ctx.vMax i * (n + 1 : ℕ) := fun i => by
      have := (abs_nonneg _).trans (hv i)
      positivity
    obtain ⟨s1, h1, h⟩ := Option.bind_eq_some_iff.1 h
    obtain ⟨g, k1, k2, k3, k4⟩ := approxPass_ge hn hv hm (fun i => by have := hp i; have := h0 i; linarith) h1
    unfold CheckedSvg.approxLoop
    rw [g fun i => (approxLoop_mono _ _ h i).trans (he i)]
    refine ih (t + 1) k1 k3 (by rw [k2]; exact hm) (fun i => ?_) h
    have h1 := k4 i
    have h2 := hp i
    rw [k2]
    push_cast at h2
    linarith

theorem approxCurve_ge {fl : ℝ → ℝ} {e : Rounded.Env} {c : Ctx} {start : Vec} {curve : Curve} {v : ℝ} (hn : Context.Near c)
    (hv : ∀ i, |(c.channels i).v| ≤ c.vMax i) (hm : ∀ i, c.vMax i ≤ 2 ^ 30)
    (hp : ∀ i, |(c.channels i).pos| + 2 * c.vMax i * approxSteps fl curve v ≤ 2 ^ 61) {r : Ctx × (Axis → ℤ)}
    (h : Rounded.approxCurve fl e c start curve v = some r) (he : ∀ i, r.2 i ≤ 2 ^ 60) :
    CheckedSvg.approxCurve fl e c start curve v = some r := by
  obtain ⟨s, h1, h⟩ := Option.bind_eq_some_iff.1 h
  cases h
  have := approxLoop_ge _ _ hn hv hm hp h1 he
  simp only [CheckedSvg.approxCurve, this, Option.bind_eq_bind, Option.bind_some]
  rfl

theorem gotoSpeed_ge {fl : ℝ → ℝ} {aMax vMax : Axis → ℤ} {e : Rounded.Env} {c : Ctx} {x y vx vy : ℝ}
    (hM : Machine aMax vMax) (hb : ∀ i, vMax i ≤ 2 ^ 24) (ha : c.aMax = aMax) (hv : c.vMax = vMax)
    (hc : ∀ i, |(c.channels i).v| ≤ vMax i) (hp : ∀ i, |(c.channels i).pos| ≤ 2 ^ 61)
    (hs : ∀ i, |fl (coord ⟨x, y⟩ i * e.stepScale i)| ≤ 2 ^ 60)
    (hd : ∀ i, |fl (coord ⟨vx, vy⟩ i * vScale fl e i)| + 1 / 2 ≤ vMax i)
    (hf : ∀ i, |Draw.round (fl (coord ⟨x, y⟩ i * e.stepScale i)) - (c.channels i).pos| ≤ vMax i * 65535) :
    Le (Rounded.gotoSpeed fl e c x y vx vy) (CheckedSvg.gotoSpeed fl e c x y vx vy) := by
  have lim : ∀ i, FitsI64 (c.limits i (Draw.round (fl (coord ⟨x, y⟩ i * e.stepScale i)))
      (Draw.round (fl (coord ⟨vx, vy⟩ i * vScale fl e i)))) := by
    intro i
    have h1 := hb i
    refine ⟨?_, ?_, ?_, ?_, ?_, ?_, ?_⟩ <;> simp only [Ctx.limits, ha, hv]
    · exact hM.a1 i
    · have := hM.a2 i
      norm_num
      omega
    · exact hM.v1 i
    · norm_num at *
      omega
    · exact hc i
    · exact abs_round_le (hd i)
    · refine (hf i).trans ?_
      norm_num at *
      omega
  have big : ∀ i, |Draw.round (fl (coord ⟨x, y⟩ i * e.stepScale i))| ≤ 2 ^ 61 := by
    intro i
    apply abs_round_le
    have := hs i
    push_cast
    norm_num at *
    linarith
  unfold Rounded.gotoSpeed CheckedSvg.gotoSpeed
  have e1 := Rounded.toSteps_ok (hs .x)
  have e2 := Rounded.toSteps_ok (hs .y)
  have e3 := Rounded.toStepV_ok (hM.v2 .x) (hd .x)
  have e4 := Rounded.toStepV_ok (hM.v2 .y) (hd .y)
  simp only [coord] at e1 e2 e3 e4
  simp only [e1, e2, e3, e4, Option.bind_eq_bind, Option.bind_some]
  exact stepGotoSpeed_ge (lim .x) (lim .y) hp (big .x) (big .y)

theorem drawCurve_ge {fl : ℝ → ℝ} {aMax vMax : Axis → ℤ} {e : Rounded.Env} {c : Ctx} {start : Vec} {curve : Concat} {v : ℝ}
    (hM : Machine aMax vMax) (hb : ∀ i, vMax i ≤ 2 ^ 24) (h : Sync aMax vMax c)
    (hc : ∀ i, |(c.channels i).v| ≤ vMax i) (hp : ∀ i, |(c.channels i).pos| ≤ 2 ^ 61)
    (hs : ∀ i, |fl (coord start i * e.stepScale i)| ≤ 2 ^ 60)
    (hd : ∀ i, |stepV fl e ((concatInfo fl e curve).value 0).2 v i| + 1 / 2 ≤ vMax i)
    (hf : ∀ i, |Draw.round (fl (coord start i * e.stepScale i)) - (c.channels i).pos| ≤ vMax i * 65535)
    {r : Ctx × (Axis → ℤ)} (hr : Rounded.drawCurve fl e c start curve v = some r) (he : ∀ i, r.2 i ≤ 2 ^ 60) :
    CheckedSvg.drawCurve fl e c start curve v = some r := by
  unfold Rounded.drawCurve at hr
  unfold CheckedSvg.drawCurve
  by_cases hne : curve.isEmpty
  · rw [if_pos hne] at hr ⊢
    exact hr
  rw [if_neg hne] at hr ⊢
  obtain ⟨c1, h1, hr⟩ := Option.bind_eq_some_iff.1 hr
  obtain ⟨c2, h2, hr⟩ := Option.bind_eq_some_iff.1 hr
  obtain ⟨c3, h3, hr⟩ := Option.bind_eq_some_iff.1 hr
  obtain ⟨s1, ch1, p1, k1, m1, a1, w1⟩ := weight_now h h1
  obtain ⟨-, -, av⟩ := s1.reach.inv
  have lim : ∀ i, InLimits (Draw.round (fl (coord start i * e.stepScale i)) - (c1.channels i).pos) (c1.channels i).v
      (Draw.round (stepV fl e ((concatInfo fl e curve).value 0).2 v i)) (aMax i) (vMax i) := by
    intro i
    have h0 := hM.v2 i
    rw [ch1]
    refine ⟨hM.a1 i, hM.v1 i, by norm_num at *; omega, hc i, abs_round_le (hd i), ?_⟩
    refine (hf i).trans ?_
    norm_num at *
    omega
  have h2' := gotoSpeed_ge hM hb av.1 av.2.1 (by rw [ch1]; exact hc) (by rw [ch1]; exact hp) hs
    (by intro i; cases i; exacts [hd .x, hd .y]) (by rw [ch1]; exact hf) c2 h2
  have g2 := h2
  unfold Rounded.gotoSpeed at g2
  have e1 := Rounded.toSteps_ok (hs .x)
  have e2 := Rounded.toSteps_ok (hs .y)
  have e3 := Rounded.toStepV_ok (x := (vmul fl ((concatInfo fl e curve).value 0).2 v).x) (hM.v2 .x) (hd .x)
  have e4 := Rounded.toStepV_ok (x := (vmul fl ((concatInfo fl e curve).value 0).2 v).y) (hM.v2 .y) (hd .y)
  simp only [coord] at e1 e2
  simp only [e1, e2, e3, e4, Option.bind_eq_bind, Option.bind_some] at g2
  have s2 : Sync aMax vMax c2 := .step (op := .goto _ _ _ _) s1 trivial g2
  obtain ⟨s3, ch3, p3, k3, m3, a3, w3⟩ := weight_now s2 h3
  obtain ⟨-, -, av3⟩ := s3.reach.inv
  obtain ⟨ar, apx, apy, -⟩ := C25_arrives aMax vMax c1 c2 s1.reach _ _ _ _ (lim .x) (lim .y) g2
  have hv3 : ∀ i, |(c3.channels i).v| ≤ c3.vMax i := by
    intro i
    rw [ch3, av3.2.1]
    have e1 := congrArg Prod.fst ar
    have e2 := congrArg Prod.snd ar
    simp only [Ctx.velocity] at e1 e2
    cases i
    · rw [e1]; exact (lim .x).stop
    · rw [e2]; exact (lim .y).stop
  have hp3 : ∀ i, |(c3.channels i).pos| ≤ 2 ^ 60 + 2 := by
    intro i
    have h1 : |Draw.round (fl (coord start i * e.stepScale i))| ≤ 2 ^ 60 + 1 := by
      apply abs_round_le
      have := hs i
      push_cast
      norm_num at *
      linarith
    have h2 : |(c2.channels i).pos - Draw.round (fl (coord start i * e.stepScale i))| ≤ 1 := by
      cases i
      · exact apx
      · exact apy
    rw [ch3]
    rw [abs_le] at *
    norm_num at *
    omega
  have hst : (approxSteps fl (concatInfo fl e curve) v : ℤ) ≤ 2 ^ 31 := by
    unfold approxSteps satI32
    split
    · norm_num
    · split
      · norm_num
      · norm_num at *
        omega
  simp only [h1, h2', h3, Option.bind_eq_bind, Option.bind_some]
  refine approxCurve_ge s3.inv.1 hv3 (fun i => by rw [av3.2.1]; have := hb i; norm_num at this ⊢; omega) (fun i => ?_) hr he
  have h1 : c3.vMax i * (approxSteps fl (concatInfo fl e curve) v : ℤ) ≤ 2 ^ 24 * 2 ^ 31 := by
    refine mul_le_mul ?_ hst (by positivity) (by norm_num)
    rw [av3.2.1]
    exact hb i
  have h2 := hp3 i
  norm_num at h1 h2 ⊢
  linarith


/-! ### Paths -/

theorem flush_ge {fl : ℝ → ℝ} (R : FloatRounding fl) {aMax vMax : Axis → ℤ} {e : Rounded.Env} {v S M D ε κ : ℝ} {N m : ℕ}
    (hM : Machine aMax vMax) (hb : ∀ i, vMax i ≤ 2 ^ 24) (L : CurveLimits e aMax vMax v S M D ε κ N m) {s s1 : Pen}
    (h : CurvePath.Fine fl e aMax vMax v S M s) (h1 : Rounded.flush fl e v s = some s1)
    (he : ∀ i, (s1.maxErr i : ℝ) ≤ 383 / 100 * S + 1) : flush fl e v s = some s1 := by
  have hg0 : ∀ i, 0 < e.stepScale i := fun i => lt_of_lt_of_le (by norm_num) (L.scale i)
  have hMg := L.range
  have hone := L.one
  have hbig := L.big
  have hsg : ∀ i, |coord s.start i * e.stepScale i| ≤ M * e.stepScale i := by
    intro i
    rw [abs_mul, abs_of_pos (hg0 i)]
    exact mul_le_mul_of_nonneg_right (h.start i).1 (hg0 i).le
  have hsf : ∀ i, |fl (coord s.start i * e.stepScale i)| ≤ M * e.stepScale i + 1 := by
    intro i
    have h1 := R.rel (x := coord s.start i * e.stepScale i) (M := 2 ^ 39) ((hsg i).trans (hMg i)) (by norm_num)
    obtain ⟨a1, a2⟩ := abs_le.1 h1
    obtain ⟨b1, b2⟩ := abs_le.1 (hsg i)
    norm_num at *
    rw [abs_le]; constructor <;> linarith
  have hs60 : ∀ i, |fl (coord s.start i * e.stepScale i)| ≤ 2 ^ 60 := by
    intro i
    have := hMg i
    exact (hsf i).trans (by norm_num at *; linarith)
  have hp61 : ∀ i, |(s.ctx.channels i).pos| ≤ 2 ^ 61 := by
    intro i
    have h1 : |((s.ctx.channels i).pos : ℝ)| ≤ 2 ^ 61 := by
      have := hMg i
      refine (h.pos i).trans ?_
      have : 2 * M * e.stepScale i = 2 * (M * e.stepScale i) := by ring
      norm_num at *
      linarith
    exact_mod_cast h1
  have herr : ∀ i, s1.maxErr i ≤ 2 ^ 60 := by
    intro i
    have : (s1.maxErr i : ℝ) ≤ 2 ^ 60 := (he i).trans (by norm_num; linarith)
    exact_mod_cast this
  unfold Rounded.flush at h1
  unfold flush
  obtain ⟨⟨c1, err⟩, hc, h1⟩ := Option.bind_eq_some_iff.1 h1
  have he' : ∀ i, err i ≤ 2 ^ 60 := by
    intro i
    cases h1
    exact (le_max_right _ _).trans ((accMax_eq _ _).symm.le.trans (herr i))
  have key : drawCurve fl e s.ctx s.start s.curves v = some (c1, err) := by
    by_cases hne : s.curves = []
    · unfold Rounded.drawCurve at hc
      unfold drawCurve
      rw [if_pos (by simp [hne])] at hc ⊢
      exact hc
    · refine drawCurve_ge hM hb h.sync h.vel hp61 hs60 (h.speed hne) (fun i => ?_) hc he'
      have h1 := round_near (fl (coord s.start i * e.stepScale i))
      have h2 := L.reach i
      obtain ⟨a1, a2⟩ := abs_le.1 h1
      obtain ⟨b1, b2⟩ := abs_le.1 (hsf i)
      obtain ⟨d1, d2⟩ := abs_le.1 (h.pos i)
      have h3 : |(Draw.round (fl (coord s.start i * e.stepScale i)) : ℝ) - (s.ctx.channels i).pos| ≤ vMax i * 65535 := by
        rw [abs_le]
        constructor <;> linarith
      exact_mod_cast h3
  rw [key]
  exact h1

theorem add_ge {fl : ℝ → ℝ} (R : FloatRounding fl) {aMax vMax : Axis → ℤ} {e : Rounded.Env} {v S M D ε κ : ℝ} {N m : ℕ}
    (hM : Machine aMax vMax) (hb : ∀ i, vMax i ≤ 2 ^ 24) (L : CurveLimits e aMax vMax v S M D ε κ N m) {s s1 : Pen}
    {k : Curve} {q : Vec} (h : CurvePath.Fine fl e aMax vMax v S M s) (h1 : Rounded.add fl e v s k q = some s1)
    (he : ∀ i, (s1.maxErr i : ℝ) ≤ 383 / 100 * S + 1) : add fl e v s k q = some s1 := by
  unfold Rounded.add at h1
  unfold add
  by_cases ht : turns fl s (k.value 0).2
  · rw [if_pos ht] at h1 ⊢
    obtain ⟨f', h0, h1⟩ := Option.bind_eq_some_iff.1 h1
    obtain ⟨f, hf, rfl⟩ := Option.map_eq_some_iff.1 h0
    have e1 : s1.maxErr = f.maxErr := by cases h1; rfl
    rw [flush_ge R hM hb L h hf (by rw [← e1]; exact he)]
    exact h1
  · rw [if_neg ht] at h1 ⊢
    exact h1

theorem goTo_ge {fl : ℝ → ℝ} (R : FloatRounding fl) {aMax vMax : Axis → ℤ} {e : Rounded.Env} {v S M D ε κ : ℝ} {N m : ℕ}
    (hM : Machine aMax vMax) (hb : ∀ i, vMax i ≤ 2 ^ 24) (L : CurveLimits e aMax vMax v S M D ε κ N m) {s s1 : Pen}
    {p : Vec} (h : CurvePath.Fine fl e aMax vMax v S M s) (h1 : Rounded.goTo fl e v s p = some s1)
    (he : ∀ i, (s1.maxErr i : ℝ) ≤ 383 / 100 * S + 1) : goTo fl e v s p = some s1 := by
  unfold Rounded.goTo at h1
  unfold goTo
  cases ha : atMachine fl e s p with
  | none => rw [ha] at h1; cases h1
  | some b =>
    rw [ha] at h1
    cases b
    · simp only [Option.bind_eq_bind, Option.bind_some, Bool.false_eq_true, if_false] at h1 ⊢
      obtain ⟨f, hf, h1⟩ := Option.bind_eq_some_iff.1 h1
      have e1 : s1.maxErr = f.maxErr := by cases h1; rfl
      rw [flush_ge R hM hb L h hf (by rw [← e1]; exact he)]
      exact h1
    · simp only [Option.bind_eq_bind, Option.bind_some, if_true] at h1 ⊢
      exact h1

theorem step_ge {fl : ℝ → ℝ} (R : FloatRounding fl) {aMax vMax : Axis → ℤ} {e : Rounded.Env} {v S M D ε κ : ℝ} {N m : ℕ}
    (hM : Machine aMax vMax) (hb : ∀ i, vMax i ≤ 2 ^ 24) (L : CurveLimits e aMax vMax v S M D ε κ N m) {s s1 : Pen}
    {seg : Seg} (h : CurvePath.Fine fl e aMax vMax v S M s) (h1 : Rounded.step fl e v s seg = some s1)
    (he : ∀ i, (s1.maxErr i : ℝ) ≤ 383 / 100 * S + 1) : step fl e v s seg = some s1 := by
  have add : ∀ {o : Option (Curve × Vec)}, (do let (k, q) ← o; Rounded.add fl e v s k q) = some s1 →
      (do let (k, q) ← o; add fl e v s k q) = some s1 := by
    intro o h1
    obtain ⟨⟨k, q⟩, rfl, h1⟩ := Option.bind_eq_some_iff.1 h1
    exact add_ge R hM hb L h h1 he
  cases seg with
  | goTo p => exact goTo_ge R hM hb L h h1 he
  | closeTo p =>
    simp only [Rounded.step] at h1
    simp only [step]
    by_cases hc : vlength fl (vsub fl s.current p) < fl (1 / 1000000)
    · rw [if_pos hc] at h1 ⊢
      exact h1
    · rw [if_neg hc] at h1 ⊢
      exact add h1
  | lineTo p => exact add h1
  | curveTo p c1 c2 => exact add h1
  | arc a b c d r => exact add h1

/-- The loop and the last `flush`. -/
theorem finish_ge {fl : ℝ → ℝ} (R : FloatRounding fl) {aMax vMax : Axis → ℤ} {e : Rounded.Env} {v S M D ε κ : ℝ} {N m : ℕ}
    (hM : Machine aMax vMax) (hb : ∀ i, vMax i ≤ 2 ^ 24) (L : CurveLimits e aMax vMax v S M D ε κ N m) {segs : List Seg} {s s' : Pen}
    (h : CurvePath.Along fl e v (CurvePath.Fine fl e aMax vMax v S M) segs s) (h' : Rounded.finish fl e v segs s = some s')
    (he : ∀ i, (s'.maxErr i : ℝ) ≤ 383 / 100 * S + 1) : (do let s ← run fl e v segs s; flush fl e v s) = some s' := by
  induction segs generalizing s with
  | nil => exact flush_ge R hM hb L h (by rwa [Rounded.finish_nil] at h') he
  | cons seg segs ih =>
    obtain ⟨s1, h1, h2⟩ := Rounded.finish_cons.1 h'
    have h3 := h.2 s1 h1
    have h4 : CurvePath.Fine fl e aMax vMax v S M s1 := by
      cases segs with
      | nil => exact h3
      | cons => exact h3.1
    have := ih h3 h2
    simp only [run, step_ge R hM hb L h.1 h1 h4.err, Option.bind_eq_bind, Option.bind_some]
    exact this

end StepperPaths.CheckedSvg
