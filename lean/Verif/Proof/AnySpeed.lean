import Verif.Proof.Draws
import Verif.Proof.Limits
import Verif.Proof.LimitsSvg

/-! The limits during moves, whatever the input. -/

namespace StepperPaths.Proof
open Context Control Spec IntegerCurve Config Raster StepperPaths.Svg Rounded StepperPaths.Cli Props Special
open Coords Curves
open Draw (Pen Seg Approx)
open Checked.OneSide (Within)

theorem toI32_range {x y : ℤ} (h : toI32 x = some y) : y = x ∧ -2 ^ 31 ≤ x ∧ x < 2 ^ 31 := by
  unfold toI32 at h
  split at h
  · cases h; refine ⟨rfl, ?_⟩; norm_num; omega
  · cases h

theorem accDistance_range {segs : List AccSegment} : ∀ {s v s' v' : ℤ}, |v| ≤ 2 ^ 31 →
    Checked.accDistanceFrom s v segs = some (s', v') → |v'| ≤ 2 ^ 31 := by
  induction segs with
  | nil => intro s v s' v' h hp; cases hp; exact h
  | cons seg segs ih =>
    intro s v s' v' h hp
    obtain ⟨w, h1, hp⟩ := Option.bind_eq_some_iff.1 hp
    obtain ⟨_, -, hp⟩ := Option.bind_eq_some_iff.1 hp
    obtain ⟨_, -, hp⟩ := Option.bind_eq_some_iff.1 hp
    refine ih ?_ hp
    obtain ⟨rfl, h2, h3⟩ := toI32_range h1
    rw [abs_le]
    omega

theorem gotoChannel_range {c c' : Ctx} {i : Axis} {seq : List AccSegment} {v : ℤ} (hv : |(c.channels i).v| ≤ 2 ^ 31)
    (h : Checked.gotoChannel c i seq v = some c') : |v| ≤ 2 ^ 31 ∧ ∀ j, (c'.channels j).v = (c.channels j).v := by
  unfold Checked.gotoChannel at h
  obtain ⟨⟨s, w⟩, h1, h⟩ := Option.bind_eq_some_iff.1 h
  obtain ⟨_, -, h⟩ := Option.bind_eq_some_iff.1 h
  rw [cassert_bind] at h
  obtain ⟨e, h⟩ := h
  have e' := Option.some.inj h
  rw [← e', ← show w = v from e]
  refine ⟨accDistance_range hv h1, fun j => ?_⟩
  by_cases hj : j = i
  · subst hj; simp [Ctx.setCh]
  · simp [Ctx.setCh, hj]

/-- The limits of a machine. -/
structure Limits (aMax vMax : Axis → ℤ) : Prop where
  acc : ∀ i, 1 ≤ aMax i
  one : ∀ i, 1 ≤ vMax i
  big : ∀ i, vMax i < 2 ^ 31

/-- Limits with which a move to a point may return. -/
theorem Limits.of_not_stuck {aMax vMax : Axis → ℤ} (ha : ∀ i, 0 ≤ aMax i) (hv : ∀ i, vMax i < 2 ^ 31) (ns : ¬ Stuck aMax vMax) :
    Limits aMax vMax := by
  have a1 : ∀ i, 1 ≤ aMax i := fun i => by
    by_contra hc
    exact ns ⟨i, .inl (by have := ha i; omega)⟩
  refine ⟨a1, fun i => ?_, hv⟩
  by_contra hc
  rcases lt_or_eq_of_le (show vMax i ≤ 0 by omega) with h1 | h1
  · exact ns ⟨i, .inr (.inl h1)⟩
  · exact ns ⟨i, .inr (.inr ⟨h1, a1 i⟩)⟩

theorem Limits.of_svg {fl : ℝ → ℝ} {e : Rounded.Env} {aMax vMax : Axis → ℤ} (ha : ∀ i, 0 ≤ aMax i) (hv : ∀ i, vMax i < 2 ^ 31)
    {w : ℤ} {path : List Seg} {v : Num} {n : ℕ} {c : Ctx} (h : Special.svgEvents fl e aMax vMax w path v n = some c) : Limits aMax vMax := by
  refine .of_not_stuck ha hv fun s => ?_
  obtain ⟨c1, c2, h1, h2, -⟩ := svg_last h
  have S : Sync aMax vMax c1 := (Sync.keeps aMax vMax).times (.step (op := .setWeight w) .new trivial rfl) h1
  have := stuck_goto (c := c1) (by rw [S.reach.inv.2.2.1, S.reach.inv.2.2.2.1]; exact s) 0 0 rfl rfl
  rw [Checked.stepGotoSpeed_le _ _ _ _ _ _ h2] at this
  cases this

theorem Limits.of_raster {aMax vMax : Axis → ℤ} (ha : ∀ i, 0 ≤ aMax i) (hv : ∀ i, vMax i < 2 ^ 31)
    {p : Params} {img : Image} {c : Ctx} (h : Checked.raster p img (Ctx.new aMax vMax) = some c) : Limits aMax vMax := by
  refine .of_not_stuck ha hv fun s => ?_
  rw [stuck_checkedRaster (c := Ctx.new aMax vMax) s] at h
  cases h

/-- A move that returns, from speeds not above the limit. -/
theorem goto_any {aMax vMax : Axis → ℤ} (L : Limits aMax vMax) {c c' : Ctx} (S : Sync aMax vMax c)
    (hv : ∀ i, (c.channels i).v ≤ vMax i ∧ |(c.channels i).v| ≤ 2 ^ 31) {x y vx vy : ℤ}
    (h : Checked.stepGotoSpeed c x y vx vy = some c') :
    ∃ l : Axis → List ℤ, Moved c c' l ∧ ∀ i, |both vx vy i| ≤ 2 ^ 31 ∧
      |dist (c.channels i).v (l i) - (both x y i - (c.channels i).pos)| ≤ 1 ∧ 1 ≤ (l i).length ∧
      Within (aMax i) (min (-vMax i) (min (c.channels i).v (both vx vy i))) (vMax i) (c.channels i).v (both vx vy i) (l i) := by
  have ha' := S.reach.inv.2.2.1
  have hv' := S.reach.inv.2.2.2.1
  obtain ⟨sx, sy, hs, -, M, -, -, -, -⟩ := goto_spec S.inv.1 (Checked.stepGotoSpeed_le _ _ _ _ _ _ h)
  unfold Checked.stepGotoSpeed at h
  rw [cassert_bind] at h
  obtain ⟨b1, h⟩ := h
  rw [cassert_bind] at h
  obtain ⟨b2, h⟩ := h
  obtain ⟨c1, h1, h⟩ := Option.bind_eq_some_iff.1 h
  obtain ⟨-, e1⟩ := push_eq h1
  have d1 : c1.channels = c.channels := by rw [e1]
  have d2 : c1.aMax = c.aMax := by rw [e1]
  have d3 : c1.vMax = c.vMax := by rw [e1]
  obtain ⟨lx, ex, h⟩ := Option.bind_eq_some_iff.1 h
  obtain ⟨ly, ey, h⟩ := Option.bind_eq_some_iff.1 h
  obtain ⟨seq, es, h⟩ := Option.bind_eq_some_iff.1 h
  have elx := Option.some.inj (Checked.limits_le _ _ _ _ _ ex)
  have ely := Option.some.inj (Checked.limits_le _ _ _ _ _ ey)
  have el : ∀ j z u, c1.limits j z u = c.limits j z u := fun j z u => by unfold Ctx.limits; rw [d1, d2, d3]
  rw [el] at elx ely
  have es' := Checked.shortestCurveSequences_le _ _ es
  rw [← elx, ← ely, hs, Option.some.injEq] at es'
  rw [← es'] at h
  rw [← es', ← elx, ← ely] at es
  simp only at h
  unfold Checked.gotoFollow at h
  obtain ⟨c2, g1, h⟩ := Option.bind_eq_some_iff.1 h
  obtain ⟨c3, g2, -⟩ := Option.bind_eq_some_iff.1 h
  obtain ⟨r1, k1⟩ := gotoChannel_range (by rw [d1]; exact (hv .x).2) g1
  obtain ⟨r2, -⟩ := gotoChannel_range (by rw [k1, d1]; exact (hv .y).2) g2
  have b1' : vx ≤ vMax .x := by rw [← hv']; exact b1
  have b2' : vy ≤ vMax .y := by rw [← hv']; exact b2
  have AS : ∀ i z u, |u| ≤ 2 ^ 31 → u ≤ vMax i → Checked.OneSide.Asserted (c.limits i z u) := by
    intro i z u hu hu'
    have L1 := L.acc i; have L2 := L.one i; have L3 := L.big i
    refine ⟨⟨?_, ?_, ?_, (hv i).2, hu⟩, ?_, ?_⟩ <;> simp only [Ctx.limits, ha', hv']
    · exact L1
    · exact L2
    · exact L3.le
    · exact (hv i).1
    · exact hu'
  obtain ⟨T, F⟩ := Checked.OneSide.sequences_some (by
    intro l hl
    simp only [List.mem_cons, List.not_mem_nil, or_false] at hl
    rcases hl with rfl | rfl
    · exact AS _ _ _ r1 b1'
    · exact AS _ _ _ r2 b2') es
  simp only [List.forall₂_cons, List.forall₂_nil_right_iff, and_true] at F
  obtain ⟨⟨t1, t2, t3, t4⟩, ⟨-, u2, u3, u4⟩⟩ := F
  refine ⟨_, M, fun i => ?_⟩
  simp only [Ctx.limits, ha', hv'] at t3 t4 u3 u4
  cases i
  · exact ⟨r1, t3, by simp only [both]; omega, t4⟩
  · exact ⟨r2, u3, by simp only [both]; omega, u4⟩

/-! ### What has happened so far -/

/-- The speeds until now. -/
def Speeds (B : Axis → ℤ → Prop) (c : Ctx) : Prop := ∀ i, ∀ τ ≤ (c.channels i).ticks, B i (velAt i c.events τ)

/-- The accelerations until now, where the power is as described by `D`. -/
def Pulls (aMax : Axis → ℤ) (D : ℤ → Prop) (w0 : ℤ) (c : Ctx) : Prop :=
  ∀ i, ∀ τ < (c.channels i).ticks, D (weightAt w0 c.events τ) → |accAt i c.events τ| ≤ aMax i

section
variable {aMax vMax : Axis → ℤ} {B : Axis → ℤ → Prop} {D : ℤ → Prop} {w0 : ℤ} {c c' : Ctx}

theorem Speeds.same (h : Speeds B c) (hc : c'.channels = c.channels) (p : Draw.Past c c') : Speeds B c' := by
  intro i τ hτ
  rw [hc] at hτ
  rw [Raster.velAt_congr (p.acc i) hτ]
  exact h i τ hτ

theorem Pulls.same (S : Sync aMax vMax c) (h : Pulls aMax D w0 c) (hc : c'.channels = c.channels) (p : Draw.Past c c') : Pulls aMax D w0 c' := by
  have hxy := S.inv.2.1
  intro i τ hτ hD
  rw [hc] at hτ
  rw [p.acc i τ hτ]
  rw [p.weight w0 τ (by cases i <;> omega)] at hD
  exact h i τ hτ hD

theorem Speeds.moved (S : Sync aMax vMax c) (h : Speeds B c) {l : Axis → List ℤ} (M : Moved c c' l)
    (hl : ∀ i, ∀ u ∈ vels (c.channels i).v (l i), B i u) : Speeds B c' := by
  intro i τ hτ
  rw [M.ch i] at hτ
  simp only at hτ
  by_cases h1 : τ ≤ (c.channels i).ticks
  · rw [Raster.velAt_congr (es := c.events) (b := (c.channels i).ticks) (fun σ hσ => by rw [M.acc i σ (by omega), dif_neg (by omega)]) h1]
    exact h i τ h1
  · obtain ⟨k, rfl⟩ : ∃ k, τ = (c.channels i).ticks + k := ⟨τ - (c.channels i).ticks, by omega⟩
    rw [M.velAt S.reach.inv.2.1 i (by omega)]
    exact hl i _ (endVel_take_mem _ _ (by omega) (by omega))

theorem Pulls.moved (S : Sync aMax vMax c) (h : Pulls aMax D w0 c) {l : Axis → List ℤ} (M : Moved c c' l)
    (p : Draw.Past c c') (hl : ∀ i k, (hk : k < (l i).length) → D (weightAt w0 c'.events ((c.channels .x).ticks + k)) → |(l i)[k]| ≤ aMax i) :
    Pulls aMax D w0 c' := by
  have hxy := S.inv.2.1
  intro i τ hτ hD
  rw [M.ch i] at hτ
  simp only at hτ
  by_cases h1 : τ < (c.channels i).ticks
  · rw [p.acc i τ h1]
    rw [p.weight w0 τ (by cases i <;> omega)] at hD
    exact h i τ h1 hD
  · obtain ⟨k, rfl⟩ : ∃ k, τ = (c.channels i).ticks + k := ⟨τ - (c.channels i).ticks, by omega⟩
    rw [M.accAt i (by omega)]
    have e : (c.channels i).ticks = (c.channels .x).ticks := by cases i <;> omega
    rw [e] at hD
    exact hl i k (by omega) hD

theorem read_past (S : Sync aMax vMax c) (h : c.readEvents = some c') : c'.channels = c.channels ∧ Draw.Past c c' := by
  obtain ⟨-, -, -, q1, -, -, -, q5, -, -, q8, q9, -⟩ := readEvents_spec S.inv.1 h
  have hxy := S.inv.2.1
  refine ⟨q1, by rw [q1], fun i τ hτ => ?_, fun w τ hτ => ?_, q5⟩
  · rw [q8, if_pos (by cases i <;> omega)]
  · rw [q9, if_pos hτ]

theorem interval_past (S : Sync aMax vMax c) {ax ay : ℤ} {n : ℕ} (hn : n < 2 ^ 31) (h : c.addAccInterval ax ay n = some c') : Draw.Past c c' := by
  obtain ⟨M, -, -, -, -, hw⟩ := addAccInterval_spec S.inv.1 (by norm_num at hn; exact hn) h
  exact Draw.Moved.past M fun w τ _ => hw w τ

theorem channel_range {c c' : Ctx} {i : Axis} {a : ℤ} {n : ℕ} (h : c.addAccChannel i a n = some c') : |(c'.channels i).v| ≤ 2 ^ 31 := by
  unfold Ctx.addAccChannel at h
  obtain ⟨dv, -, h⟩ := Option.bind_eq_some_iff.1 h
  obtain ⟨v, h2, h⟩ := Option.bind_eq_some_iff.1 h
  obtain ⟨c1, -, h⟩ := Option.bind_eq_some_iff.1 h
  cases h
  obtain ⟨h0, h1⟩ := toI32_range h2
  have : |v| ≤ 2 ^ 31 := by rw [abs_le]; omega
  simpa [Ctx.setCh] using this

theorem interval_range (hn : Near c) {ax ay : ℤ} {n : ℕ} (h2 : n < 2147483648) (h : c.addAccInterval ax ay n = some c') (i : Axis) :
    |(c'.channels i).v| ≤ 2 ^ 31 := by
  unfold Ctx.addAccInterval at h
  rw [cassert_bind] at h
  obtain ⟨h1, h⟩ := h
  obtain ⟨c1, e1, h⟩ := Option.bind_eq_some_iff.1 h
  obtain ⟨c2, e2, h⟩ := Option.bind_eq_some_iff.1 h
  rw [cassert_bind] at h
  obtain ⟨-, h⟩ := h
  have h := Option.some.inj h
  subst h
  obtain ⟨-, n1, -⟩ := addAccChannel_spec hn h2 e1
  obtain ⟨-, -, -, o2, -⟩ := addAccChannel_spec n1 h2 e2
  cases i with
  | x => rw [o2 .x (by simp)]; exact channel_range e1
  | y => exact channel_range e2

/-- The limit on the speed during a stroke never gives more than the limit to the right. -/
theorem limitSpeed_above {v m a b : ℤ} (hm : 0 ≤ m) (hv : v ≤ m) (ha : -32768 ≤ a ∧ a ≤ 32767) (h : limitSpeed v m a = some b) : v + b ≤ m := by
  unfold limitSpeed at h
  split_ifs at h with h1 h2
  · obtain ⟨s, hs, h⟩ := Option.bind_eq_some_iff.1 h
    obtain ⟨rfl, -⟩ := toI32_range hs
    split_ifs at h with h3
    · obtain ⟨d, hd, rfl⟩ := Option.map_eq_some_iff.1 h
      obtain ⟨rfl, -⟩ := toI32_range hd
      unfold asI16
      simp only
      split_ifs <;> omega
    · have := Option.some.inj h; omega
  · obtain ⟨s, hs, h⟩ := Option.bind_eq_some_iff.1 h
    obtain ⟨rfl, -⟩ := toI32_range hs
    split_ifs at h with h3
    · obtain ⟨d, hd, rfl⟩ := Option.map_eq_some_iff.1 h
      obtain ⟨rfl, -⟩ := toI32_range hd
      unfold asI16
      simp only
      split_ifs <;> omega
    · have := Option.some.inj h; omega
  · have := Option.some.inj h; omega

/-! ### Places and speeds -/

theorem dist_even (v : ℤ) (l : List ℤ) : 2 ∣ dist v l - v - endVel v l := by
  induction l generalizing v with
  | nil => simp only [Spec.dist, endVel]; omega
  | cons a l ih => have := ih (v + a); simp only [Spec.dist, endVel]; omega

/-- After a move back to the start that ends at rest. -/
theorem home (L : Limits aMax vMax) {c1 c2 : Ctx} (S : Sync aMax vMax c1) (hv : ∀ i, (c1.channels i).v ≤ vMax i ∧ |(c1.channels i).v| ≤ 2 ^ 31)
    (h : Checked.stepGotoSpeed c1 0 0 0 0 = some c2) (hr : c2.readEvents = some c) (i : Axis) : posAt i c.events (c.channels i).ticks = 0 := by
  obtain ⟨l, M, hl⟩ := goto_any L S hv h
  have S2 := (Sync.keeps aMax vMax).cgoto S h
  have S3 := (Sync.keeps aMax vMax).read S2 hr
  obtain ⟨-, h1, -, W⟩ := hl i
  have b0 : ∀ i, both (0 : ℤ) 0 i = 0 := fun i => by cases i <;> rfl
  have p0 := S.reach.inv.2.1.pos i
  have v0 := S.reach.inv.2.1.vel i
  have e0 : 2 ∣ (c1.channels i).pos - 0 - (c1.channels i).v := by rw [p0, v0]; exact dist_even _ _
  have e1 := dist_even (c1.channels i).v (l i)
  rw [W.endv, b0] at e1
  rw [b0, abs_le] at h1
  rw [← S3.reach.inv.2.1.pos i, (read_past S2 hr).1, M.ch i]
  simp only
  omega

/-! ### `svg_path` -/

/-- Between the calls of `svg_path`. -/
structure Along (aMax vMax : Axis → ℤ) (w w0 : ℤ) (c : Ctx) : Prop where
  sync : Sync aMax vMax c
  mw : c.moveWeight = 0
  cw : c.curveWeight = w
  now : ∀ i, (c.channels i).v ≤ vMax i ∧ |(c.channels i).v| ≤ 2 ^ 31
  speeds : Speeds (fun i v => v ≤ vMax i) c
  pulls : w ≠ 0 → Pulls aMax (· = 0) w0 c

theorem Along.draws (L : Limits aMax vMax) (w w0 : ℤ) : Draws (Along aMax vMax w w0)
    (fun c => Along aMax vMax w w0 c ∧ ∀ τ ≥ (c.channels .x).ticks, weightAt w0 c.events τ = w) where
  weak h := h.1
  move {c c'} h hc := by
    obtain ⟨S, q1, p, q2, q3, -, -⟩ := Draw.weight_now h.sync hc
    exact ⟨S, q3.trans h.mw, q2.trans h.cw, by rw [q1]; exact h.now, h.speeds.same q1 p, fun hw => (h.pulls hw).same h.sync q1 p⟩
  curve {c c'} h hc := by
    obtain ⟨S, q1, p, q2, q3, -, q4⟩ := Draw.weight_now h.sync hc
    refine ⟨⟨S, q3.trans h.mw, q2.trans h.cw, by rw [q1]; exact h.now, h.speeds.same q1 p, fun hw => (h.pulls hw).same h.sync q1 p⟩, fun τ hτ => ?_⟩
    rw [q1] at hτ
    rw [q4, if_neg (by omega), h.cw]
  goto {c c' x y vx vy} h hc := by
    have S := (Sync.keeps aMax vMax).cgoto h.sync hc
    obtain ⟨l, M, hl⟩ := goto_any L h.sync h.now hc
    have p := goto_past h.sync (Checked.stepGotoSpeed_le _ _ _ _ _ _ hc)
    refine ⟨S, M.mw.trans h.mw, M.cw.trans h.cw, fun i => ?_, h.speeds.moved h.sync M fun i u hu => ((hl i).2.2.2.vel u hu).2, fun hw => ?_⟩
    · rw [M.ch i]
      simp only
      rw [(hl i).2.2.2.endv]
      refine ⟨?_, (hl i).1⟩
      obtain ⟨b1, b2, -⟩ := stepGotoSpeed_eq (Checked.stepGotoSpeed_le _ _ _ _ _ _ hc)
      rw [h.sync.reach.inv.2.2.2.1] at b1 b2
      cases i <;> assumption
    · exact (h.pulls hw).moved h.sync M p.2 fun i k hk _ => (hl i).2.2.2.acc _ (List.getElem_mem _)
  tick {c c' ax ay} h ha hc := by
    obtain ⟨bx, yb, e1, e2, hc⟩ := approxTick_eq hc
    have hvm := h.1.sync.reach.inv.2.2.2.1
    have S := (Sync.keeps aMax vMax).tick h.1.sync hc
    obtain ⟨M, -, -, -, -, hw⟩ := addAccInterval_spec h.1.sync.inv.1 (by norm_num) hc
    have p := interval_past h.1.sync (by norm_num) hc
    have top : ∀ i, (c.channels i).v + both bx yb i ≤ vMax i := by
      intro i
      have L2 := L.one i
      cases i with
      | x => rw [hvm] at e1; exact limitSpeed_above (by omega) (h.1.now .x).1 (ha .x) e1
      | y => rw [hvm] at e2; exact limitSpeed_above (by omega) (h.1.now .y).1 (ha .y) e2
    refine ⟨⟨S, M.mw.trans h.1.mw, M.cw.trans h.1.cw, fun i => ⟨?_, interval_range h.1.sync.inv.1 (by norm_num) hc i⟩, ?_, fun h0 => ?_⟩, fun τ hτ => ?_⟩
    · rw [M.ch i]
      simpa [endVel] using top i
    · refine h.1.speeds.moved h.1.sync M fun i u hu => ?_
      have : u = (c.channels i).v + both bx yb i := by simpa [vels] using hu
      rw [this]
      exact top i
    · refine (h.1.pulls h0).moved h.1.sync M p fun i k hk hD => ?_
      rw [hw, h.2 _ (by omega)] at hD
      exact absurd hD h0
    · rw [hw]
      exact h.2 τ (p.ticks.trans hτ)
  read {c c'} h hc := by
    obtain ⟨q1, p⟩ := read_past h.sync hc
    obtain ⟨-, -, -, -, -, -, q4, q5, -⟩ := readEvents_spec h.sync.inv.1 hc
    exact ⟨(Sync.keeps aMax vMax).read h.sync hc, q4.trans h.mw, q5.trans h.cw, by rw [q1]; exact h.now, h.speeds.same q1 p,
      fun hw => (h.pulls hw).same h.sync q1 p⟩

theorem Along.new (L : Limits aMax vMax) (w w0 : ℤ) : Along aMax vMax w w0 ((Ctx.new aMax vMax).setWeight w) where
  sync := .step (op := .setWeight w) .new trivial rfl
  mw := rfl
  cw := rfl
  now i := by
    have := L.one i
    simp [Ctx.new, Ctx.setWeight]
    omega
  speeds i τ hτ := by
    have := L.one i
    simp [Ctx.new, Ctx.setWeight] at hτ ⊢
    subst hτ
    have e : velAt i [] 0 = 0 := rfl
    rw [e]
    simp
    omega
  pulls _ i τ hτ := by simp [Ctx.new, Ctx.setWeight] at hτ

/-! ### `image_raster` -/

/-- Between the calls of `image_raster`. -/
structure Across (aMax vMax : Axis → ℤ) (c : Ctx) : Prop where
  sync : Sync aMax vMax c
  now : ∀ i, -vMax i ≤ (c.channels i).v ∧ (c.channels i).v ≤ vMax i
  speeds : Speeds (fun i v => |v| ≤ vMax i) c
  pulls : Pulls aMax (fun _ => True) 0 c

theorem Across.scans (L : Limits aMax vMax) : Scans (Across aMax vMax) (fun v => -vMax .x ≤ v) where
  mark {c c' w} h hc := by
    obtain ⟨S, q1, p, q2, q3, -, -⟩ := Draw.weight_now h.sync hc
    exact ⟨S, by rw [q1]; exact h.now, h.speeds.same q1 p, h.pulls.same h.sync q1 p⟩
  goto {c c' x y vx} h hf hc := by
    have S := (Sync.keeps aMax vMax).cgoto h.sync hc
    have now : ∀ i, (c.channels i).v ≤ vMax i ∧ |(c.channels i).v| ≤ 2 ^ 31 := fun i => by
      have := h.now i
      have := L.big i
      refine ⟨by omega, ?_⟩
      rw [abs_le]
      norm_num at *
      omega
    obtain ⟨l, M, hl⟩ := goto_any L h.sync now hc
    have p := goto_past h.sync (Checked.stepGotoSpeed_le _ _ _ _ _ _ hc)
    obtain ⟨b1, b2, -⟩ := stepGotoSpeed_eq (Checked.stepGotoSpeed_le _ _ _ _ _ _ hc)
    rw [h.sync.reach.inv.2.2.2.1] at b1 b2
    have lo : ∀ i, -vMax i ≤ both vx 0 i ∧ both vx 0 i ≤ vMax i := fun i => by
      have := L.one i
      cases i with
      | x => exact ⟨hf, b1⟩
      | y => simp only [both]; omega
    refine ⟨S, fun i => ?_, h.speeds.moved h.sync M fun i u hu => ?_, ?_⟩
    · rw [M.ch i]
      simp only
      rw [(hl i).2.2.2.endv]
      exact lo i
    · have h1 := (hl i).2.2.2.vel u hu
      have h2 := lo i
      have h3 := h.now i
      rw [abs_le]
      refine ⟨le_trans ?_ h1.1, h1.2⟩
      exact le_min le_rfl (le_min h3.1 h2.1)
    · exact h.pulls.moved h.sync M p.2 fun i k hk _ => (hl i).2.2.2.acc _ (List.getElem_mem _)
  wait {c c' n} h hn hc := by
    have S : Sync aMax vMax c' := (Sync.keepsScan aMax vMax fun _ => True).wait h.sync hn hc
    obtain ⟨M, -, -, -, -, hw⟩ := addAccInterval_spec h.sync.inv.1 (by norm_num at hn; exact hn) hc
    have p := interval_past h.sync hn hc
    have z : ∀ i, both (0 : ℤ) 0 i = 0 := fun i => by cases i <;> rfl
    have ev : ∀ (v : ℤ) m, endVel v (List.replicate m 0) = v := fun v m => by induction m with
      | zero => rfl
      | succ m ih => simpa [List.replicate_succ, endVel] using ih
    refine ⟨S, fun i => ?_, h.speeds.moved h.sync M fun i u hu => ?_, h.pulls.moved h.sync M p fun i k hk _ => ?_⟩
    · rw [M.ch i]
      simp only [z, ev]
      exact h.now i
    · simp only [z] at hu
      have : ∀ m, ∀ u ∈ vels (c.channels i).v (List.replicate m 0), u = (c.channels i).v := by
        intro m
        induction m with
        | zero => simp [vels]
        | succ m ih => intro u hu; simp only [List.replicate_succ, vels, add_zero, List.mem_cons] at hu; exact hu.elim id (ih u)
      rw [this _ u hu, abs_le]
      exact h.now i
    · have := L.acc i
      simp [z]
      omega
  read {c c'} h hc := by
    obtain ⟨q1, p⟩ := read_past h.sync hc
    exact ⟨(Sync.keeps aMax vMax).read h.sync hc, by rw [q1]; exact h.now, h.speeds.same q1 p, h.pulls.same h.sync q1 p⟩

theorem Across.turns (L : Limits aMax vMax) {v : ℤ} (hv : 0 ≤ v) : Turns (Across aMax vMax) (fun v => -vMax .x ≤ v) v where
  zero := by have := L.one .x; omega
  fwd := by have := L.one .x; omega
  back {c c' x y} h hc := by
    obtain ⟨b1, -, -⟩ := stepGotoSpeed_eq (Checked.stepGotoSpeed_le _ _ _ _ _ _ hc)
    rw [h.sync.reach.inv.2.2.2.1] at b1
    omega

theorem Across.new (L : Limits aMax vMax) (w : ℤ) : Across aMax vMax ((Ctx.new aMax vMax).setWeight w) where
  sync := .step (op := .setWeight w) .new trivial rfl
  now i := by
    have := L.one i
    simp [Ctx.new, Ctx.setWeight]
    omega
  speeds i τ hτ := by
    have := L.one i
    simp [Ctx.new, Ctx.setWeight] at hτ ⊢
    subst hτ
    have e : velAt i [] 0 = 0 := rfl
    rw [e]
    simp
    omega
  pulls i τ hτ := by simp [Ctx.new, Ctx.setWeight] at hτ

end

end StepperPaths.Proof
