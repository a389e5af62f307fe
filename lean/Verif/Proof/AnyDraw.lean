import Verif.Proof.AnySpeed
import Verif.Spec.AnyStroke
import Verif.Proof.RoundedPath
import Verif.Proof.CheckedSvg
import Verif.Proof.Special

/-! What `svg_path` draws, with any numbers: the strokes of C90 and C91 without their conditions. -/

namespace StepperPaths.AnyDraw
open Coords Curves Context IntegerCurve Spec Props Rounded
open Proof hiding Along
open Draw (Pen Seg Approx Past coord accMax_eq)
open Special (Num)

variable {aMax vMax : Axis → ℤ} {fl : ℝ → ℝ} {e : Rounded.Env} {w : ℤ}

/-- One pass of the loop of `approx_curve`. -/
theorem pass_spec {start : Vec} {curve : Curve} {v p : ℝ} {s s' : Approx} (h : Sync aMax vMax s.ctx)
    (hp : CheckedSvg.approxPass fl e start curve v p s = some s') :
    Sync aMax vMax s'.ctx ∧ Past s.ctx s'.ctx ∧ (s'.ctx.channels .x).ticks = (s.ctx.channels .x).ticks + 1 ∧
      (∀ w0 τ, weightAt w0 s'.ctx.events τ = weightAt w0 s.ctx.events τ) ∧
      ∀ i, s.maxErr i ≤ s'.maxErr i ∧ |(s'.ctx.channels i).pos -
        Checked.satI64 (Draw.trunc (fl (fl (coord (curve.value p).1 i + coord start i) * e.stepScale i)))| ≤ s'.maxErr i := by
  unfold CheckedSvg.approxPass at hp
  obtain ⟨_, -, hp⟩ := Option.bind_eq_some_iff.1 hp
  obtain ⟨_, -, hp⟩ := Option.bind_eq_some_iff.1 hp
  obtain ⟨c, hc, hp⟩ := Option.bind_eq_some_iff.1 hp
  obtain ⟨ex, hx, hp⟩ := Option.bind_eq_some_iff.1 hp
  obtain ⟨ey, hy, hp⟩ := Option.bind_eq_some_iff.1 hp
  cases hp
  obtain ⟨bx, yb, -, -, hc⟩ := approxTick_eq (Checked.approxTick_le _ _ _ _ hc)
  have S := (Sync.keeps aMax vMax).tick h hc
  obtain ⟨M, -, -, -, -, hw⟩ := addAccInterval_spec h.inv.1 (by norm_num) hc
  have hp := interval_past h (by norm_num) hc
  have err : ∀ {ch : Channel} {x : ℝ} {n : ℤ}, Checked.passErr ch x = some n → n = |ch.pos - Checked.satI64 (Draw.trunc x)| := by
    intro ch x n h
    unfold Checked.passErr Checked.abs Checked.sub at h
    obtain ⟨d, h1, h2⟩ := Option.bind_eq_some_iff.1 h
    rw [Checked.ck_sound h2, Checked.ck_sound h1]
  refine ⟨S, hp, by simp only; rw [M.ch .x]; simp, hw, fun i => ?_⟩
  simp only [accMax_eq]
  refine ⟨le_max_left _ _, le_trans (le_of_eq ?_) (le_max_right _ _)⟩
  cases i
  · exact (err hx).symm
  · exact (err hy).symm

/-- The position at the end of what is known is that of the context. -/
theorem pos_now {c : Ctx} (h : Sync aMax vMax c) (i : Axis) : posAt i c.events (c.channels .x).ticks = (c.channels i).pos := by
  rw [h.reach.inv.2.1.pos i, Raster.same_ticks h i]

theorem vel_now {c : Ctx} (h : Sync aMax vMax c) (i : Axis) : velAt i c.events (c.channels .x).ticks = (c.channels i).v := by
  rw [h.reach.inv.2.1.vel i, Raster.same_ticks h i]

theorem past_pos {c c' : Ctx} (h : Sync aMax vMax c) (p : Past c c') (i : Axis) {τ : ℕ} (ht : τ ≤ (c.channels .x).ticks) :
    posAt i c'.events τ = posAt i c.events τ :=
  Raster.posAt_congr (p.acc i) (by rw [Raster.same_ticks h i]; exact ht)

theorem past_vel {c c' : Ctx} (h : Sync aMax vMax c) (p : Past c c') (i : Axis) {τ : ℕ} (ht : τ ≤ (c.channels .x).ticks) :
    velAt i c'.events τ = velAt i c.events τ :=
  Raster.velAt_congr (p.acc i) (by rw [Raster.same_ticks h i]; exact ht)

theorem past_trans {c1 c2 c3 : Ctx} (s1 : Sync aMax vMax c1) (s2 : Sync aMax vMax c2) (h12 : Past c1 c2) (h23 : Past c2 c3) : Past c1 c3 :=
  h12.trans h23 s1.inv.2.1 s2.inv.2.1

/-- The loop of `approx_curve`. -/
theorem loop_spec {start : Vec} {curve : Curve} {v l : ℝ} {n : ℕ} : ∀ {t : ℕ} {s s' : Approx}, Sync aMax vMax s.ctx →
    CheckedSvg.approxLoop fl e start curve v l t n s = some s' →
    Sync aMax vMax s'.ctx ∧ Past s.ctx s'.ctx ∧ (s'.ctx.channels .x).ticks = (s.ctx.channels .x).ticks + n ∧
      (∀ w0 τ, weightAt w0 s'.ctx.events τ = weightAt w0 s.ctx.events τ) ∧
      ∀ i, s.maxErr i ≤ s'.maxErr i ∧ ∀ k < n, |posAt i s'.ctx.events ((s.ctx.channels .x).ticks + (k + 1)) - Checked.satI64
        (Draw.trunc (fl (fl (coord (curve.value (fl ((t + k : ℕ) * l))).1 i + coord start i) * e.stepScale i)))| ≤ s'.maxErr i := by
  induction n with
  | zero => intro t s s' h hp; cases hp; exact ⟨h, .refl _, rfl, fun _ _ => rfl, fun i => ⟨le_rfl, fun k hk => by omega⟩⟩
  | succ n ih =>
    intro t s s' h hp
    obtain ⟨s1, h1, hp⟩ := Option.bind_eq_some_iff.1 hp
    obtain ⟨S1, p1, t1, w1, m1⟩ := pass_spec h h1
    obtain ⟨S2, p2, t2, w2, m2⟩ := ih S1 hp
    refine ⟨S2, past_trans h S1 p1 p2, by omega, fun w0 τ => (w2 w0 τ).trans (w1 w0 τ), fun i => ⟨(m1 i).1.trans (m2 i).1, fun k hk => ?_⟩⟩
    cases k with
    | zero =>
      rw [show (s.ctx.channels .x).ticks + (0 + 1) = (s1.ctx.channels .x).ticks by omega, past_pos S1 p2 i le_rfl, pos_now S1 i]
      exact (m1 i).2.trans (m2 i).1
    | succ k =>
      have := (m2 i).2 k (by omega)
      rw [t1, show (s.ctx.channels .x).ticks + 1 + (k + 1) = (s.ctx.channels .x).ticks + (k + 1 + 1) by omega,
        show t + 1 + k = t + (k + 1) by omega] at this
      exact this

/-- `approx_curve`. -/
theorem approx_spec {c c' : Ctx} {start : Vec} {curve : Curve} {v : Num} {err : Axis → ℤ} (h : Sync aMax vMax c)
    (hp : Special.approxCurve fl e c start curve v = some (c', err)) :
    Sync aMax vMax c' ∧ Past c c' ∧ (c'.channels .x).ticks = (c.channels .x).ticks + burnTicks fl curve.length v ∧
      (∀ w0 τ, weightAt w0 c'.events τ = weightAt w0 c.events τ) ∧
      ∀ i, 0 ≤ err i ∧ ∀ k < burnTicks fl curve.length v,
        |posAt i c'.events ((c.channels .x).ticks + (k + 1)) - burnPlace fl e start curve v i (k + 1)| ≤ err i := by
  unfold Special.approxCurve at hp
  simp only at hp
  split at hp
  · rename_i r l hl
    obtain ⟨s, h1, hp⟩ := Option.bind_eq_some_iff.1 hp
    obtain ⟨rfl, rfl⟩ : s.ctx = c' ∧ s.maxErr = err := by simpa using hp
    obtain ⟨S, p, t, hw, m⟩ := loop_spec (s := ⟨c, fun _ => 0, fun _ => 0⟩) h h1
    refine ⟨S, p, t, hw, fun i => ⟨(m i).1, fun k hk => ?_⟩⟩
    have := (m i).2 k hk
    unfold burnPlace
    have e1 : tickLength fl curve.length (.fin r) = l := by
      unfold tickLength
      rw [hl]
    rw [e1, Nat.add_comm k 1]
    simp only at this
    rwa [Nat.add_comm k 1] at this
  · split at hp
    · rename_i h0
      cases hp
      simp only [burnTicks, Int.toNat_of_nonpos h0]
      exact ⟨h, .refl _, by simp, fun _ _ => by simp, fun i => ⟨le_rfl, fun k hk => absurd hk (by omega)⟩⟩
    · cases hp

/-- A state between two calls. -/
structure Along (aMax vMax : Axis → ℤ) (w : ℤ) (c : Ctx) : Prop where
  sync : Sync aMax vMax c
  cw : c.curveWeight = w
  now : ∀ i, (c.channels i).v ≤ vMax i ∧ |(c.channels i).v| ≤ 2 ^ 31

theorem Along.mw {c : Ctx} (h : Along aMax vMax w c) : c.moveWeight = 0 := h.sync.reach.inv.2.2.2.2

theorem Along.draws (L : Limits aMax vMax) (w : ℤ) : Draws (Along aMax vMax w) (Along aMax vMax w) where
  weak h := h
  move {c c'} h hc := by
    obtain ⟨S, q1, p, q2, q3, -, -⟩ := Draw.weight_now h.sync hc
    exact ⟨S, q2.trans h.cw, by rw [q1]; exact h.now⟩
  curve {c c'} h hc := by
    obtain ⟨S, q1, p, q2, q3, -, q4⟩ := Draw.weight_now h.sync hc
    exact ⟨S, q2.trans h.cw, by rw [q1]; exact h.now⟩
  goto {c c' x y vx vy} h hc := by
    have S := (Sync.keeps aMax vMax).cgoto h.sync hc
    obtain ⟨l, M, hl⟩ := goto_any L h.sync h.now hc
    refine ⟨S, M.cw.trans h.cw, fun i => ?_⟩
    rw [M.ch i]
    simp only
    rw [(hl i).2.2.2.endv]
    refine ⟨?_, (hl i).1⟩
    obtain ⟨b1, b2, -⟩ := stepGotoSpeed_eq (Checked.stepGotoSpeed_le _ _ _ _ _ _ hc)
    rw [h.sync.reach.inv.2.2.2.1] at b1 b2
    cases i <;> assumption
  tick {c c' ax ay} h ha hc := by
    obtain ⟨bx, yb, e1, e2, hc⟩ := approxTick_eq hc
    have hvm := h.sync.reach.inv.2.2.2.1
    have S := (Sync.keeps aMax vMax).tick h.sync hc
    obtain ⟨M, -, -, -, -, hw⟩ := addAccInterval_spec h.sync.inv.1 (by norm_num) hc
    refine ⟨S, M.cw.trans h.cw, fun i => ⟨?_, interval_range h.sync.inv.1 (by norm_num) hc i⟩⟩
    have L2 := L.one i
    have top : (c.channels i).v + both bx yb i ≤ vMax i := by
      cases i with
      | x => rw [hvm] at e1; exact limitSpeed_above (by omega) (h.now .x).1 (ha .x) e1
      | y => rw [hvm] at e2; exact limitSpeed_above (by omega) (h.now .y).1 (ha .y) e2
    rw [M.ch i]
    simpa [endVel] using top
  read {c c'} h hc := by
    obtain ⟨q1, p⟩ := read_past h.sync hc
    obtain ⟨-, -, -, -, -, -, q4, q5, -⟩ := readEvents_spec h.sync.inv.1 hc
    exact ⟨(Sync.keeps aMax vMax).read h.sync hc, q5.trans h.cw, by rw [q1]; exact h.now⟩

theorem Along.new (L : Limits aMax vMax) (w : ℤ) : Along aMax vMax w ((Ctx.new aMax vMax).setWeight w) where
  sync := .step (op := .setWeight w) .new trivial rfl
  cw := rfl
  now i := by
    have := L.one i
    simp [Ctx.new, Ctx.setWeight]
    omega

/-- `draw_curve`. -/
theorem draw_spec (L : Limits aMax vMax) {c c' : Ctx} {start : Vec} {curve : Concat} {v : Num} {err : Axis → ℤ}
    (h : Along aMax vMax w c) (hne : curve ≠ []) (hp : Special.drawCurve fl e c start curve v = some (c', err)) :
    Past c c' ∧ ∃ a, AnyStroke fl e v w c'.events (c.channels .x).ticks a (c'.channels .x).ticks start (concatInfo fl e curve) err := by
  unfold Special.drawCurve at hp
  rw [if_neg (by simpa using hne)] at hp
  obtain ⟨c1, h1, hp⟩ := Option.bind_eq_some_iff.1 hp
  obtain ⟨c2, h2, hp⟩ := Option.bind_eq_some_iff.1 hp
  obtain ⟨c3, h3, hp⟩ := Option.bind_eq_some_iff.1 hp
  unfold Special.gotoSpeed at h2
  obtain ⟨x, hx, h2⟩ := Option.bind_eq_some_iff.1 h2
  obtain ⟨y, hy, h2⟩ := Option.bind_eq_some_iff.1 h2
  obtain ⟨vx, hvx, h2⟩ := Option.bind_eq_some_iff.1 h2
  obtain ⟨vy, hvy, h2⟩ := Option.bind_eq_some_iff.1 h2
  have A1 := (Along.draws L w).move h h1
  have A2 := (Along.draws L w).goto A1 h2
  obtain ⟨-, q1, p1, -⟩ := Draw.weight_now h.sync h1
  obtain ⟨-, p2⟩ := Raster.goto_past A1.sync (Checked.stepGotoSpeed_le _ _ _ _ _ _ h2)
  obtain ⟨l, M, hl⟩ := goto_any L A1.sync A1.now h2
  obtain ⟨-, -, -, -, -, -, -, -, hw2⟩ := goto_spec A1.sync.inv.1 (Checked.stepGotoSpeed_le _ _ _ _ _ _ h2)
  obtain ⟨S3, q3, p3, -, -, -, hw3⟩ := Draw.weight_now A2.sync h3
  obtain ⟨S4, p4, t4, hw4, m4⟩ := approx_spec S3 hp
  have t2 : (c.channels .x).ticks < (c2.channels .x).ticks := by
    rw [M.ch .x, q1]
    have := (hl .x).2.2.1
    simp only
    omega
  have p24 := past_trans A2.sync S3 p3 p4
  refine ⟨past_trans h.sync A1.sync p1 (past_trans A1.sync A2.sync p2 p24), (c2.channels .x).ticks, t2, by rw [t4, q3], fun w0 τ h5 h6 => ?_,
    fun w0 τ h5 h6 => ?_, fun i => ?_, ?_, fun i k hk => ?_⟩
  · rw [hw4, hw3, if_pos h6, hw2, if_neg (by rw [q1]; omega)]
    exact A1.mw
  · rw [hw4, hw3, if_neg (by omega)]
    exact A2.cw
  · have := (hl i).2.1
    rw [past_pos A2.sync p24 i le_rfl, pos_now A2.sync i, M.ch i]
    have e1 : both x y i = Draw.round (fl (coord start i * e.stepScale i)) := by
      cases i
      · exact toSteps_eq hx
      · exact toSteps_eq hy
    rw [← e1]
    simp only
    rw [abs_le] at this ⊢
    omega
  · cases v with
    | fin s =>
      refine ⟨s, rfl, fun i => ?_⟩
      rw [past_vel A2.sync p24 i le_rfl, vel_now A2.sync i, M.ch i]
      simp only
      rw [(hl i).2.2.2.endv]
      cases i
      · exact toStepV_eq hvx
      · exact toStepV_eq hvy
    | inf b =>
      rw [Special.toStepV_wild (Special.mul_wild _ (fun x hx => by cases hx))] at hvx
      cases hvx
    | nan =>
      rw [Special.toStepV_wild (Special.mul_wild _ (fun x hx => by cases hx))] at hvx
      cases hvx
  · have := (m4 i).2 k hk
    rw [q3] at this
    exact this

/-- What comes later does not change a stroke. -/
theorem _root_.StepperPaths.Spec.AnyStroke.mono {v : Num} {es es' : List Event} {t a b : ℕ} {start : Vec} {curve : Curve} {err err' : Axis → ℤ}
    (h : AnyStroke fl e v w es t a b start curve err) (hacc : ∀ i, ∀ τ < b, accAt i es' τ = accAt i es τ)
    (hw : ∀ w0, ∀ τ < b, weightAt w0 es' τ = weightAt w0 es τ) (herr : ∀ i, err i ≤ err' i) :
    AnyStroke fl e v w es' t a b start curve err' := by
  have hb := h.len
  refine ⟨h.move, hb, fun w0 τ h1 h2 => ?_, fun w0 τ h1 h2 => ?_, fun i => ?_, ?_, fun i k hk => ?_⟩
  · rw [hw w0 τ (by omega)]; exact h.off w0 τ h1 h2
  · rw [hw w0 τ h2]; exact h.on w0 τ h1 h2
  · rw [Raster.posAt_congr (hacc i) (by omega)]; exact h.begins i
  · obtain ⟨s, h1, h2⟩ := h.dir
    refine ⟨s, h1, fun i => ?_⟩
    rw [Raster.velAt_congr (hacc i) (by omega)]
    exact h2 i
  · rw [Raster.posAt_congr (hacc i) (by omega)]; exact (h.follows i k hk).trans (herr i)

theorem _root_.StepperPaths.Spec.AnyStrokes.le {v : Num} {es : List Event} {t T : ℕ} {err : Axis → ℤ} {l : List (Vec × Curve)}
    (h : AnyStrokes fl e v w es err t l T) : t ≤ T := by
  induction h with
  | nil => exact le_rfl
  | cons S _ ih => have := S.move; have := S.len; omega

theorem _root_.StepperPaths.Spec.AnyStrokes.mono {v : Num} {es es' : List Event} {t T : ℕ} {err : Axis → ℤ} {l : List (Vec × Curve)}
    (h : AnyStrokes fl e v w es err t l T) (hacc : ∀ i, ∀ τ < T, accAt i es' τ = accAt i es τ)
    (hw : ∀ w0, ∀ τ < T, weightAt w0 es' τ = weightAt w0 es τ) : AnyStrokes fl e v w es' err t l T := by
  induction h with
  | nil t => exact .nil t
  | cons S R ih =>
    have := R.le
    exact .cons (S.mono (fun i τ hτ => hacc i τ (by omega)) (fun w0 τ hτ => hw w0 τ (by omega)) fun _ => le_rfl) (ih hacc hw)

/-! ### The strokes of a path -/

theorem flush_eq {v : Num} {s s' : Pen} (h : Special.flush fl e v s = some s') :
    ∃ err, Special.drawCurve fl e s.ctx s.start s.curves v = some (s'.ctx, err) ∧
      s' = { s with ctx := s'.ctx, maxErr := fun i => max (s.maxErr i) (err i), curves := [],
                    drawn := s.drawn ++ [(s.start, s.curves)] } := by
  unfold Special.flush at h
  obtain ⟨⟨c, err⟩, h1, h⟩ := Option.bind_eq_some_iff.1 h
  cases h
  refine ⟨err, h1, ?_⟩
  simp only [accMax_eq]

theorem goTo_eq {v : Num} {s s' : Pen} {p : Vec} (h : Special.goTo fl e v s p = some s') :
    (atMachine fl e s p = some true ∧ s' = { s with skipped := s.skipped ++ [(p, s.current)] }) ∨
    (∃ s1, Special.flush fl e v s = some s1 ∧ s' = { s1 with current := p, start := p, prevDir := none }) := by
  unfold Special.goTo at h
  obtain ⟨b, hb, h⟩ := Option.bind_eq_some_iff.1 h
  cases b
  · right
    simp only [Bool.false_eq_true, if_false] at h
    obtain ⟨s1, h1, h⟩ := Option.bind_eq_some_iff.1 h
    cases h
    exact ⟨s1, h1, rfl⟩
  · left
    simp only [if_true] at h
    cases h
    exact ⟨hb, rfl⟩

theorem add_eq {v : Num} {s s' : Pen} {info : Curve} {next : Vec} (h : Special.add fl e v s info next = some s') :
    (∃ s1, Special.flush fl e v s = some s1 ∧
      s' = { s1 with current := next, start := s.current, prevDir := some (info.value info.length).2,
                     curves := concatAdd fl [] info }) ∨
    s' = { s with current := next, prevDir := some (info.value info.length).2, curves := concatAdd fl s.curves info } := by
  unfold Special.add at h
  by_cases ht : turns fl s (info.value 0).2
  · left
    rw [if_pos ht] at h
    obtain ⟨s2, h0, h⟩ := Option.bind_eq_some_iff.1 h
    obtain ⟨s1, h1, h2⟩ := Option.map_eq_some_iff.1 h0
    cases h
    subst h2
    obtain ⟨err, -, e1⟩ := flush_eq h1
    refine ⟨s1, h1, ?_⟩
    rw [e1]
  · right
    rw [if_neg ht] at h
    cases h
    rfl

theorem step_cases (R : FloatRounding fl) {v : Num} {s s' : Pen} {seg : Seg} (h : Special.step fl e v s seg = some s') :
    (∃ p, seg = .goTo p ∧ Special.goTo fl e v s p = some s') ∨
    (∃ p, seg = .closeTo p ∧ (s.current - p).length ≤ 1 / 1000000 + 1 / 10 ^ 12 ∧ s' = { s with current := p }) ∨
    FloatDraws s.current seg ∧
      ∃ info next, segInfo fl e s.current seg = some (info, next) ∧ Special.add fl e v s info next = some s' := by
  cases seg with
  | goTo p => exact .inl ⟨p, rfl, h⟩
  | lineTo p =>
    simp only [Special.step] at h
    obtain ⟨⟨a, b⟩, h1, h2⟩ := Option.bind_eq_some_iff.1 h
    exact .inr (.inr ⟨trivial, a, b, h1, h2⟩)
  | curveTo p c1 c2 =>
    simp only [Special.step] at h
    obtain ⟨⟨a, b⟩, h1, h2⟩ := Option.bind_eq_some_iff.1 h
    exact .inr (.inr ⟨trivial, a, b, h1, h2⟩)
  | arc rx ry a b r =>
    simp only [Special.step] at h
    obtain ⟨⟨a, b⟩, h1, h2⟩ := Option.bind_eq_some_iff.1 h
    exact .inr (.inr ⟨trivial, a, b, h1, h2⟩)
  | closeTo p =>
    simp only [Special.step] at h
    by_cases hs : vlength fl (vsub fl s.current p) < fl (1 / 1000000)
    · rw [if_pos hs] at h
      cases h
      exact .inr (.inl ⟨p, rfl, (short_cases R _ _).1 hs, rfl⟩)
    · rw [if_neg hs] at h
      obtain ⟨⟨a, b⟩, h1, h2⟩ := Option.bind_eq_some_iff.1 h
      exact .inr (.inr ⟨(short_cases R _ _).2 hs, a, b, h1, h2⟩)

/-- The rest of `draw_curves`, from some state of the loop on. -/
noncomputable def finish (fl : ℝ → ℝ) (e : Rounded.Env) (v : Num) (segs : List Seg) (s : Pen) : Option Pen := do
  let s ← Special.run fl e v segs s
  Special.flush fl e v s

theorem finish_cons {v : Num} {seg : Seg} {segs : List Seg} {s s' : Pen} :
    finish fl e v (seg :: segs) s = some s' ↔ ∃ s1, Special.step fl e v s seg = some s1 ∧ finish fl e v segs s1 = some s' := by
  unfold finish
  simp only [Special.run, Option.bind_eq_bind, Option.bind_assoc, Option.bind_eq_some_iff]

/-- What a later state has kept. -/
structure Kept (aMax vMax : Axis → ℤ) (w : ℤ) (s s' : Pen) : Prop where
  along : Along aMax vMax w s'.ctx
  past : Past s.ctx s'.ctx
  err : ∀ i, s.maxErr i ≤ s'.maxErr i

theorem Kept.trans {s1 s2 s3 : Pen} (h1 : Along aMax vMax w s1.ctx) (h12 : Kept aMax vMax w s1 s2) (h23 : Kept aMax vMax w s2 s3) :
    Kept aMax vMax w s1 s3 :=
  ⟨h23.along, past_trans h1.sync h12.along.sync h12.past h23.past, fun i => (h12.err i).trans (h23.err i)⟩

theorem flush_kept (L : Limits aMax vMax) {v : Num} {s s' : Pen} (h : Along aMax vMax w s.ctx) (hp : Special.flush fl e v s = some s') :
    Kept aMax vMax w s s' := by
  have A := (Along.draws L w).flush h hp
  obtain ⟨err, h1, h2⟩ := flush_eq hp
  refine ⟨A, ?_, fun i => by rw [h2]; exact le_max_left _ _⟩
  by_cases hne : s.curves = []
  · unfold Special.drawCurve at h1
    rw [if_pos (by simpa using hne)] at h1
    simp only [Option.some.injEq, Prod.mk.injEq] at h1
    rw [← h1.1]
    exact .refl _
  · exact (draw_spec L h hne h1).1

theorem step_kept (L : Limits aMax vMax) (R : FloatRounding fl) {v : Num} {s s' : Pen} {seg : Seg} (h : Along aMax vMax w s.ctx)
    (hp : Special.step fl e v s seg = some s') : Kept aMax vMax w s s' := by
  have refl : Kept aMax vMax w s s := ⟨h, .refl _, fun _ => le_rfl⟩
  rcases step_cases R hp with ⟨p, rfl, hp⟩ | ⟨p, rfl, -, rfl⟩ | ⟨-, info, next, -, hp⟩
  · rcases goTo_eq hp with ⟨-, rfl⟩ | ⟨s1, h1, rfl⟩
    · exact ⟨h, .refl _, fun _ => le_rfl⟩
    · obtain ⟨a, b, c⟩ := flush_kept L h h1
      exact ⟨a, b, c⟩
  · exact ⟨h, .refl _, fun _ => le_rfl⟩
  · rcases add_eq hp with ⟨s1, h1, rfl⟩ | rfl
    · obtain ⟨a, b, c⟩ := flush_kept L h h1
      exact ⟨a, b, c⟩
    · exact ⟨h, .refl _, fun _ => le_rfl⟩

theorem finish_kept (L : Limits aMax vMax) (R : FloatRounding fl) {v : Num} {segs : List Seg} : ∀ {s s' : Pen}, Along aMax vMax w s.ctx →
    finish fl e v segs s = some s' → Kept aMax vMax w s s' := by
  induction segs with
  | nil => intro s s' h hp; exact flush_kept L h hp
  | cons seg segs ih =>
    intro s s' h hp
    obtain ⟨s1, h1, h2⟩ := finish_cons.1 hp
    have k := step_kept L R h h1
    exact k.trans h (ih k.along h2)

/-- The stroke that is drawn by `flush`, if there is one. -/
theorem flush_strokes (L : Limits aMax vMax) {v : Num} {s s1 s' : Pen} (h : Along aMax vMax w s.ctx) (hp : Special.flush fl e v s = some s1)
    (k : Kept aMax vMax w s1 s') {l : List (Vec × Curve)} {T : ℕ}
    (hl : AnyStrokes fl e v w s'.ctx.events s'.maxErr (s1.ctx.channels .x).ticks l T) :
    AnyStrokes fl e v w s'.ctx.events s'.maxErr (s.ctx.channels .x).ticks (shapes fl e [(s.start, s.curves)] ++ l) T := by
  have A := (flush_kept L h hp).along
  obtain ⟨err, h1, h2⟩ := flush_eq hp
  by_cases hne : s.curves = []
  · unfold Special.drawCurve at h1
    rw [if_pos (by simpa using hne)] at h1
    simp only [Option.some.injEq, Prod.mk.injEq] at h1
    rw [← h1.1] at hl
    simpa [shapes, Draw.strokes, hne] using hl
  · obtain ⟨-, a, S⟩ := draw_spec L h hne h1
    have : shapes fl e [(s.start, s.curves)] = [(s.start, concatInfo fl e s.curves)] := by simp [shapes, Draw.strokes, hne]
    rw [this]
    refine .cons (S.mono (fun i τ hτ => k.past.acc i τ (by rw [Raster.same_ticks A.sync]; exact hτ)) (fun w0 τ hτ => k.past.weight w0 τ hτ)
      fun i => le_trans ?_ (k.err i)) hl
    rw [h2]
    exact le_max_right _ _

theorem shapes_append (a b : List (Vec × Concat)) : shapes fl e (a ++ b) = shapes fl e a ++ shapes fl e b := by
  simp [shapes, Draw.strokes]

/-- All strokes of `draw_curves`. -/
theorem finish_strokes (L : Limits aMax vMax) (R : FloatRounding fl) {v : Num} {segs : List Seg} : ∀ {s s' : Pen}, Along aMax vMax w s.ctx →
    finish fl e v segs s = some s' → ∃ D, s'.drawn = s.drawn ++ D ∧
      AnyStrokes fl e v w s'.ctx.events s'.maxErr (s.ctx.channels .x).ticks (shapes fl e D) (s'.ctx.channels .x).ticks := by
  have drawn : ∀ {s s1 : Pen}, Special.flush fl e v s = some s1 → s1.drawn = s.drawn ++ [(s.start, s.curves)] := by
    intro s s1 h
    obtain ⟨err, -, h2⟩ := flush_eq h
    rw [h2]
  induction segs with
  | nil =>
    intro s s' h hp
    have A := flush_kept L h hp
    refine ⟨_, drawn hp, ?_⟩
    have := flush_strokes L h hp ⟨A.along, .refl _, fun _ => le_rfl⟩ (.nil _)
    simpa using this
  | cons seg segs ih =>
    intro s s' h hp
    obtain ⟨s1, h1, h2⟩ := finish_cons.1 hp
    have k := step_kept L R h h1
    have k' := finish_kept L R k.along h2
    obtain ⟨D, d1, d2⟩ := ih k.along h2
    rcases step_cases R h1 with ⟨p, rfl, h1⟩ | ⟨p, rfl, -, rfl⟩ | ⟨-, info, next, -, h1⟩
    · rcases goTo_eq h1 with ⟨-, rfl⟩ | ⟨s2, h3, rfl⟩
      · exact ⟨D, d1, d2⟩
      · refine ⟨(s.start, s.curves) :: D, by rw [d1, drawn h3]; simp, ?_⟩
        rw [show (s.start, s.curves) :: D = [(s.start, s.curves)] ++ D from rfl, shapes_append]
        exact flush_strokes L h h3 ⟨k'.along, k'.past, k'.err⟩ d2
    · exact ⟨D, d1, d2⟩
    · rcases add_eq h1 with ⟨s2, h3, rfl⟩ | rfl
      · refine ⟨(s.start, s.curves) :: D, by rw [d1]; simp only; rw [drawn h3]; simp, ?_⟩
        rw [show (s.start, s.curves) :: D = [(s.start, s.curves)] ++ D from rfl, shapes_append]
        exact flush_strokes L h h3 ⟨k'.along, k'.past, k'.err⟩ d2
      · exact ⟨D, d1, d2⟩

/-- Which strokes these are, as in C91. -/
theorem finish_groups (L : Limits aMax vMax) (R : FloatRounding fl) {v : Num} {segs : List Seg} {s s' : Pen} {k t : ℕ} {g : List (Vec × Seg)}
    (hs : Along aMax vMax w s.ctx) (ht : t ≤ (s.ctx.channels .x).ticks)
    (h : finish fl e v segs s = some s') (hg : FloatGroup fl e (k * gap) g (s.start, s.curves.map Part.curve))
    (h0 : g = [] → Spec.Within (k * gap) s.current s.start) :
    ∃ segs' n l G D, Omit (FloatVisited fl e s'.ctx.events t (s'.ctx.channels .x).ticks) segs segs' ∧
      FloatIntended e s.current segs' n l ∧ s'.drawn = s.drawn ++ D ∧ G.flatten = g ++ l ∧
      List.Forall₂ (FloatGroup fl e ((k + n : ℕ) * gap)) G (curvesOf D) := by
  have flush : ∀ {s s1 : Pen}, Special.flush fl e v s = some s1 → s1.drawn = s.drawn ++ [(s.start, s.curves)] := by
    intro s s1 h
    obtain ⟨err, -, h2⟩ := flush_eq h
    rw [h2]
  have imp : ∀ {a b : ℕ} {x : List (List (Vec × Seg))} {l : List (Vec × List Curve)}, a ≤ b →
      List.Forall₂ (FloatGroup fl e (a * gap)) x l → List.Forall₂ (FloatGroup fl e (b * gap)) x l :=
    fun hab h => h.imp (fun _ _ hh => hh.mono hab)
  induction segs generalizing s k g with
  | nil => exact ⟨[], 0, [], [g], [(s.start, s.curves)], .nil, .nil _, flush h, by simp, .cons hg .nil⟩
  | cons seg segs ih =>
    obtain ⟨s1, h1, h2⟩ := finish_cons.1 h
    have hl1 := step_kept L R hs h1
    have hs1 := hl1.along
    have ht1 := ht.trans hl1.past.ticks
    rcases step_cases R h1 with ⟨p, rfl, h1⟩ | ⟨p, rfl, hsc, rfl⟩ | ⟨hd, info, next, hi, h1⟩
    · rcases goTo_eq h1 with ⟨hat, rfl⟩ | ⟨s2, h3, rfl⟩
      · obtain ⟨segs', n, l, G, D, a, b, c⟩ := ih hs1 ht1 h2 hg h0
        refine ⟨segs', n, l, G, D, .skip ?_ a, b, c⟩
        have hl := finish_kept L R hs1 h2
        refine ⟨_, ht, hl.past.ticks, fun i => ?_⟩
        have e1 := past_pos hs1.sync hl.past i le_rfl
        rw [pos_now hs1.sync i] at e1
        rw [← atMachine_true hat i]
        exact e1
      · obtain ⟨err, -, h4⟩ := flush_eq h3
        have e1 : s2.curves = [] := by rw [h4]
        obtain ⟨segs', n, l, G, D, a, b, c, d, f⟩ := ih (k := 0) (g := []) hs1 ht1 h2
          ⟨by simp only [e1, List.map_nil]; exact .nil, by simp⟩ (fun _ => Draw.within_refl (by simp) _)
        refine ⟨.goTo p :: segs', n, l, g :: G, (s.start, s.curves) :: D, .keep _ a, .move b, ?_, ?_, ?_⟩
        · rw [c, flush h3]
          simp
        · simp [d]
        · exact .cons (hg.mono (by omega)) (imp (by omega) f)
    · have e1 : ((k + 1 : ℕ) : ℝ) * gap = k * gap + gap := by push_cast; ring
      obtain ⟨segs', n, l, G, D, a, b, c, d, f⟩ := ih (k := k + 1) (g := g) hs1 ht1 h2 (hg.mono (by omega))
        (fun hn => by rw [e1]; exact within_shift (h0 hn) hsc)
      exact ⟨.closeTo p :: segs', n + 1, l, G, D, .keep _ a, .short hsc b, c, d, imp (by omega) f⟩
    · have hend := segInfo_end hi
      rcases add_eq h1 with ⟨s2, h3, rfl⟩ | rfl
      · obtain ⟨segs', n, l, G, D, a, b, c, d, f⟩ := ih (k := 0) (g := [(s.current, seg)]) hs1 ht1 h2
          ⟨by
            simp only [map_add, List.map_nil, List.nil_append]
            exact .cons ⟨next, hi⟩ .nil, by
            intro a ha
            cases ha
            exact Draw.within_refl (by simp) _⟩ (by simp)
        refine ⟨seg :: segs', n, (s.current, seg) :: l, g :: G, (s.start, s.curves) :: D, .keep _ a, .draw hd hend b,
          ?_, ?_, ?_⟩
        · rw [c]
          simp only
          rw [flush h3]
          simp
        · simp [d]
        · exact .cons (hg.mono (by omega)) (imp (by omega) f)
      · obtain ⟨segs', n, l, G, D, a, b, c, d, f⟩ := ih (k := k) (g := g ++ [(s.current, seg)]) hs1 ht1 h2
          ⟨by
            simp only [map_add]
            exact List.rel_append hg.1 (.cons ⟨next, hi⟩ .nil), by
            intro a ha
            cases g with
            | nil =>
              cases ha
              exact h0 rfl
            | cons x g => exact hg.2 a ha⟩ (by simp)
        exact ⟨seg :: segs', n, (s.current, seg) :: l, G, D, .keep _ a, .draw hd hend b, c, by simp [d], f⟩

end StepperPaths.AnyDraw
