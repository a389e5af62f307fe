import Verif.Proof.Keeps
import Verif.Proof.Fast
import Verif.Props.Anything

/-!
C122: the speed limit is only checked in one direction.

`step_goto_speed` asserts that the speeds at the end of a move are not above the limit, but not that they are not below its
negative.  So a stroke that starts to the right or up with more than the speed limit stops the program, while a stroke that starts
to the left or down may be accepted, and then the machine is driven faster than its limit.
-/

namespace StepperPaths.Props
open Context Control Spec Proof IntegerCurve Rounded
open Coords (Vec)
open Curves (Curve Concat)
open Draw (Seg Pen)
open Special (Num)

/-- The speed in steps for each tick that a stroke starts with along axis `i`, when it starts in the direction `dir` and is drawn
with `v` mm for each tick. -/
noncomputable def startSpeed (fl : ℝ → ℝ) (e : Rounded.Env) (dir : Vec) (v : Num) (i : Axis) : Option ℤ :=
  Special.toStepV fl e (.mul fl (.fin (Draw.coord dir i)) v) i

/-- The direction that joined curves start with. -/
noncomputable def startDir (fl : ℝ → ℝ) (e : Rounded.Env) (curve : Concat) : Vec := ((concatInfo fl e curve).value 0).2

/-! ### Proofs -/

/-- At some time up to now the machine had these speeds. -/
def Had (k : Axis → ℤ) (c : Ctx) : Prop := ∃ τ ≤ (c.channels .x).ticks, ∀ i, velAt i c.events τ = k i

theorem Had.past {aMax vMax : Axis → ℤ} {k : Axis → ℤ} {c c' : Ctx} (S : Sync aMax vMax c) (h : Had k c) (p : Draw.Past c c') :
    Had k c' := by
  obtain ⟨τ, hτ, h⟩ := h
  refine ⟨τ, hτ.trans p.ticks, fun i => ?_⟩
  rw [← h i]
  have hxy := S.inv.2.1
  exact Raster.velAt_congr (p.acc i) (by cases i <;> omega)

theorem goto_past {c c' : Ctx} {x y vx vy : ℤ} (hn : Near c) (h : c.stepGotoSpeed x y vx vy = some c') : Draw.Past c c' := by
  obtain ⟨sx, sy, -, -, M, -, -, -, hw⟩ := goto_spec hn h
  exact Draw.Moved.past M fun w τ hτ => by rw [hw, if_pos hτ]

theorem Had.keeps (aMax vMax : Axis → ℤ) (k : Axis → ℤ) :
    Keeps (fun c => Sync aMax vMax c ∧ Had k c) (fun c => Sync aMax vMax c ∧ Had k c) where
  weak := id
  move {c c'} h hc := ⟨(Sync.keeps aMax vMax).move h.1 hc, h.2.past h.1 (Draw.weight_now h.1 hc).2.2.1⟩
  curve {c c'} h hc := ⟨(Sync.keeps aMax vMax).curve h.1 hc, h.2.past h.1 (Draw.weight_now h.1 hc).2.2.1⟩
  goto {c c' x y vx vy} h hc := ⟨(Sync.keeps aMax vMax).goto h.1 hc, h.2.past h.1 (goto_past h.1.inv.1 hc)⟩
  tick {c c' ax ay} h hc := ⟨(Sync.keeps aMax vMax).tick h.1 hc, h.2.past h.1
    (Draw.Moved.past (addAccInterval_spec h.1.inv.1 (by norm_num) hc).1 fun w τ _ => (addAccInterval_spec h.1.inv.1 (by norm_num) hc).2.2.2.2.2 w τ)⟩
  read {c c'} h hc := by
    refine ⟨(Sync.keeps aMax vMax).read h.1 hc, h.2.past h.1 ?_⟩
    obtain ⟨-, -, -, q1, -, -, -, q5, -, -, q8, q9, -⟩ := readEvents_spec h.1.inv.1 hc
    have hxy := h.1.inv.2.1
    refine ⟨by rw [q1], fun i τ hτ => ?_, fun w τ hτ => ?_, q5⟩
    · rw [q8, if_pos (by cases i <;> omega)]
    · rw [q9, if_pos hτ]

theorem goto_had {aMax vMax : Axis → ℤ} {c c' : Ctx} (S : Sync aMax vMax c) {x y vx vy : ℤ} (h : c.stepGotoSpeed x y vx vy = some c') :
    vx ≤ vMax .x ∧ vy ≤ vMax .y ∧ Had (both vx vy) c' := by
  have hv := S.reach.inv.2.2.2.1
  obtain ⟨h1, h2, -⟩ := stepGotoSpeed_eq h
  rw [hv] at h1 h2
  refine ⟨h1, h2, (c'.channels .x).ticks, le_rfl, fun i => ?_⟩
  have S' := (Sync.keeps aMax vMax).goto S h
  have e := (C23_events_reproduce_state aMax vMax c' S'.reach _ (Draw.ticks_of_sync S')).2
  obtain ⟨sx, sy, -, -, M, e1, e2, -, -⟩ := goto_spec S.inv.1 h
  simp only [Ctx.velocity, Prod.mk.injEq] at e
  cases i with
  | x => rw [← e.1, M.ch .x]; exact e1
  | y => rw [← e.2, M.ch .y]; exact e2

/-- What holds for every stroke that was drawn. -/
def Strokes (fl : ℝ → ℝ) (e : Rounded.Env) (vMax : Axis → ℤ) (v : Num) (drawn : List (Vec × Concat)) (c : Ctx) : Prop :=
  ∀ d ∈ drawn, d.2 ≠ [] → ∃ k : Axis → ℤ, (∀ i, startSpeed fl e (startDir fl e d.2) v i = some (k i) ∧ k i ≤ vMax i) ∧ Had k c

variable {fl : ℝ → ℝ} {e : Rounded.Env} {aMax vMax : Axis → ℤ} {v : Num}

theorem draw_had {c c' : Ctx} (S : Sync aMax vMax c) {start : Vec} {curve : Concat} {err : Axis → ℤ} (hne : curve ≠ [])
    (hp : Special.drawCurve fl e c start curve v = some (c', err)) :
    ∃ k : Axis → ℤ, (∀ i, startSpeed fl e (startDir fl e curve) v i = some (k i) ∧ k i ≤ vMax i) ∧ Had k c' := by
  unfold Special.drawCurve at hp
  rw [if_neg (by simpa using hne)] at hp
  obtain ⟨c1, h1, hp⟩ := Option.bind_eq_some_iff.1 hp
  obtain ⟨c2, h2, hp⟩ := Option.bind_eq_some_iff.1 hp
  obtain ⟨c3, h3, hp⟩ := Option.bind_eq_some_iff.1 hp
  unfold Special.gotoSpeed at h2
  obtain ⟨x, -, h2⟩ := Option.bind_eq_some_iff.1 h2
  obtain ⟨y, -, h2⟩ := Option.bind_eq_some_iff.1 h2
  obtain ⟨vx, ex, h2⟩ := Option.bind_eq_some_iff.1 h2
  obtain ⟨vy, ey, h2⟩ := Option.bind_eq_some_iff.1 h2
  have S1 := (Sync.keeps aMax vMax).move S h1
  have h2' := Checked.stepGotoSpeed_le _ _ _ _ _ _ h2
  obtain ⟨l1, l2, hh⟩ := goto_had S1 h2'
  refine ⟨both vx vy, fun i => ?_, ?_⟩
  · cases i with
    | x => exact ⟨ex, l1⟩
    | y => exact ⟨ey, l2⟩
  · have K := Had.keeps aMax vMax (both vx vy)
    exact (K.approx (K.curve ⟨(Sync.keeps aMax vMax).goto S1 h2', hh⟩ h3) hp).2

theorem Strokes.keep {drawn : List (Vec × Concat)} {c c' : Ctx} (h : Strokes fl e vMax v drawn c)
    (hk : ∀ k, Had k c → Had k c') : Strokes fl e vMax v drawn c' := by
  intro d hd hne
  obtain ⟨k, h1, h2⟩ := h d hd hne
  exact ⟨k, h1, hk k h2⟩

/-- The invariant of `draw_curves`. -/
def PenOk (fl : ℝ → ℝ) (e : Rounded.Env) (aMax vMax : Axis → ℤ) (v : Num) (s : Pen) : Prop :=
  Sync aMax vMax s.ctx ∧ Strokes fl e vMax v s.drawn s.ctx

theorem PenOk.flush {s s' : Pen} (h : PenOk fl e aMax vMax v s) (hp : Special.flush fl e v s = some s') : PenOk fl e aMax vMax v s' := by
  unfold Special.flush at hp
  obtain ⟨⟨c, err⟩, h1, hp⟩ := Option.bind_eq_some_iff.1 hp
  cases hp
  refine ⟨(Sync.keeps aMax vMax).draw h.1 h1, fun d hd hne => ?_⟩
  rcases List.mem_append.1 hd with hd | hd
  · exact h.2.keep (fun k hk => ((Had.keeps aMax vMax k).draw ⟨h.1, hk⟩ h1).2) d hd hne
  · rw [List.mem_singleton] at hd
    subst hd
    exact draw_had h.1 hne h1

theorem PenOk.add {s s' : Pen} {info : Curve} {next : Vec} (h : PenOk fl e aMax vMax v s)
    (hp : Special.add fl e v s info next = some s') : PenOk fl e aMax vMax v s' := by
  unfold Special.add at hp
  simp only at hp
  split at hp
  · obtain ⟨s1, h1, hp⟩ := Option.bind_eq_some_iff.1 hp
    obtain ⟨s2, h2, rfl⟩ := Option.map_eq_some_iff.1 h1
    cases hp
    exact (h.flush h2 : PenOk fl e aMax vMax v s2)
  · cases hp; exact h

theorem PenOk.run {segs : List Seg} : ∀ {s s' : Pen}, PenOk fl e aMax vMax v s → Special.run fl e v segs s = some s' →
    PenOk fl e aMax vMax v s' := by
  induction segs with
  | nil => intro s s' h hp; cases hp; exact h
  | cons seg segs ih =>
    intro s s' h hp
    obtain ⟨s1, h1, hp⟩ := Option.bind_eq_some_iff.1 hp
    refine ih ?_ hp
    unfold Special.step at h1
    split at h1
    · unfold Special.goTo at h1
      obtain ⟨b, -, h1⟩ := Option.bind_eq_some_iff.1 h1
      cases b with
      | true => cases h1; exact h
      | false =>
        obtain ⟨s2, h2, h1⟩ := Option.bind_eq_some_iff.1 h1
        cases h1
        exact (h.flush h2 : PenOk fl e aMax vMax v s2)
    · split at h1
      · cases h1; exact h
      · obtain ⟨⟨info, next⟩, -, h1⟩ := Option.bind_eq_some_iff.1 h1
        exact h.add h1
    · obtain ⟨⟨info, next⟩, -, h1⟩ := Option.bind_eq_some_iff.1 h1
      exact h.add h1

/-! ### The properties -/

/-- C122: a move to be ended with more than the speed limit to the right or up is refused. -/
theorem C122_above (c : Ctx) (x y vx vy : ℤ) (h : vx > c.vMax .x ∨ vy > c.vMax .y) :
    c.stepGotoSpeed x y vx vy = none ∧ Checked.stepGotoSpeed c x y vx vy = none := by
  have h1 : c.stepGotoSpeed x y vx vy = none := by
    cases h1 : c.stepGotoSpeed x y vx vy with
    | none => rfl
    | some c' =>
      obtain ⟨l1, l2, -⟩ := stepGotoSpeed_eq h1
      omega
  refine ⟨h1, ?_⟩
  cases h2 : Checked.stepGotoSpeed c x y vx vy with
  | none => rfl
  | some c' => rw [Checked.stepGotoSpeed_le _ _ _ _ _ _ h2] at h1; cases h1

example : (Ctx.new (fun _ => 20) (fun _ => 50)).stepGotoSpeed 1000 0 100 0 = none :=
  (C122_above _ _ _ _ _ (.inl (by norm_num [Ctx.new]))).1

/-- C122: to the left or down there is no such test.  When such a move returns, the events really make the machine that fast. -/
theorem C122_below (aMax vMax : Axis → ℤ) (c c' : Ctx) (S : Sync aMax vMax c) (x y vx vy : ℤ)
    (h : c.stepGotoSpeed x y vx vy = some c') (hv : vx < -vMax .x ∨ vy < -vMax .y) :
    ∃ i τ, velAt i c'.events τ < -vMax i := by
  obtain ⟨-, -, τ, -, hk⟩ := goto_had S h
  rcases hv with hv | hv
  · exact ⟨.x, τ, by rw [hk]; exact hv⟩
  · exact ⟨.y, τ, by rw [hk]; exact hv⟩

/-- At rest at zero, with the limits 20 and 50: a move to step -1000 that ends with 100 steps for each tick to the left returns. -/
example : ∃ c c', Sync (fun _ => 20) (fun _ => 50) c ∧ c.stepGotoSpeed (-1000) 0 (-100) 0 = some c' ∧ ∃ i τ, velAt i c'.events τ < -50 := by
  obtain ⟨c1, c3, -, -, -, -, h1, h3, -⟩ := Checked.Fast.run_eval
  have S : Sync (fun _ => 20) (fun _ => 50) c1 :=
    (Sync.keeps _ _).move (.step (op := .setWeight 12) .new trivial rfl : Sync (fun _ => 20) (fun _ => 50) Checked.Fast.p0) h1
  have h3 := Checked.stepGotoSpeed_le _ _ _ _ _ _ h3
  exact ⟨c1, c3, S, h3, C122_below _ _ c1 c3 S _ _ _ _ h3 (.inl (by norm_num))⟩

/-- C122: in every normal run of `svg_path`, each stroke of the first pass starts with a speed that is not above the limit along any
axis, and the machine does reach that speed, however far it is below the negative limit. -/
theorem C122_strokes (fl : ℝ → ℝ) (e : Rounded.Env) (aMax vMax : Axis → ℤ) (w : ℤ) (path : List Seg) (hp : path ≠ []) (v : Num) (n : ℕ)
    (c : Ctx) (h : Special.svgEvents fl e aMax vMax w path v (n + 1) = some c) :
    ∃ s, Special.drawPen fl e ((Ctx.new aMax vMax).setWeight w) path v = some s ∧ ∀ d ∈ s.drawn, d.2 ≠ [] →
      ∃ k : Axis → ℤ, (∀ i, startSpeed fl e (startDir fl e d.2) v i = some (k i) ∧ k i ≤ vMax i) ∧
        ∃ τ, ∀ i, velAt i c.events τ = k i := by
  have S0 : Sync aMax vMax ((Ctx.new aMax vMax).setWeight w) := .step (op := .setWeight w) .new trivial rfl
  unfold Special.svgEvents at h
  simp only at h
  obtain ⟨c1, h1, h⟩ := Option.bind_eq_some_iff.1 h
  obtain ⟨c2, h2, h⟩ := Option.bind_eq_some_iff.1 h
  obtain ⟨_, -, h⟩ := Option.bind_eq_some_iff.1 h
  obtain ⟨⟨c3, err⟩, h3, h1⟩ := Option.bind_eq_some_iff.1 h1
  unfold Special.drawCurves at h3
  rw [if_neg (by simpa using hp)] at h3
  obtain ⟨s, h4, h3⟩ := Option.bind_eq_some_iff.1 h3
  obtain ⟨c4, h5, h3⟩ := Option.bind_eq_some_iff.1 h3
  cases h3
  refine ⟨s, h4, ?_⟩
  unfold Special.drawPen at h4
  obtain ⟨s1, h6, h4⟩ := Option.bind_eq_some_iff.1 h4
  have P0 : PenOk fl e aMax vMax v (init fl e ((Ctx.new aMax vMax).setWeight w)) := ⟨S0, by intro d hd; simp [init] at hd⟩
  have P1 := (P0.run h6).flush h4
  intro d hd hne
  obtain ⟨k, hk, hh⟩ := P1.2 d hd hne
  have K := Had.keeps aMax vMax k
  obtain ⟨-, τ, -, ht⟩ := K.read (K.cgoto (K.times (K.move ⟨P1.1, hh⟩ h5) h1) h2) h
  exact ⟨k, hk, τ, ht⟩

/-- C122: a document with a single line from `p`, where the machine does not start, to `q`.  `k` is the speed of the start of that
line in steps for each tick.  Nothing is drawn when `k` is above the limit along an axis; otherwise, if the program ends normally,
the machine reaches the speed `k`, so when `k` is below the negative limit, it is driven beyond its limit. -/
theorem C122_line (fl : ℝ → ℝ) (e : Rounded.Env) (aMax vMax : Axis → ℤ) (w : ℤ) (p q : Vec) (v : Num) (n : ℕ) (k : Axis → ℤ)
    (hp : toSteps fl e p.x .x ≠ some 0 ∨ toSteps fl e p.y .y ≠ some 0)
    (hk : ∀ i, startSpeed fl e ((Rounded.line fl (Rounded.vsub fl q p)).value 0).2 v i = some (k i)) :
    (∀ i, k i > vMax i → Special.svgEvents fl e aMax vMax w [.goTo p, .lineTo q] v (n + 1) = none) ∧
    ∀ c, Special.svgEvents fl e aMax vMax w [.goTo p, .lineTo q] v (n + 1) = some c → ∃ τ, ∀ i, velAt i c.events τ = k i := by
  have key : ∀ c, Special.svgEvents fl e aMax vMax w [.goTo p, .lineTo q] v (n + 1) = some c →
      (∀ i, k i ≤ vMax i) ∧ ∃ τ, ∀ i, velAt i c.events τ = k i := by
    intro c h
    obtain ⟨s, hs, hd⟩ := C122_strokes fl e aMax vMax w _ (by simp) v n c h
    unfold Special.drawPen at hs
    obtain ⟨s1, h1, hs⟩ := Option.bind_eq_some_iff.1 hs
    unfold Special.run at h1
    obtain ⟨s2, h2, h1⟩ := Option.bind_eq_some_iff.1 h1
    unfold Special.run at h1
    obtain ⟨s3, h3, h1⟩ := Option.bind_eq_some_iff.1 h1
    cases h1
    have c2 : s2.curves = [] ∧ s2.current = p ∧ s2.prevDir = none := by
      unfold Special.step Special.goTo at h2
      obtain ⟨b, hb, h2⟩ := Option.bind_eq_some_iff.1 h2
      cases b with
      | true =>
        exfalso
        unfold atMachine at hb
        obtain ⟨x, hx, hb⟩ := Option.bind_eq_some_iff.1 hb
        split_ifs at hb with h0
        · cases hb
        · simp only [not_not] at h0
          obtain ⟨y, hy, hb⟩ := Option.bind_eq_some_iff.1 hb
          have hb := of_decide_eq_true (Option.some.inj hb)
          subst h0 hb
          rcases hp with hp | hp
          · exact hp hx
          · exact hp hy
      | false =>
        rw [if_neg (by simp)] at h2
        obtain ⟨s4, h4, h2⟩ := Option.bind_eq_some_iff.1 h2
        cases h2
        unfold Special.flush at h4
        obtain ⟨⟨c, err⟩, -, h4⟩ := Option.bind_eq_some_iff.1 h4
        cases h4
        exact ⟨rfl, rfl, rfl⟩
    obtain ⟨q1, q2, q3⟩ := c2
    have c3 : s1.curves = concatAdd fl [] (Rounded.line fl (Rounded.vsub fl q p)) := by
      unfold Special.step at h3
      simp only [segInfo, Option.bind_some, Option.bind_eq_bind] at h3
      unfold Special.add at h3
      rw [if_neg (by unfold turns; simp [q3])] at h3
      cases h3
      rw [q1, q2]
    unfold Special.flush at hs
    obtain ⟨⟨c', err⟩, -, hs⟩ := Option.bind_eq_some_iff.1 hs
    cases hs
    obtain ⟨k', hk', hτ⟩ := hd (s1.start, s1.curves) (by simp) (by rw [c3]; simp [concatAdd])
    have hdir : startDir fl e s1.curves = ((Rounded.line fl (Rounded.vsub fl q p)).value 0).2 := by
      rw [c3]
      simp [startDir, concatInfo, concatAdd, concatValue, line]
    have : k' = k := by
      funext i
      have := (hk' i).1
      rw [hdir, hk i] at this
      exact (Option.some.inj this).symm
    subst this
    exact ⟨fun i => (hk' i).2, hτ⟩
  refine ⟨fun i hi => ?_, fun c h => (key c h).2⟩
  cases h : Special.svgEvents fl e aMax vMax w [.goTo p, .lineTo q] v (n + 1) with
  | none => rfl
  | some c => have := (key c h).1 i; omega

/-- Ten steps for a millimeter. -/
noncomputable def tenSteps : Rounded.Env := ⟨fun _ => 10, fun _ _ => 0, fun _ _ => none⟩

theorem fast_numbers : double 0 = 0 ∧ double 1 = 1 ∧ double (-1) = -1 ∧ double 5 = 5 ∧ double (-5) = -5 ∧ double 25 = 25 ∧ double 20 = 20 ∧
    double (-20) = -20 ∧ double 100 = 100 ∧ double (-100) = -100 ∧ double (-1000) = -1000 ∧ double (1 / 4) = 1 / 4 := by
  have i : ∀ n : ℤ, |n| ≤ 2 ^ 53 → double n = n := C90_double.int
  refine ⟨by simpa using i 0 (by norm_num), by simpa using i 1 (by norm_num), by simpa using i (-1) (by norm_num), by simpa using i 5 (by norm_num),
    by simpa using i (-5) (by norm_num), by simpa using i 25 (by norm_num), by simpa using i 20 (by norm_num),
    by simpa using i (-20) (by norm_num), by simpa using i 100 (by norm_num), by simpa using i (-100) (by norm_num), by simpa using i (-1000) (by norm_num), ?_⟩
  have := double_exact (k := 1) (j := -2) (by norm_num) (by norm_num)
  norm_num at this ⊢
  exact this

/-- The lines of 5 mm from (-100 mm, 0) to the left and to the right. -/
theorem fast_left : Rounded.line double (Rounded.vsub double ⟨-105, 0⟩ ⟨-100, 0⟩) =
    ⟨5, fun pos => (Rounded.vmul double ⟨-1, 0⟩ pos, ⟨-1, 0⟩)⟩ := by
  obtain ⟨z0, z1, m1, z5, m5, z25, z20, m20, z100, m100, m1000, q⟩ := fast_numbers
  have r : √(25 : ℝ) = 5 := by rw [show (25 : ℝ) = 5 ^ 2 by norm_num]; exact Real.sqrt_sq (by norm_num)
  norm_num [Rounded.line, Rounded.vsub, Rounded.vlength, Rounded.vunit, z0, z1, m1, z5, m5, z25, r]

theorem fast_right : Rounded.line double (Rounded.vsub double ⟨-95, 0⟩ ⟨-100, 0⟩) =
    ⟨5, fun pos => (Rounded.vmul double ⟨1, 0⟩ pos, ⟨1, 0⟩)⟩ := by
  obtain ⟨z0, z1, m1, z5, m5, z25, z20, m20, z100, m100, m1000, q⟩ := fast_numbers
  have r : √(25 : ℝ) = 5 := by rw [show (25 : ℝ) = 5 ^ 2 by norm_num]; exact Real.sqrt_sq (by norm_num)
  norm_num [Rounded.line, Rounded.vsub, Rounded.vlength, Rounded.vunit, z0, z1, m1, z5, m5, z25, r]

/-- They start with 100 steps for each tick when they are drawn with 20 mm for each tick. -/
theorem fast_start (s : ℤ) (hs : s = 1 ∨ s = -1) (i : Axis) :
    startSpeed double tenSteps ⟨s, 0⟩ (.fin 20) i = some (both (100 * s) 0 i) := by
  obtain ⟨z0, z1, m1, z5, m5, z25, z20, m20, z100, m100, m1000, q⟩ := fast_numbers
  have h0 := Draw.round_int 0
  have h1 := Draw.round_int 100
  have h2 := Draw.round_int (-100)
  push_cast at h0 h1 h2
  rcases hs with rfl | rfl <;> cases i <;>
    norm_num [startSpeed, Special.toStepV, Num.mul, Rounded.vScale, tenSteps, Draw.coord, z0, z1, m1, z5, z20, m20, z100, m100, h0, h1, h2, cassert, both]

/-- To the left the program ends normally and the machine has 100 steps for each tick, twice the limit; to the right nothing is
drawn. -/
theorem fast_runs : (∃ c, Special.svgEvents double tenSteps (fun _ => 20) (fun _ => 50) 12
      [.goTo ⟨-100, 0⟩, .lineTo ⟨-105, 0⟩] (.fin 20) 1 = some c ∧ ∃ τ, velAt .x c.events τ = -100) ∧
    Special.svgEvents double tenSteps (fun _ => 20) (fun _ => 50) 12 [.goTo ⟨-100, 0⟩, .lineTo ⟨-95, 0⟩] (.fin 20) 1 = none := by
  obtain ⟨z0, z1, m1, z5, m5, z25, z20, m20, z100, m100, m1000, q⟩ := fast_numbers
  have r1 := Draw.round_int (-1000)
  have r0 := Draw.round_int 0
  push_cast at r1 r0
  have tx : toSteps double tenSteps (-100) .x = some (-1000) := by norm_num [toSteps, tenSteps, m1000, r1, cassert]
  have ty : toSteps double tenSteps 0 .y = some 0 := by norm_num [toSteps, tenSteps, z0, r0, cassert]
  have nz : toSteps double tenSteps (-100) .x ≠ some 0 ∨ toSteps double tenSteps 0 .y ≠ some 0 := .inl (by rw [tx]; simp)
  have kl := fast_start (-1) (.inr rfl)
  have kr := fast_start 1 (.inl rfl)
  push_cast at kl kr
  have left := C122_line double tenSteps (fun _ => 20) (fun _ => 50) 12 ⟨-100, 0⟩ ⟨-105, 0⟩ (.fin 20) 0 (both (100 * -1) 0) nz
    (by rw [fast_left]; exact kl)
  have right := C122_line double tenSteps (fun _ => 20) (fun _ => 50) 12 ⟨-100, 0⟩ ⟨-95, 0⟩ (.fin 20) 0 (both (100 * 1) 0) nz
    (by rw [fast_right]; exact kr)
  refine ⟨?_, right.1 .x (by norm_num [both])⟩
  obtain ⟨c1, c3, c4, c5, c7, c8, h1, h3, h4, h5, h7, h8⟩ := Checked.Fast.run_eval
  suffices h : Special.svgEvents double tenSteps (fun _ => 20) (fun _ => 50) 12
      [.goTo ⟨-100, 0⟩, .lineTo ⟨-105, 0⟩] (.fin 20) 1 = some c8 by
    obtain ⟨τ, hτ⟩ := left.2 c8 h
    exact ⟨c8, h, τ, hτ .x⟩
  have hround : Draw.round (1 / 4 : ℝ) = 0 := by norm_num [Draw.round]
  have hdraw : Special.drawCurve double tenSteps Checked.Fast.p0 ⟨-100, 0⟩
      (concatAdd double [] ⟨5, fun pos => (Rounded.vmul double ⟨-1, 0⟩ pos, ⟨-1, 0⟩)⟩) (.fin 20) = some (c4, fun _ => 0) := by
    have hdir : ((concatInfo double tenSteps (concatAdd double [] ⟨5, fun pos => (Rounded.vmul double ⟨-1, 0⟩ pos, ⟨-1, 0⟩)⟩)).value 0).2 = ⟨-1, 0⟩ := by
      simp [concatInfo, concatAdd, concatValue]
    have hlen : (concatInfo double tenSteps (concatAdd double [] ⟨5, fun pos => (Rounded.vmul double ⟨-1, 0⟩ pos, ⟨-1, 0⟩)⟩)).length = 5 := by
      simp [concatInfo, concatAdd, Concat.totalLength, z5]
    unfold Special.drawCurve
    rw [if_neg (by simp [concatAdd])]
    simp only [hdir]
    refine Checked.Fast.bv c1 h1 (Checked.Fast.bv c3 ?_ (Checked.Fast.bv c4 h4 ?_))
    · unfold Special.gotoSpeed
      exact Checked.Fast.bv _ tx (Checked.Fast.bv _ ty (Checked.Fast.bv _ (kl .x) (Checked.Fast.bv _ (kl .y) (by simpa [both] using h3))))
    · unfold Special.approxCurve
      rw [hlen]
      have hd : Num.div double (.fin 5) (.fin 20) = .fin (1 / 4) := by norm_num [Num.div, q]
      simp only [hd, Num.round, hround]
      norm_num [Num.div, Num.asI32, Draw.satI32, Draw.trunc]
  have hpen : Special.drawPen double tenSteps Checked.Fast.p0 [.goTo ⟨-100, 0⟩, .lineTo ⟨-105, 0⟩] (.fin 20) =
      some ⟨c4, fun _ => 0, ⟨-105, 0⟩, ⟨-100, 0⟩, some ⟨-1, 0⟩, [], [((init double tenSteps Checked.Fast.p0).start, []), (⟨-100, 0⟩,
        concatAdd double [] ⟨5, fun pos => (Rounded.vmul double ⟨-1, 0⟩ pos, ⟨-1, 0⟩)⟩)], []⟩ := by
    have hat : atMachine double tenSteps (init double tenSteps Checked.Fast.p0) ⟨-100, 0⟩ = some false := by
      unfold atMachine
      refine Checked.Fast.bv _ tx ?_
      rw [if_pos (by simp [init, Checked.Fast.p0, Ctx.setWeight, Ctx.new])]
      rfl
    unfold Special.drawPen
    refine Checked.Fast.bv ⟨Checked.Fast.p0, fun _ => 0, ⟨-105, 0⟩, ⟨-100, 0⟩, some ⟨-1, 0⟩,
      concatAdd double [] ⟨5, fun pos => (Rounded.vmul double ⟨-1, 0⟩ pos, ⟨-1, 0⟩)⟩, [((init double tenSteps Checked.Fast.p0).start, [])], []⟩ ?_ ?_
    · unfold Special.run
      refine Checked.Fast.bv ⟨Checked.Fast.p0, fun _ => 0, ⟨-100, 0⟩, ⟨-100, 0⟩, none, [], [((init double tenSteps Checked.Fast.p0).start, [])], []⟩ ?_ ?_
      · unfold Special.step Special.goTo
        refine Checked.Fast.bv _ hat ?_
        rw [if_neg (by simp)]
        simp [Special.flush, Special.drawCurve, init, Draw.accMax]
      · unfold Special.run
        refine Checked.Fast.bv ⟨Checked.Fast.p0, fun _ => 0, ⟨-105, 0⟩, ⟨-100, 0⟩, some ⟨-1, 0⟩, _, _, []⟩ ?_ rfl
        unfold Special.step
        simp only [segInfo, Option.bind_some, Option.bind_eq_bind]
        unfold Special.add
        rw [if_neg (by unfold turns; simp), fast_left]
        rfl
    · unfold Special.flush
      refine Checked.Fast.bv _ hdraw ?_
      simp [Draw.accMax]
  unfold Special.svgEvents
  refine Checked.Fast.bv c5 ?_ (Checked.Fast.bv c7 h7 h8)
  unfold Special.drawTimes
  refine Checked.Fast.bv (c5, fun _ => 0) ?_ rfl
  unfold Special.drawCurves
  rw [if_neg (by simp)]
  exact Checked.Fast.bv _ hpen (Checked.Fast.bv c5 h5 rfl)

example : ∃ c, Special.svgEvents double tenSteps (fun _ => 20) (fun _ => 50) 12 [.goTo ⟨-100, 0⟩, .lineTo ⟨-105, 0⟩] (.fin 20) 1 = some c ∧
    ∃ i τ, velAt i c.events τ < -50 :=
  let ⟨c, h, τ, hτ⟩ := fast_runs.1
  ⟨c, h, .x, τ, by rw [hτ]; norm_num⟩

end StepperPaths.Props
