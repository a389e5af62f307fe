import Verif.Proof.AnySpeed

/-!
What the calls of `svg_path` preserve if something is known about the speeds with which its strokes begin.
-/

namespace StepperPaths.Proof
open Context Control Spec IntegerCurve Config Raster StepperPaths.Svg Rounded StepperPaths.Cli Props Special
open Coords Curves
open Draw (Pen Seg Approx)

/-- `P` is preserved by the calls of `svg_path`, if all moves end with speeds that are `Q`; `R` holds during a stroke. -/
structure Begins (Q : Axis → ℤ → Prop) (P R : Ctx → Prop) : Prop where
  weak : ∀ {c : Ctx}, R c → P c
  move : ∀ {c c' : Ctx}, P c → c.addWeightChange c.moveWeight (c.channels .x).ticks = some c' → P c'
  curve : ∀ {c c' : Ctx}, P c → c.addWeightChange c.curveWeight (c.channels .x).ticks = some c' → R c'
  goto : ∀ {c c' : Ctx} {x y vx vy : ℤ}, P c → (∀ i, Q i (both vx vy i)) → Checked.stepGotoSpeed c x y vx vy = some c' → P c'
  tick : ∀ {c c' : Ctx} {ax ay : ℤ}, R c → (∀ i, -32768 ≤ both ax ay i ∧ both ax ay i ≤ 32767) → c.approxTick ax ay = some c' → R c'
  read : ∀ {c c' : Ctx}, P c → c.readEvents = some c' → P c'

/-- What is known about the points and the directions of a path. -/
structure Aims (fl : ℝ → ℝ) (e : Rounded.Env) (v : Num) (path : List Seg) (Pt Dir : Vec → Prop) (Q : Axis → ℤ → Prop) : Prop where
  here : ∀ c : Ctx, Pt (Rounded.init fl e c).current
  go : ∀ p, Seg.goTo p ∈ path → Pt p
  close : ∀ p, Seg.closeTo p ∈ path → Pt p
  seg : ∀ {pos seg info next}, Pt pos → seg ∈ path → Rounded.segInfo fl e pos seg = some (info, next) → Pt next ∧ ∀ l, Dir (info.value l).2
  zero : Dir ⟨0, 0⟩
  start : ∀ {d i s}, Dir d → Special.toStepV fl e (.mul fl (.fin (Draw.coord d i)) v) i = some s → Q i s

variable {P R : Ctx → Prop} {Q : Axis → ℤ → Prop} {fl : ℝ → ℝ} {e : Rounded.Env} {v : Num} {path : List Seg} {Pt Dir : Vec → Prop}

theorem Begins.pass (K : Begins Q P R) {start : Vec} {curve : Curve} {v p : ℝ} {s s' : Approx} (h : R s.ctx)
    (hp : CheckedSvg.approxPass fl e start curve v p s = some s') : R s'.ctx := by
  unfold CheckedSvg.approxPass at hp
  obtain ⟨_, -, hp⟩ := Option.bind_eq_some_iff.1 hp
  obtain ⟨_, -, hp⟩ := Option.bind_eq_some_iff.1 hp
  obtain ⟨c, hc, hp⟩ := Option.bind_eq_some_iff.1 hp
  obtain ⟨_, -, hp⟩ := Option.bind_eq_some_iff.1 hp
  obtain ⟨_, -, hp⟩ := Option.bind_eq_some_iff.1 hp
  cases hp
  refine K.tick h (fun i => ?_) (Checked.approxTick_le _ _ _ _ hc)
  cases i <;> exact satI16_range _

theorem Begins.loop (K : Begins Q P R) {start : Vec} {curve : Curve} {v l : ℝ} {n : ℕ} : ∀ {t : ℕ} {s s' : Approx}, R s.ctx →
    CheckedSvg.approxLoop fl e start curve v l t n s = some s' → R s'.ctx := by
  induction n with
  | zero => intro t s s' h hp; cases hp; exact h
  | succ n ih =>
    intro t s s' h hp
    obtain ⟨s1, h1, hp⟩ := Option.bind_eq_some_iff.1 hp
    exact ih (K.pass h h1) hp

theorem Begins.approx (K : Begins Q P R) {c c' : Ctx} {start : Vec} {curve : Curve} {v : Num} {err : Axis → ℤ} (h : R c)
    (hp : Special.approxCurve fl e c start curve v = some (c', err)) : R c' := by
  unfold Special.approxCurve at hp
  simp only at hp
  split at hp
  · obtain ⟨s, h1, hp⟩ := Option.bind_eq_some_iff.1 hp
    cases hp
    exact K.loop (s := ⟨c, fun _ => 0, fun _ => 0⟩) h h1
  · split at hp
    · cases hp; exact h
    · cases hp

/-- All curves of a stroke have directions that are `Dir`. -/
def AllDir (Dir : Vec → Prop) (c : Concat) : Prop := ∀ seg ∈ c, ∀ l, Dir (seg.curve.value l).2

theorem dir_of_all (h0 : Dir ⟨0, 0⟩) {c : Concat} (h : AllDir Dir c) (l : ℝ) : Dir ((Rounded.concatInfo fl e c).value l).2 := by
  unfold Rounded.concatInfo
  simp only
  cases hv : concatValue fl c (e.find c l) l with
  | none => exact h0
  | some r =>
    simp only [Option.getD_some]
    unfold concatValue at hv
    split at hv
    · cases hv
    · simp only [Option.bind_eq_bind, Option.pure_def] at hv
      obtain ⟨seg, h1, hv⟩ := Option.bind_eq_some_iff.1 hv
      have hm := List.mem_of_getElem? h1
      split at hv
      · obtain ⟨prev, -, hv⟩ := Option.bind_eq_some_iff.1 hv
        cases hv
        exact h seg hm _
      · cases hv
        exact h seg hm _

theorem Begins.draw (K : Begins Q P R) (A : Aims fl e v path Pt Dir Q) {c c' : Ctx} {start : Vec} {curve : Concat} {err : Axis → ℤ} (h : P c)
    (hd : AllDir Dir curve) (hp : Special.drawCurve fl e c start curve v = some (c', err)) : P c' := by
  unfold Special.drawCurve at hp
  split at hp
  · cases hp; exact h
  · obtain ⟨c1, h1, hp⟩ := Option.bind_eq_some_iff.1 hp
    obtain ⟨c2, h2, hp⟩ := Option.bind_eq_some_iff.1 hp
    obtain ⟨c3, h3, hp⟩ := Option.bind_eq_some_iff.1 hp
    unfold Special.gotoSpeed at h2
    obtain ⟨_, -, h2⟩ := Option.bind_eq_some_iff.1 h2
    obtain ⟨_, -, h2⟩ := Option.bind_eq_some_iff.1 h2
    obtain ⟨vx, hx, h2⟩ := Option.bind_eq_some_iff.1 h2
    obtain ⟨vy, hy, h2⟩ := Option.bind_eq_some_iff.1 h2
    have D := dir_of_all (fl := fl) (e := e) A.zero hd 0
    refine K.weak (K.approx (K.curve (K.goto (K.move h h1) (fun i => ?_) h2) h3) hp)
    cases i
    · exact A.start (i := .x) D hx
    · exact A.start (i := .y) D hy

/-- What is known about the pen between the segments. -/
structure Holds (P : Ctx → Prop) (Pt Dir : Vec → Prop) (s : Pen) : Prop where
  ctx : P s.ctx
  at_ : Pt s.current
  dirs : AllDir Dir s.curves

theorem Begins.flush (K : Begins Q P R) (A : Aims fl e v path Pt Dir Q) {s s' : Pen} (h : Holds P Pt Dir s)
    (hp : Special.flush fl e v s = some s') : Holds P Pt Dir s' := by
  unfold Special.flush at hp
  obtain ⟨⟨c, err⟩, h1, hp⟩ := Option.bind_eq_some_iff.1 hp
  cases hp
  exact ⟨K.draw A h.ctx h.dirs h1, h.at_, by simp [AllDir]⟩

theorem Begins.add (K : Begins Q P R) (A : Aims fl e v path Pt Dir Q) {s s' : Pen} {info : Curve} {next : Vec} (h : Holds P Pt Dir s)
    (hn : Pt next) (hi : ∀ l, Dir (info.value l).2) (hp : Special.add fl e v s info next = some s') : Holds P Pt Dir s' := by
  have more : ∀ {c : Concat}, AllDir Dir c → AllDir Dir (concatAdd fl c info) := by
    intro c hc seg hs
    unfold concatAdd at hs
    rcases List.mem_append.1 hs with hs | hs
    · exact hc seg hs
    · rw [List.mem_singleton.1 hs]
      exact hi
  unfold Special.add at hp
  simp only at hp
  split at hp
  · obtain ⟨s1, h1, hp⟩ := Option.bind_eq_some_iff.1 hp
    obtain ⟨s2, h2, rfl⟩ := Option.map_eq_some_iff.1 h1
    cases hp
    have H := K.flush A h h2
    exact ⟨H.ctx, hn, more H.dirs⟩
  · cases hp; exact ⟨h.ctx, hn, more h.dirs⟩

theorem Begins.step (K : Begins Q P R) (A : Aims fl e v path Pt Dir Q) {s s' : Pen} {seg : Seg} (h : Holds P Pt Dir s) (hm : seg ∈ path)
    (hp : Special.step fl e v s seg = some s') : Holds P Pt Dir s' := by
  unfold Special.step at hp
  split at hp
  · unfold Special.goTo at hp
    obtain ⟨b, -, hp⟩ := Option.bind_eq_some_iff.1 hp
    cases b with
    | true => cases hp; exact ⟨h.ctx, h.at_, h.dirs⟩
    | false =>
      obtain ⟨s1, h1, hp⟩ := Option.bind_eq_some_iff.1 hp
      cases hp
      have H := K.flush A h h1
      exact ⟨H.ctx, A.go _ hm, H.dirs⟩
  · split at hp
    · cases hp; exact ⟨h.ctx, A.close _ hm, h.dirs⟩
    · obtain ⟨⟨info, next⟩, h1, hp⟩ := Option.bind_eq_some_iff.1 hp
      obtain ⟨g1, g2⟩ := A.seg h.at_ hm h1
      exact K.add A h g1 g2 hp
  · obtain ⟨⟨info, next⟩, h1, hp⟩ := Option.bind_eq_some_iff.1 hp
    obtain ⟨g1, g2⟩ := A.seg h.at_ hm h1
    exact K.add A h g1 g2 hp

theorem Begins.run (K : Begins Q P R) (A : Aims fl e v path Pt Dir Q) {segs : List Seg} : ∀ {s s' : Pen}, Holds P Pt Dir s →
    (∀ seg ∈ segs, seg ∈ path) → Special.run fl e v segs s = some s' → Holds P Pt Dir s' := by
  induction segs with
  | nil => intro s s' h _ hp; cases hp; exact h
  | cons seg segs ih =>
    intro s s' h hm hp
    obtain ⟨s1, h1, hp⟩ := Option.bind_eq_some_iff.1 hp
    exact ih (K.step A h (hm _ (List.mem_cons_self ..)) h1) (fun q hq => hm q (List.mem_cons_of_mem _ hq)) hp

theorem Begins.curves (K : Begins Q P R) (A : Aims fl e v path Pt Dir Q) {c c' : Ctx} {err : Axis → ℤ} (h : P c)
    (hp : Special.drawCurves fl e c path v = some (c', err)) : P c' := by
  unfold Special.drawCurves at hp
  split at hp
  · cases hp; exact h
  · obtain ⟨s, h1, hp⟩ := Option.bind_eq_some_iff.1 hp
    obtain ⟨c1, h2, hp⟩ := Option.bind_eq_some_iff.1 hp
    cases hp
    unfold Special.drawPen at h1
    obtain ⟨s1, h3, h1⟩ := Option.bind_eq_some_iff.1 h1
    have H : Holds P Pt Dir (init fl e c) := ⟨h, A.here c, by simp [AllDir, init]⟩
    exact K.move (K.flush A (K.run A H (fun _ h => h) h3) h1).ctx h2

theorem Begins.times (K : Begins Q P R) (A : Aims fl e v path Pt Dir Q) {n : ℕ} : ∀ {c c' : Ctx}, P c →
    Special.drawTimes fl e path v n c = some c' → P c' := by
  induction n with
  | zero => intro c c' h hp; cases hp; exact h
  | succ n ih =>
    intro c c' h hp
    obtain ⟨⟨c1, err⟩, h1, hp⟩ := Option.bind_eq_some_iff.1 hp
    exact ih (K.curves A h h1) hp

theorem Begins.svg (K : Begins Q P R) (A : Aims fl e v path Pt Dir Q) (h0 : ∀ i, Q i 0) {aMax vMax : Axis → ℤ} {w : ℤ} {n : ℕ} {c : Ctx}
    (h : P ((Ctx.new aMax vMax).setWeight w)) (hp : Special.svgEvents fl e aMax vMax w path v n = some c) : P c := by
  obtain ⟨c1, c2, h1, h2, h3⟩ := svg_last hp
  exact K.read (K.goto (K.times A h h1) (fun i => by cases i <;> exact h0 _) h2) h3

/-- Between the calls of `svg_path`, as `Along`, but with the limits of the speed in both directions. -/
structure Inside (aMax vMax : Axis → ℤ) (c : Ctx) : Prop where
  sync : Sync aMax vMax c
  now : ∀ i, |(c.channels i).v| ≤ vMax i
  speeds : Speeds (fun i v => |v| ≤ vMax i) c

variable {aMax vMax : Axis → ℤ}

theorem Inside.begins (L : Limits aMax vMax) : Begins (fun i v => -vMax i ≤ v) (Inside aMax vMax) (Inside aMax vMax) where
  weak h := h
  move {c c'} h hc := by
    obtain ⟨S, q1, p, -⟩ := Draw.weight_now h.sync hc
    exact ⟨S, by rw [q1]; exact h.now, h.speeds.same q1 p⟩
  curve {c c'} h hc := by
    obtain ⟨S, q1, p, -⟩ := Draw.weight_now h.sync hc
    exact ⟨S, by rw [q1]; exact h.now, h.speeds.same q1 p⟩
  goto {c c' x y vx vy} h hQ hc := by
    have S := (Sync.keeps aMax vMax).cgoto h.sync hc
    have now : ∀ i, (c.channels i).v ≤ vMax i ∧ |(c.channels i).v| ≤ 2 ^ 31 := fun i => by
      have := abs_le.1 (h.now i)
      have := L.big i
      refine ⟨by omega, ?_⟩
      have := h.now i
      norm_num at *
      omega
    obtain ⟨l, M, hl⟩ := goto_any L h.sync now hc
    have low : ∀ i, min (-vMax i) (min (c.channels i).v (both vx vy i)) = -vMax i := fun i => by
      have := abs_le.1 (h.now i)
      have := hQ i
      omega
    refine ⟨S, fun i => ?_, h.speeds.moved h.sync M fun i u hu => ?_⟩
    · rw [M.ch i]
      simp only
      rw [(hl i).2.2.2.endv]
      obtain ⟨b1, b2, -⟩ := stepGotoSpeed_eq (Checked.stepGotoSpeed_le _ _ _ _ _ _ hc)
      rw [h.sync.reach.inv.2.2.2.1] at b1 b2
      refine abs_le.2 ⟨hQ i, ?_⟩
      cases i <;> assumption
    · have := (hl i).2.2.2.vel u hu
      rw [low] at this
      exact abs_le.2 this
  tick {c c' ax ay} h ha hc := by
    obtain ⟨bx, yb, e1, e2, hc⟩ := approxTick_eq hc
    have hvm := h.sync.reach.inv.2.2.2.1
    have S := (Sync.keeps aMax vMax).tick h.sync hc
    obtain ⟨M, -⟩ := addAccInterval_spec h.sync.inv.1 (by norm_num) hc
    have top : ∀ i, |(c.channels i).v + both bx yb i| ≤ vMax i := by
      intro i
      cases i with
      | x => rw [hvm] at e1; exact (limitSpeed_spec (h.now .x) (ha .x).1 (ha .x).2 e1).1
      | y => rw [hvm] at e2; exact (limitSpeed_spec (h.now .y) (ha .y).1 (ha .y).2 e2).1
    refine ⟨S, fun i => ?_, h.speeds.moved h.sync M fun i u hu => ?_⟩
    · rw [M.ch i]
      simpa [endVel] using top i
    · have : u = (c.channels i).v + both bx yb i := by simpa [vels] using hu
      rw [this]
      exact top i
  read {c c'} h hc := by
    obtain ⟨q1, p⟩ := read_past h.sync hc
    exact ⟨(Sync.keeps aMax vMax).read h.sync hc, by rw [q1]; exact h.now, h.speeds.same q1 p⟩

theorem Inside.new (L : Limits aMax vMax) (w : ℤ) : Inside aMax vMax ((Ctx.new aMax vMax).setWeight w) where
  sync := .step (op := .setWeight w) .new trivial rfl
  now i := by
    have := L.one i
    simp [Ctx.new, Ctx.setWeight]
    omega
  speeds i τ hτ := by
    have := L.one i
    simp [Ctx.new, Ctx.setWeight] at hτ ⊢
    subst hτ
    have e : velAt i [] 0 = 0 := rfl
    rw [e]
    simp
    omega

end StepperPaths.Proof
