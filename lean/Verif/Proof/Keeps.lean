import Verif.Proof.Times
import Verif.Proof.DrawCurves
import Verif.Proof.CheckedRaster

/-!
What the calls of `StepperContext` that the two programs make preserve holds for the state at the end of every run.
-/

namespace StepperPaths.Proof
open Context Control Spec IntegerCurve Config Raster StepperPaths.Svg Rounded StepperPaths.Cli Props Special
open Coords Curves
open Draw (Pen Seg Approx)

/-- `P` is preserved by the calls of `svg_path`, and `Q` holds after the first of them, which is never one that marks or draws. -/
structure Keeps (P Q : Ctx → Prop) : Prop where
  weak : ∀ {c : Ctx}, Q c → P c
  move : ∀ {c c' : Ctx}, P c → c.addWeightChange c.moveWeight (c.channels .x).ticks = some c' → Q c'
  curve : ∀ {c c' : Ctx}, Q c → c.addWeightChange c.curveWeight (c.channels .x).ticks = some c' → Q c'
  goto : ∀ {c c' : Ctx} {x y vx vy : ℤ}, P c → c.stepGotoSpeed x y vx vy = some c' → Q c'
  tick : ∀ {c c' : Ctx} {ax ay : ℤ}, Q c → c.addAccInterval ax ay 1 = some c' → Q c'
  read : ∀ {c c' : Ctx}, Q c → c.readEvents = some c' → Q c'

variable {P Q : Ctx → Prop} {fl : ℝ → ℝ} {e : Rounded.Env}

theorem Keeps.cgoto (K : Keeps P Q) {c c' : Ctx} {x y vx vy : ℤ} (h : P c) (hg : Checked.stepGotoSpeed c x y vx vy = some c') : Q c' :=
  K.goto h (Checked.stepGotoSpeed_le _ _ _ _ _ _ hg)

theorem Keeps.pass (K : Keeps P Q) {start : Vec} {curve : Curve} {v p : ℝ} {s s' : Approx} (h : Q s.ctx)
    (hp : CheckedSvg.approxPass fl e start curve v p s = some s') : Q s'.ctx := by
  unfold CheckedSvg.approxPass at hp
  obtain ⟨_, -, hp⟩ := Option.bind_eq_some_iff.1 hp
  obtain ⟨_, -, hp⟩ := Option.bind_eq_some_iff.1 hp
  obtain ⟨c, hc, hp⟩ := Option.bind_eq_some_iff.1 hp
  obtain ⟨_, -, hp⟩ := Option.bind_eq_some_iff.1 hp
  obtain ⟨_, -, hp⟩ := Option.bind_eq_some_iff.1 hp
  cases hp
  obtain ⟨_, _, -, -, h1⟩ := approxTick_eq (Checked.approxTick_le _ _ _ _ hc)
  exact K.tick h h1

theorem Keeps.loop (K : Keeps P Q) {start : Vec} {curve : Curve} {v l : ℝ} {n : ℕ} : ∀ {t : ℕ} {s s' : Approx}, Q s.ctx →
    CheckedSvg.approxLoop fl e start curve v l t n s = some s' → Q s'.ctx := by
  induction n with
  | zero => intro t s s' h hp; cases hp; exact h
  | succ n ih =>
    intro t s s' h hp
    obtain ⟨s1, h1, hp⟩ := Option.bind_eq_some_iff.1 hp
    exact ih (K.pass h h1) hp

theorem Keeps.approx (K : Keeps P Q) {c c' : Ctx} {start : Vec} {curve : Curve} {v : Num} {err : Axis → ℤ} (h : Q c)
    (hp : Special.approxCurve fl e c start curve v = some (c', err)) : Q c' := by
  unfold Special.approxCurve at hp
  simp only at hp
  split at hp
  · obtain ⟨s, h1, hp⟩ := Option.bind_eq_some_iff.1 hp
    cases hp
    exact K.loop (s := ⟨c, fun _ => 0, fun _ => 0⟩) h h1
  · split at hp
    · cases hp; exact h
    · cases hp

theorem Keeps.draw (K : Keeps P Q) {c c' : Ctx} {start : Vec} {curve : Concat} {v : Num} {err : Axis → ℤ} (h : P c)
    (hp : Special.drawCurve fl e c start curve v = some (c', err)) : P c' := by
  unfold Special.drawCurve at hp
  split at hp
  · cases hp; exact h
  · obtain ⟨c1, h1, hp⟩ := Option.bind_eq_some_iff.1 hp
    obtain ⟨c2, h2, hp⟩ := Option.bind_eq_some_iff.1 hp
    obtain ⟨c3, h3, hp⟩ := Option.bind_eq_some_iff.1 hp
    unfold Special.gotoSpeed at h2
    obtain ⟨_, -, h2⟩ := Option.bind_eq_some_iff.1 h2
    obtain ⟨_, -, h2⟩ := Option.bind_eq_some_iff.1 h2
    obtain ⟨_, -, h2⟩ := Option.bind_eq_some_iff.1 h2
    obtain ⟨_, -, h2⟩ := Option.bind_eq_some_iff.1 h2
    exact K.weak (K.approx (K.curve (K.cgoto (K.weak (K.move h h1)) h2) h3) hp)

theorem Keeps.flush (K : Keeps P Q) {v : Num} {s s' : Pen} (h : P s.ctx) (hp : Special.flush fl e v s = some s') : P s'.ctx := by
  unfold Special.flush at hp
  obtain ⟨⟨c, err⟩, h1, hp⟩ := Option.bind_eq_some_iff.1 hp
  cases hp
  exact K.draw h h1

theorem Keeps.add (K : Keeps P Q) {v : Num} {s s' : Pen} {info : Curve} {next : Vec} (h : P s.ctx)
    (hp : Special.add fl e v s info next = some s') : P s'.ctx := by
  unfold Special.add at hp
  simp only at hp
  split at hp
  · obtain ⟨s1, h1, hp⟩ := Option.bind_eq_some_iff.1 hp
    obtain ⟨s2, h2, rfl⟩ := Option.map_eq_some_iff.1 h1
    cases hp
    exact (K.flush h h2 : P s2.ctx)
  · cases hp; exact h

theorem Keeps.step (K : Keeps P Q) {v : Num} {s s' : Pen} {seg : Seg} (h : P s.ctx)
    (hp : Special.step fl e v s seg = some s') : P s'.ctx := by
  unfold Special.step at hp
  split at hp
  · unfold Special.goTo at hp
    obtain ⟨b, -, hp⟩ := Option.bind_eq_some_iff.1 hp
    cases b with
    | true => cases hp; exact h
    | false =>
      obtain ⟨s1, h1, hp⟩ := Option.bind_eq_some_iff.1 hp
      cases hp
      exact (K.flush h h1 : P s1.ctx)
  · split at hp
    · cases hp; exact h
    · obtain ⟨⟨info, next⟩, -, hp⟩ := Option.bind_eq_some_iff.1 hp
      exact K.add h hp
  · obtain ⟨⟨info, next⟩, -, hp⟩ := Option.bind_eq_some_iff.1 hp
    exact K.add h hp

theorem Keeps.run (K : Keeps P Q) {v : Num} {segs : List Seg} : ∀ {s s' : Pen}, P s.ctx →
    Special.run fl e v segs s = some s' → P s'.ctx := by
  induction segs with
  | nil => intro s s' h hp; cases hp; exact h
  | cons seg segs ih =>
    intro s s' h hp
    obtain ⟨s1, h1, hp⟩ := Option.bind_eq_some_iff.1 hp
    exact ih (K.step h h1) hp

theorem Keeps.curves (K : Keeps P Q) {c c' : Ctx} {segs : List Seg} {v : Num} {err : Axis → ℤ} (h : P c)
    (hp : Special.drawCurves fl e c segs v = some (c', err)) : P c' := by
  unfold Special.drawCurves at hp
  split at hp
  · cases hp; exact h
  · obtain ⟨s, h1, hp⟩ := Option.bind_eq_some_iff.1 hp
    obtain ⟨c1, h2, hp⟩ := Option.bind_eq_some_iff.1 hp
    cases hp
    unfold Special.drawPen at h1
    obtain ⟨s1, h3, h1⟩ := Option.bind_eq_some_iff.1 h1
    exact K.weak (K.move (K.flush (K.run (s := init fl e c) h h3) h1) h2)

theorem Keeps.times (K : Keeps P Q) {path : List Seg} {v : Num} {n : ℕ} : ∀ {c c' : Ctx}, P c →
    Special.drawTimes fl e path v n c = some c' → P c' := by
  induction n with
  | zero => intro c c' h hp; cases hp; exact h
  | succ n ih =>
    intro c c' h hp
    obtain ⟨⟨c1, err⟩, h1, hp⟩ := Option.bind_eq_some_iff.1 hp
    exact ih (K.curves h h1) hp

theorem Keeps.svg (K : Keeps P Q) {aMax vMax : Axis → ℤ} {w : ℤ} {path : List Seg} {v : Num} {n : ℕ} {c : Ctx}
    (h : P ((Ctx.new aMax vMax).setWeight w)) (hp : Special.svgEvents fl e aMax vMax w path v n = some c) : Q c := by
  unfold Special.svgEvents at hp
  simp only at hp
  obtain ⟨c1, h1, hp⟩ := Option.bind_eq_some_iff.1 hp
  obtain ⟨c2, h2, hp⟩ := Option.bind_eq_some_iff.1 hp
  obtain ⟨_, -, hp⟩ := Option.bind_eq_some_iff.1 hp
  exact K.read (K.cgoto (K.times h h1) h2) hp

/-- `P` is preserved by the calls of `image_raster`: waits of less than 2^31 ticks and weights `ok`, and `Q` holds after the first
of them, which is always a move. -/
structure KeepsScan (P Q : Ctx → Prop) (ok : ℤ → Prop) : Prop where
  weak : ∀ {c : Ctx}, Q c → P c
  mark : ∀ {c c' : Ctx} {w : ℤ}, Q c → ok w → c.addWeightChange w (c.channels .x).ticks = some c' → Q c'
  goto : ∀ {c c' : Ctx} {x y vx vy : ℤ}, P c → c.stepGotoSpeed x y vx vy = some c' → Q c'
  wait : ∀ {c c' : Ctx} {n : ℕ}, Q c → n < 2 ^ 31 → c.addAccInterval 0 0 n = some c' → Q c'
  read : ∀ {c c' : Ctx}, Q c → c.readEvents = some c' → Q c'

theorem now_some {c : Ctx} {t : ℕ} (h : c.ticks = some t) : (c.channels .x).ticks = t ∧ (c.channels .y).ticks = t := by
  unfold Ctx.ticks at h
  rw [cassert_bind] at h
  obtain ⟨h1, h⟩ := h
  cases h
  exact ⟨rfl, h1.symm⟩

theorem addAccInterval_ticks {c c' : Ctx} {ax ay : ℤ} {n t : ℕ} (ht : c.ticks = some t) (h : c.addAccInterval ax ay n = some c') :
    c'.ticks = some (t + n) := by
  obtain ⟨t1, t2⟩ := now_some ht
  unfold Ctx.addAccInterval at h
  rw [cassert_bind] at h
  obtain ⟨c1, h1, h⟩ := Option.bind_eq_some_iff.1 h.2
  obtain ⟨c2, h2, h⟩ := Option.bind_eq_some_iff.1 h
  rw [cassert_bind] at h
  obtain ⟨h3, h⟩ := h
  cases h
  have one : ∀ {c c' : Ctx} {i : Axis} {a : ℤ}, c.addAccChannel i a n = some c' →
      (c'.channels i).ticks = (c.channels i).ticks + n ∧ ∀ j, j ≠ i → c'.channels j = c.channels j := by
    intro c c' i a h
    unfold Ctx.addAccChannel at h
    obtain ⟨_, -, h⟩ := Option.bind_eq_some_iff.1 h
    obtain ⟨_, -, h⟩ := Option.bind_eq_some_iff.1 h
    obtain ⟨c1, h1, h⟩ := Option.bind_eq_some_iff.1 h
    cases h
    obtain ⟨-, rfl⟩ := push_eq h1
    refine ⟨by simp [Ctx.setCh], fun j hj => by simp [Ctx.setCh, hj]⟩
  have e1 := (one h1).1
  have e2 := (one h2).2 .x (by decide)
  unfold Ctx.ticks
  rw [cassert_bind]
  refine ⟨h3, ?_⟩
  rw [e2, e1, t1]
  rfl

theorem weight_ticks {c c' : Ctx} {w : ℤ} {t s : ℕ} (h : c.addWeightChange w s = some c') : c'.ticks = some t ↔ c.ticks = some t := by
  unfold Ctx.addWeightChange at h
  rw [cassert_bind] at h
  obtain ⟨-, h⟩ := h
  rw [cassert_bind] at h
  obtain ⟨-, h⟩ := h
  obtain ⟨-, rfl⟩ := push_eq h
  rfl

theorem wait_some {c : Ctx} {t n : ℕ} (h : waitFor c t = some n) : ∃ now, c.ticks = some now ∧ now + n = t ∧ n < 4294967296 := by
  unfold waitFor at h
  obtain ⟨now, h1, h⟩ := Option.bind_eq_some_iff.1 h
  rw [cassert_bind] at h
  obtain ⟨h2, h⟩ := h
  rw [cassert_bind] at h
  obtain ⟨h3, h⟩ := h
  cases h
  exact ⟨now, h1, by omega, h3⟩

variable {ok : ℤ → Prop}

/-- A mark at a time within the line. -/
theorem KeepsScan.later (K : KeepsScan P Q ok) {c c1 c2 : Ctx} {start now t n : ℕ} {w : ℤ} (h : Q c) (hw : ok w) (hs : c.ticks = some now)
    (hn : start ≤ now) (hN : t < start + 2 ^ 31) (h1 : waitFor c t = some n)
    (h2 : c.addAccInterval 0 0 n = some c1 ∨ (n = 0 ∧ c = c1))
    (h3 : c1.addWeightChange w t = some c2) : Q c2 ∧ c2.ticks = some t ∧ start ≤ t := by
  obtain ⟨now', g1, g2, g3⟩ := wait_some h1
  rw [hs, Option.some.injEq] at g1
  subst g1
  have hP : Q c1 ∧ c1.ticks = some t := by
    rcases h2 with h2 | ⟨rfl, rfl⟩
    · exact ⟨K.wait h (by omega) h2, by rw [addAccInterval_ticks hs h2, g2]⟩
    · exact ⟨h, by rw [hs, ← g2]; rfl⟩
  refine ⟨K.mark hP.1 hw ?_, (weight_ticks h3).2 hP.2, by omega⟩
  rw [(now_some hP.2).1]
  exact h3

theorem KeepsScan.pixels (K : KeepsScan P Q ok) {resX start last : ℕ} (hN : last * resX < 2 ^ 31)
    {w : ℕ → Option ℤ} (hw : ∀ k v, w k = some v → ok v) {n : ℕ} : ∀ {xn : ℕ} {prev : ℤ} {c c' : Ctx} {now : ℕ}, xn + n ≤ last → Q c → c.ticks = some now →
    start ≤ now → pixels resX start w xn prev c n = some c' → Q c' ∧ ∃ now', c'.ticks = some now' ∧ start ≤ now' := by
  induction n with
  | zero => intro xn prev c c' now _ h ht hs hp; cases hp; exact ⟨h, now, ht, hs⟩
  | succ n ih =>
    intro xn prev c c' now hl h ht hs hp
    unfold Raster.pixels at hp
    obtain ⟨wx, e9, hp⟩ := Option.bind_eq_some_iff.1 hp
    split at hp
    · obtain ⟨off, e0, hp⟩ := Option.bind_eq_some_iff.1 hp
      obtain ⟨rfl, -⟩ := mulU32_eq e0
      obtain ⟨ivl, e2, hp⟩ := Option.bind_eq_some_iff.1 hp
      obtain ⟨c1, e3, hp⟩ := Option.bind_eq_some_iff.1 hp
      obtain ⟨c2, e4, hp⟩ := Option.bind_eq_some_iff.1 hp
      have := Nat.mul_le_mul_right resX (show xn ≤ last by omega)
      obtain ⟨g1, g2, g3⟩ := K.later (t := start + xn * resX) h (hw _ _ e9) ht hs (by omega) e2 (by
        unfold hold at e3
        split at e3
        · exact .inl e3
        · cases e3; exact .inr ⟨by omega, rfl⟩) e4
      exact ih (by omega) g1 g2 g3 hp
    · exact ih (by omega) h ht hs hp

theorem KeepsScan.line (K : KeepsScan P Q ok) {p : Params} {img : Image} {ltr : Bool} {yn startX lengthX rep : ℕ} {c c' : Ctx}
    (hN : lengthX * p.resX < 2 ^ 31) (hw : ∀ x y, ok (pixelWeight p img x y)) (h0 : ok 0) (h : P c)
    (hp : line p img ltr yn startX lengthX rep c = some c') : P c' := by
  unfold Raster.line at hp
  obtain ⟨_, -, hp⟩ := Option.bind_eq_some_iff.1 hp
  obtain ⟨_, -, hp⟩ := Option.bind_eq_some_iff.1 hp
  obtain ⟨_, -, hp⟩ := Option.bind_eq_some_iff.1 hp
  obtain ⟨c1, e1, hp⟩ := Option.bind_eq_some_iff.1 hp
  obtain ⟨start, e2, hp⟩ := Option.bind_eq_some_iff.1 hp
  obtain ⟨c2, e3, hp⟩ := Option.bind_eq_some_iff.1 hp
  obtain ⟨off, e4, hp⟩ := Option.bind_eq_some_iff.1 hp
  obtain ⟨rfl, -⟩ := mulU32_eq e4
  obtain ⟨ivl, e5, hp⟩ := Option.bind_eq_some_iff.1 hp
  obtain ⟨c3, e6, hp⟩ := Option.bind_eq_some_iff.1 hp
  obtain ⟨g1, now, g2, g3⟩ := K.pixels hN (fun k v hv => (by
    obtain ⟨x, -, hv⟩ := Option.bind_eq_some_iff.1 hv
    cases hv
    exact hw _ _)) (by omega) (K.goto h e1) e2 (le_refl _) e3
  exact K.weak (K.later g1 h0 g2 g3 (by omega) e5 (.inl e6) hp).1

theorem KeepsScan.lines (K : KeepsScan P Q ok) {p : Params} {img : Image} {yn startX lengthX : ℕ}
    (hN : lengthX * p.resX < 2 ^ 31) (hw : ∀ x y, ok (pixelWeight p img x y)) (h0 : ok 0) {n : ℕ} : ∀ {rep : ℕ} {s s' : Bool × Ctx}, P s.2 →
    lines p img yn startX lengthX rep n s = some s' → P s'.2 := by
  induction n with
  | zero => intro rep s s' h hp; cases hp; exact h
  | succ n ih =>
    rintro rep ⟨ltr, c⟩ s' h hp
    obtain ⟨c1, e1, hp⟩ := Option.bind_eq_some_iff.1 hp
    exact ih (s := (!ltr, c1)) (K.line hN hw h0 h e1) hp

theorem KeepsScan.rows (K : KeepsScan P Q ok) {p : Params} {img : Image}
    (hN : img.width * p.resX < 2 ^ 31) (hw : ∀ x y, ok (pixelWeight p img x y)) (h0 : ok 0) {n : ℕ} : ∀ {yn : ℕ} {s s' : Bool × Ctx}, P s.2 →
    rows p img yn n s = some s' → P s'.2 := by
  induction n with
  | zero => intro yn s s' h hp; cases hp; exact h
  | succ n ih =>
    intro yn s s' h hp
    unfold Raster.rows at hp
    simp only at hp
    split at hp
    · rename_i hl
      obtain ⟨s1, e1, hp⟩ := Option.bind_eq_some_iff.1 hp
      refine ih (K.lines ?_ hw h0 h e1) hp
      have h1 := ((findRowInterval_spec (marked img yn) img.width (findRowInterval (marked img yn) img.width).1
        (findRowInterval (marked img yn) img.width).2 rfl).2.1 hl).1
      exact lt_of_le_of_lt (Nat.mul_le_mul_right _ (by omega)) hN
    · exact ih h hp

theorem KeepsScan.raster (K : KeepsScan P Q ok) {p : Params} {img : Image}
    (hw : ∀ x y, ok (pixelWeight p img x y)) (h0 : ok 0) {c c' : Ctx} (h : P (c.setWeight p.weight))
    (hp : Checked.raster p img c = some c') : Q c' := by
  replace hp := Checked.raster_le _ _ _ _ hp
  unfold Raster.raster at hp
  simp only at hp
  obtain ⟨_, e0, hp⟩ := Option.bind_eq_some_iff.1 hp
  unfold checks at e0
  obtain ⟨_, k1, e0⟩ := Option.bind_eq_some_iff.1 e0
  obtain ⟨_, k2, -⟩ := Option.bind_eq_some_iff.1 e0
  obtain ⟨rfl, -⟩ := mulU32_eq k1
  obtain ⟨-, k2⟩ := mulU32_eq k2
  obtain ⟨⟨b, c1⟩, e1, hp⟩ := Option.bind_eq_some_iff.1 hp
  obtain ⟨c2, e2, hp⟩ := Option.bind_eq_some_iff.1 hp
  exact K.read (K.goto (K.rows (by omega) hw h0 (s := (true, c.setWeight p.weight)) h e1) e2) hp

/-! ### What is kept -/

theorem Sync.keeps (aMax vMax : Axis → ℤ) : Keeps (Sync aMax vMax) (Sync aMax vMax) where
  weak := id
  move {c c'} S h := .step (op := .weight c.moveWeight _) S (Draw.ticks_of_sync S) h
  curve {c c'} S h := .step (op := .weight c.curveWeight _) S (Draw.ticks_of_sync S) h
  goto {c c' x y vx vy} S h := .step (op := .goto x y vx vy) S trivial h
  tick {c c' ax ay} S h := .step (op := .addAcc ax ay 1) S (by norm_num [Op.InStep]) h
  read S h := .step (op := .events) S trivial h

theorem Sync.keepsScan (aMax vMax : Axis → ℤ) (ok : ℤ → Prop) : KeepsScan (Sync aMax vMax) (Sync aMax vMax) ok where
  weak := id
  mark {c c' w} S _ h := .step (op := .weight w _) S (Draw.ticks_of_sync S) h
  goto {c c' x y vx vy} S h := .step (op := .goto x y vx vy) S trivial h
  wait {c c' n} S hn h := .step (op := .addAcc 0 0 n) S hn h
  read S h := .step (op := .events) S trivial h

/-- `R` is not changed by what the calls do: append an event, and change a channel.  Weights are `ok`. -/
structure Grows (R : Ctx → Prop) (ok : ℤ → Prop) : Prop where
  push : ∀ {c c' : Ctx} {t : ℕ} {cmd : Command}, R c → (∀ v, cmd = .weight v → ok v) → c.push t cmd = some c' → R c'
  setCh : ∀ {c : Ctx} (i : Axis) (ch : Channel), R c → R (c.setCh i ch)
  move : ∀ {c : Ctx}, R c → ok c.moveWeight

variable {R : Ctx → Prop}

theorem Grows.interval (G : Grows R ok) {c c' : Ctx} (B : R c) {ax ay : ℤ} {n : ℕ} (h : c.addAccInterval ax ay n = some c') : R c' := by
  have one : ∀ {c c' : Ctx} {i : Axis} {a : ℤ}, R c → c.addAccChannel i a n = some c' → R c' := by
    intro c c' i a B h
    unfold Ctx.addAccChannel at h
    obtain ⟨_, -, h⟩ := Option.bind_eq_some_iff.1 h
    obtain ⟨_, -, h⟩ := Option.bind_eq_some_iff.1 h
    obtain ⟨c1, h1, h⟩ := Option.bind_eq_some_iff.1 h
    cases h
    exact G.setCh _ _ (G.push B (by simp) h1)
  unfold Ctx.addAccInterval at h
  rw [cassert_bind] at h
  obtain ⟨c1, h1, h⟩ := Option.bind_eq_some_iff.1 h.2
  obtain ⟨c2, h2, h⟩ := Option.bind_eq_some_iff.1 h
  rw [cassert_bind] at h
  cases h.2
  exact one (one B h1) h2

theorem Grows.merge (G : Grows R ok) {sx sy : List AccSegment} : ∀ {c c' : Ctx}, R c → c.accSegsToEvents sx sy = some c' → R c' := by
  have one : ∀ {c c' : Ctx} {i : Axis} {s : AccSegment}, R c → c.takeSegment i s = some c' → R c' := by
    intro c c' i s B h
    unfold Ctx.takeSegment at h
    rw [cassert_bind] at h
    obtain ⟨c1, h1, h⟩ := Option.bind_eq_some_iff.1 h.2
    cases h
    exact G.setCh _ _ (G.push B (by simp) h1)
  induction hn : sx.length + sy.length using Nat.strong_induction_on generalizing sx sy with
  | _ n ih =>
    subst hn
    intro c c' B h
    match sx, sy with
    | [], [] =>
      simp only [Ctx.accSegsToEvents] at h
      cases h
      exact B
    | a :: sx, [] =>
      simp only [Ctx.accSegsToEvents] at h
      obtain ⟨c1, h1, h⟩ := Option.bind_eq_some_iff.1 h
      exact ih _ (by simp) rfl (one B h1) h
    | [], b :: sy =>
      simp only [Ctx.accSegsToEvents] at h
      obtain ⟨c1, h1, h⟩ := Option.bind_eq_some_iff.1 h
      exact ih _ (by simp) rfl (one B h1) h
    | a :: sx, b :: sy =>
      rw [Ctx.accSegsToEvents] at h
      split at h
      · obtain ⟨c1, h1, h⟩ := Option.bind_eq_some_iff.1 h
        exact ih _ (by simp) rfl (one B h1) h
      · obtain ⟨c1, h1, h⟩ := Option.bind_eq_some_iff.1 h
        exact ih _ (by simp) rfl (one B h1) h

/-- A move, of which the first thing is the weight. -/
theorem Grows.goto (G : Grows R ok) {c c' : Ctx} {x y vx vy : ℤ} (h : c.stepGotoSpeed x y vx vy = some c')
    (B : ∀ c1, c.push (c.channels .x).ticks (.weight c.moveWeight) = some c1 → R c1) : R c' := by
  obtain ⟨-, -, c1, sx, sy, h1, -, h3⟩ := stepGotoSpeed_eq h
  unfold Ctx.gotoFollow at h3
  obtain ⟨c2, k2, h3⟩ := Option.bind_eq_some_iff.1 h3
  obtain ⟨c3, k3, h3⟩ := Option.bind_eq_some_iff.1 h3
  obtain ⟨c4, k4, h3⟩ := Option.bind_eq_some_iff.1 h3
  rw [cassert_bind] at h3
  cases h3.2
  have chan : ∀ {c c' : Ctx} {i : Axis} {s : List AccSegment} {v : ℤ}, R c → c.gotoChannel i s v = some c' → R c' := by
    intro c c' i s v B h
    unfold Ctx.gotoChannel at h
    obtain ⟨_, -, h⟩ := Option.bind_eq_some_iff.1 h
    rw [cassert_bind] at h
    cases h.2
    exact G.setCh _ _ B
  exact G.merge (G.setCh _ _ (G.setCh _ _ (chan (chan (B c1 h1) k2) k3))) k4

theorem addWeight_push {c c' : Ctx} {v : ℤ} {t : ℕ} (h : c.addWeightChange v t = some c') : c.push t (.weight v) = some c' := by
  unfold Ctx.addWeightChange at h
  rw [cassert_bind] at h
  obtain ⟨-, h⟩ := h
  rw [cassert_bind] at h
  exact h.2

theorem Grows.mark (G : Grows R ok) {c c' : Ctx} {v : ℤ} {t : ℕ} (B : R c) (hv : ok v) (h : c.addWeightChange v t = some c') : R c' :=
  G.push B (fun v' hv' => by cases hv'; exact hv) (addWeight_push h)

theorem Grows.read (G : Grows R ok) {c c' : Ctx} (B : R c) (h : c.readEvents = some c') : R c' := by
  unfold Ctx.readEvents at h
  rw [cassert_bind] at h
  obtain ⟨-, h⟩ := h
  obtain ⟨c1, h1, h⟩ := Option.bind_eq_some_iff.1 h
  obtain ⟨c2, h2, h⟩ := Option.bind_eq_some_iff.1 h
  exact G.push (G.push (G.push B (fun v hv => by cases hv; exact G.move B) h1) (by simp) h2) (by simp) h

/-- All weights in the list of events are `ok`. -/
structure Beam (ok : ℤ → Prop) (w : ℤ) (c : Ctx) : Prop where
  move : c.moveWeight = 0
  curve : c.curveWeight = w
  events : ∀ e ∈ c.events, ∀ v, e.cmd = .weight v → ok v

variable {w : ℤ}

theorem Beam.grows (h0 : ok 0) : Grows (Beam ok w) ok where
  push {c c' t cmd} B hc h := by
    obtain ⟨-, rfl⟩ := push_eq h
    refine ⟨B.move, B.curve, fun e he v hv => ?_⟩
    simp only [List.mem_append, List.mem_singleton] at he
    rcases he with he | rfl
    · exact B.events e he v hv
    · exact hc v hv
  setCh {c} i ch B := ⟨B.move, B.curve, B.events⟩
  move B := by rw [B.move]; exact h0

theorem Beam.goto {c c' : Ctx} (B : Beam ok w c) (h0 : ok 0) {x y vx vy : ℤ} (h : c.stepGotoSpeed x y vx vy = some c') : Beam ok w c' :=
  (Beam.grows h0).goto h fun _ h1 => (Beam.grows h0).push B (fun v hv => by cases hv; rw [B.move]; exact h0) h1

theorem Beam.keeps (h0 : ok 0) (hw : ok w) : Keeps (Beam ok w) (Beam ok w) where
  weak := id
  move B h := (Beam.grows h0).mark B (by rw [B.move]; exact h0) h
  curve B h := (Beam.grows h0).mark B (by rw [B.curve]; exact hw) h
  goto B h := B.goto h0 h
  tick B h := (Beam.grows h0).interval B h
  read B h := (Beam.grows h0).read B h

theorem Beam.keepsScan (h0 : ok 0) : KeepsScan (Beam ok w) (Beam ok w) ok where
  weak := id
  mark B hv h := (Beam.grows h0).mark B hv h
  goto B h := B.goto h0 h
  wait B _ h := (Beam.grows h0).interval B h
  read B h := (Beam.grows h0).read B h

/-- Nothing has happened, or the first thing was to switch the laser off. -/
structure Off (c : Ctx) : Prop where
  move : c.moveWeight = 0
  start : c.events = [] → (c.channels .x).ticks = 0 ∧ c.eventTicks = 0
  first : ∀ e ∈ c.events.head?, e = ⟨0, .weight 0⟩

/-- The first thing was to switch the laser off. -/
def WasOff (c : Ctx) : Prop := c.moveWeight = 0 ∧ ∃ rest, c.events = ⟨0, .weight 0⟩ :: rest

theorem WasOff.off {c : Ctx} (h : WasOff c) : Off c := by
  obtain ⟨h1, rest, h2⟩ := h
  refine ⟨h1, fun h => ?_, fun e he => ?_⟩
  · rw [h2] at h; cases h
  · rw [h2] at he; cases he; rfl

theorem WasOff.grows : Grows WasOff fun _ => True where
  push {c c' t cmd} h _ hp := by
    obtain ⟨-, rfl⟩ := push_eq hp
    obtain ⟨h1, rest, h2⟩ := h
    exact ⟨h1, rest ++ _, by rw [h2]; rfl⟩
  setCh _ _ h := h
  move _ := trivial

theorem Off.push {c c' : Ctx} (h : Off c) (hp : c.push (c.channels .x).ticks (.weight c.moveWeight) = some c') : WasOff c' := by
  cases he : c.events with
  | nil =>
    obtain ⟨h1, h2⟩ := h.start he
    obtain ⟨-, rfl⟩ := push_eq hp
    refine ⟨h.move, [], ?_⟩
    simp [he, h1, h2, h.move]
  | cons e es =>
    refine WasOff.grows.push ⟨h.move, es, ?_⟩ (fun _ _ => trivial) hp
    rw [he, h.first e (by rw [he]; rfl)]

theorem Off.keeps : Keeps Off WasOff where
  weak h := h.off
  move h hp := h.push (addWeight_push hp)
  curve h hp := WasOff.grows.mark h trivial hp
  goto h hp := WasOff.grows.goto hp fun _ h1 => h.push h1
  tick h hp := WasOff.grows.interval h hp
  read h hp := WasOff.grows.read h hp

theorem Off.keepsScan : KeepsScan Off WasOff fun _ => True where
  weak h := h.off
  mark h _ hp := WasOff.grows.mark h trivial hp
  goto h hp := WasOff.grows.goto hp fun _ h1 => h.push h1
  wait h _ hp := WasOff.grows.interval h hp
  read h hp := WasOff.grows.read h hp

theorem Off.new (aMax vMax : Axis → ℤ) (w : ℤ) : Off ((Ctx.new aMax vMax).setWeight w) :=
  ⟨rfl, fun _ => ⟨rfl, rfl⟩, fun e he => by cases he⟩

end StepperPaths.Proof
