import Verif.Proof.Keeps
import Verif.Proof.OneSide

/-!
What the calls of the two programs preserve, once more: with all that is known about a move because of the checked arithmetic, with
the strokes apart from the moves, and with the speeds along the lines of an image.
-/

namespace StepperPaths.Proof
open Context Control Spec IntegerCurve Config Raster StepperPaths.Svg Rounded StepperPaths.Cli Props Special
open Coords Curves
open Draw (Pen Seg Approx)

/-- `P` is preserved by the calls of `svg_path`; `R` holds during a stroke. -/
structure Draws (P R : Ctx → Prop) : Prop where
  weak : ∀ {c : Ctx}, R c → P c
  move : ∀ {c c' : Ctx}, P c → c.addWeightChange c.moveWeight (c.channels .x).ticks = some c' → P c'
  curve : ∀ {c c' : Ctx}, P c → c.addWeightChange c.curveWeight (c.channels .x).ticks = some c' → R c'
  goto : ∀ {c c' : Ctx} {x y vx vy : ℤ}, P c → Checked.stepGotoSpeed c x y vx vy = some c' → P c'
  tick : ∀ {c c' : Ctx} {ax ay : ℤ}, R c → (∀ i, -32768 ≤ both ax ay i ∧ both ax ay i ≤ 32767) → c.approxTick ax ay = some c' → R c'
  read : ∀ {c c' : Ctx}, P c → c.readEvents = some c' → P c'

variable {P R : Ctx → Prop} {fl : ℝ → ℝ} {e : Rounded.Env}

theorem satI16_range (n : ℤ) : -32768 ≤ Draw.satI16 n ∧ Draw.satI16 n ≤ 32767 := by
  unfold Draw.satI16
  split
  · omega
  · split <;> omega

theorem Draws.pass (K : Draws P R) {start : Vec} {curve : Curve} {v p : ℝ} {s s' : Approx} (h : R s.ctx)
    (hp : CheckedSvg.approxPass fl e start curve v p s = some s') : R s'.ctx := by
  unfold CheckedSvg.approxPass at hp
  obtain ⟨_, -, hp⟩ := Option.bind_eq_some_iff.1 hp
  obtain ⟨_, -, hp⟩ := Option.bind_eq_some_iff.1 hp
  obtain ⟨c, hc, hp⟩ := Option.bind_eq_some_iff.1 hp
  obtain ⟨_, -, hp⟩ := Option.bind_eq_some_iff.1 hp
  obtain ⟨_, -, hp⟩ := Option.bind_eq_some_iff.1 hp
  cases hp
  refine K.tick h (fun i => ?_) (Checked.approxTick_le _ _ _ _ hc)
  cases i <;> exact satI16_range _

theorem Draws.loop (K : Draws P R) {start : Vec} {curve : Curve} {v l : ℝ} {n : ℕ} : ∀ {t : ℕ} {s s' : Approx}, R s.ctx →
    CheckedSvg.approxLoop fl e start curve v l t n s = some s' → R s'.ctx := by
  induction n with
  | zero => intro t s s' h hp; cases hp; exact h
  | succ n ih =>
    intro t s s' h hp
    obtain ⟨s1, h1, hp⟩ := Option.bind_eq_some_iff.1 hp
    exact ih (K.pass h h1) hp

theorem Draws.approx (K : Draws P R) {c c' : Ctx} {start : Vec} {curve : Curve} {v : Num} {err : Axis → ℤ} (h : R c)
    (hp : Special.approxCurve fl e c start curve v = some (c', err)) : R c' := by
  unfold Special.approxCurve at hp
  simp only at hp
  split at hp
  · obtain ⟨s, h1, hp⟩ := Option.bind_eq_some_iff.1 hp
    cases hp
    exact K.loop (s := ⟨c, fun _ => 0, fun _ => 0⟩) h h1
  · split at hp
    · cases hp; exact h
    · cases hp

theorem Draws.draw (K : Draws P R) {c c' : Ctx} {start : Vec} {curve : Concat} {v : Num} {err : Axis → ℤ} (h : P c)
    (hp : Special.drawCurve fl e c start curve v = some (c', err)) : P c' := by
  unfold Special.drawCurve at hp
  split at hp
  · cases hp; exact h
  · obtain ⟨c1, h1, hp⟩ := Option.bind_eq_some_iff.1 hp
    obtain ⟨c2, h2, hp⟩ := Option.bind_eq_some_iff.1 hp
    obtain ⟨c3, h3, hp⟩ := Option.bind_eq_some_iff.1 hp
    unfold Special.gotoSpeed at h2
    obtain ⟨_, -, h2⟩ := Option.bind_eq_some_iff.1 h2
    obtain ⟨_, -, h2⟩ := Option.bind_eq_some_iff.1 h2
    obtain ⟨_, -, h2⟩ := Option.bind_eq_some_iff.1 h2
    obtain ⟨_, -, h2⟩ := Option.bind_eq_some_iff.1 h2
    exact K.weak (K.approx (K.curve (K.goto (K.move h h1) h2) h3) hp)

theorem Draws.flush (K : Draws P R) {v : Num} {s s' : Pen} (h : P s.ctx) (hp : Special.flush fl e v s = some s') : P s'.ctx := by
  unfold Special.flush at hp
  obtain ⟨⟨c, err⟩, h1, hp⟩ := Option.bind_eq_some_iff.1 hp
  cases hp
  exact K.draw h h1

theorem Draws.add (K : Draws P R) {v : Num} {s s' : Pen} {info : Curve} {next : Vec} (h : P s.ctx)
    (hp : Special.add fl e v s info next = some s') : P s'.ctx := by
  unfold Special.add at hp
  simp only at hp
  split at hp
  · obtain ⟨s1, h1, hp⟩ := Option.bind_eq_some_iff.1 hp
    obtain ⟨s2, h2, rfl⟩ := Option.map_eq_some_iff.1 h1
    cases hp
    exact (K.flush h h2 : P s2.ctx)
  · cases hp; exact h

theorem Draws.step (K : Draws P R) {v : Num} {s s' : Pen} {seg : Seg} (h : P s.ctx)
    (hp : Special.step fl e v s seg = some s') : P s'.ctx := by
  unfold Special.step at hp
  split at hp
  · unfold Special.goTo at hp
    obtain ⟨b, -, hp⟩ := Option.bind_eq_some_iff.1 hp
    cases b with
    | true => cases hp; exact h
    | false =>
      obtain ⟨s1, h1, hp⟩ := Option.bind_eq_some_iff.1 hp
      cases hp
      exact (K.flush h h1 : P s1.ctx)
  · split at hp
    · cases hp; exact h
    · obtain ⟨⟨info, next⟩, -, hp⟩ := Option.bind_eq_some_iff.1 hp
      exact K.add h hp
  · obtain ⟨⟨info, next⟩, -, hp⟩ := Option.bind_eq_some_iff.1 hp
    exact K.add h hp

theorem Draws.run (K : Draws P R) {v : Num} {segs : List Seg} : ∀ {s s' : Pen}, P s.ctx →
    Special.run fl e v segs s = some s' → P s'.ctx := by
  induction segs with
  | nil => intro s s' h hp; cases hp; exact h
  | cons seg segs ih =>
    intro s s' h hp
    obtain ⟨s1, h1, hp⟩ := Option.bind_eq_some_iff.1 hp
    exact ih (K.step h h1) hp

theorem Draws.curves (K : Draws P R) {c c' : Ctx} {segs : List Seg} {v : Num} {err : Axis → ℤ} (h : P c)
    (hp : Special.drawCurves fl e c segs v = some (c', err)) : P c' := by
  unfold Special.drawCurves at hp
  split at hp
  · cases hp; exact h
  · obtain ⟨s, h1, hp⟩ := Option.bind_eq_some_iff.1 hp
    obtain ⟨c1, h2, hp⟩ := Option.bind_eq_some_iff.1 hp
    cases hp
    unfold Special.drawPen at h1
    obtain ⟨s1, h3, h1⟩ := Option.bind_eq_some_iff.1 h1
    exact K.move (K.flush (K.run (s := init fl e c) h h3) h1) h2

theorem Draws.times (K : Draws P R) {path : List Seg} {v : Num} {n : ℕ} : ∀ {c c' : Ctx}, P c →
    Special.drawTimes fl e path v n c = some c' → P c' := by
  induction n with
  | zero => intro c c' h hp; cases hp; exact h
  | succ n ih =>
    intro c c' h hp
    obtain ⟨⟨c1, err⟩, h1, hp⟩ := Option.bind_eq_some_iff.1 hp
    exact ih (K.curves h h1) hp

/-- The last calls of `svg_path`. -/
theorem svg_last {aMax vMax : Axis → ℤ} {w : ℤ} {path : List Seg} {v : Num} {n : ℕ} {c : Ctx}
    (hp : Special.svgEvents fl e aMax vMax w path v n = some c) :
    ∃ c1 c2, Special.drawTimes fl e path v n ((Ctx.new aMax vMax).setWeight w) = some c1 ∧ Checked.stepGotoSpeed c1 0 0 0 0 = some c2 ∧
      c2.readEvents = some c := by
  unfold Special.svgEvents at hp
  simp only at hp
  obtain ⟨c1, h1, hp⟩ := Option.bind_eq_some_iff.1 hp
  obtain ⟨c2, h2, hp⟩ := Option.bind_eq_some_iff.1 hp
  obtain ⟨_, -, hp⟩ := Option.bind_eq_some_iff.1 hp
  exact ⟨c1, c2, h1, h2, hp⟩

theorem Draws.svg (K : Draws P R) {aMax vMax : Axis → ℤ} {w : ℤ} {path : List Seg} {v : Num} {n : ℕ} {c : Ctx}
    (h : P ((Ctx.new aMax vMax).setWeight w)) (hp : Special.svgEvents fl e aMax vMax w path v n = some c) : P c := by
  obtain ⟨c1, c2, h1, h2, h3⟩ := svg_last hp
  exact K.read (K.goto (K.times h h1) h2) h3

/-! ### `image_raster` -/

/-- `P` is preserved by the calls of `image_raster`: moves that end with a speed `fine` along the line, waits of less than 2^31
ticks, and weights. -/
structure Scans (P : Ctx → Prop) (fine : ℤ → Prop) : Prop where
  mark : ∀ {c c' : Ctx} {w : ℤ}, P c → c.addWeightChange w (c.channels .x).ticks = some c' → P c'
  goto : ∀ {c c' : Ctx} {x y vx : ℤ}, P c → fine vx → Checked.stepGotoSpeed c x y vx 0 = some c' → P c'
  wait : ∀ {c c' : Ctx} {n : ℕ}, P c → n < 2 ^ 31 → c.addAccInterval 0 0 n = some c' → P c'
  read : ∀ {c c' : Ctx}, P c → c.readEvents = some c' → P c'

variable {fine : ℤ → Prop}

/-- A mark at a time within the line. -/
theorem Scans.later (K : Scans P fine) {c c1 c2 : Ctx} {start now t n : ℕ} {w : ℤ} (h : P c) (hs : c.ticks = some now)
    (hn : start ≤ now) (hN : t < start + 2 ^ 31) (h1 : waitFor c t = some n)
    (h2 : c.addAccInterval 0 0 n = some c1 ∨ (n = 0 ∧ c = c1))
    (h3 : c1.addWeightChange w t = some c2) : P c2 ∧ c2.ticks = some t ∧ start ≤ t := by
  obtain ⟨now', g1, g2, g3⟩ := wait_some h1
  rw [hs, Option.some.injEq] at g1
  subst g1
  have hP : P c1 ∧ c1.ticks = some t := by
    rcases h2 with h2 | ⟨rfl, rfl⟩
    · exact ⟨K.wait h (by omega) h2, by rw [addAccInterval_ticks hs h2, g2]⟩
    · exact ⟨h, by rw [hs, ← g2]; rfl⟩
  refine ⟨K.mark (w := w) hP.1 ?_, (weight_ticks h3).2 hP.2, by omega⟩
  rw [(now_some hP.2).1]
  exact h3

theorem Scans.pixels (K : Scans P fine) {resX start last : ℕ} (hN : last * resX < 2 ^ 31)
    {w : ℕ → Option ℤ} {n : ℕ} : ∀ {xn : ℕ} {prev : ℤ} {c c' : Ctx} {now : ℕ}, xn + n ≤ last → P c → c.ticks = some now →
    start ≤ now → Checked.pixels resX start w xn prev c n = some c' → P c' ∧ ∃ now', c'.ticks = some now' ∧ start ≤ now' := by
  induction n with
  | zero => intro xn prev c c' now _ h ht hs hp; cases hp; exact ⟨h, now, ht, hs⟩
  | succ n ih =>
    intro xn prev c c' now hl h ht hs hp
    unfold Checked.pixels at hp
    obtain ⟨wx, -, hp⟩ := Option.bind_eq_some_iff.1 hp
    split at hp
    · obtain ⟨off, e0, hp⟩ := Option.bind_eq_some_iff.1 hp
      obtain ⟨rfl, -⟩ := mulU32_eq e0
      obtain ⟨ivl, e2, hp⟩ := Option.bind_eq_some_iff.1 hp
      obtain ⟨c1, e3, hp⟩ := Option.bind_eq_some_iff.1 hp
      obtain ⟨c2, e4, hp⟩ := Option.bind_eq_some_iff.1 hp
      have := Nat.mul_le_mul_right resX (show xn ≤ last by omega)
      obtain ⟨g1, g2, g3⟩ := K.later (t := start + xn * resX) h ht hs (by omega) e2 (by
        unfold Checked.hold at e3
        split at e3
        · exact .inl (Checked.addAccInterval_le _ _ _ _ _ e3)
        · cases e3; exact .inr ⟨by omega, rfl⟩) e4
      exact ih (by omega) g1 g2 g3 hp
    · exact ih (by omega) h ht hs hp

theorem Scans.line (K : Scans P fine) {p : Params} {img : Image} {ltr : Bool} {yn startX lengthX rep : ℕ} {c c' : Ctx}
    (hN : lengthX * p.resX < 2 ^ 31) (hf : fine (if ltr then p.vX else -p.vX)) (h : P c)
    (hp : Checked.line p img ltr yn startX lengthX rep c = some c') :
    P c' ∧ ∃ x y c1, Checked.stepGotoSpeed c x y (if ltr then p.vX else -p.vX) 0 = some c1 := by
  unfold Checked.line at hp
  obtain ⟨_, -, hp⟩ := Option.bind_eq_some_iff.1 hp
  obtain ⟨v, ev, hp⟩ := Option.bind_eq_some_iff.1 hp
  obtain rfl := Option.some.inj (Checked.lineV_le _ _ _ ev)
  obtain ⟨x, -, hp⟩ := Option.bind_eq_some_iff.1 hp
  obtain ⟨y, -, hp⟩ := Option.bind_eq_some_iff.1 hp
  obtain ⟨c1, e1, hp⟩ := Option.bind_eq_some_iff.1 hp
  obtain ⟨start, e2, hp⟩ := Option.bind_eq_some_iff.1 hp
  obtain ⟨c2, e3, hp⟩ := Option.bind_eq_some_iff.1 hp
  obtain ⟨off, e4, hp⟩ := Option.bind_eq_some_iff.1 hp
  obtain ⟨rfl, -⟩ := mulU32_eq e4
  obtain ⟨ivl, e5, hp⟩ := Option.bind_eq_some_iff.1 hp
  obtain ⟨c3, e6, hp⟩ := Option.bind_eq_some_iff.1 hp
  obtain ⟨g1, now, g2, g3⟩ := K.pixels hN (by omega) (K.goto h hf e1) e2 (le_refl _) e3
  exact ⟨(K.later g1 g2 g3 (by omega) e5 (.inl (Checked.addAccInterval_le _ _ _ _ _ e6)) hp).1, x, y, c1, e1⟩

/-- What is needed for the direction of the next line. -/
structure Turns (P : Ctx → Prop) (fine : ℤ → Prop) (v : ℤ) : Prop where
  zero : fine 0
  fwd : fine v
  back : ∀ {c c' : Ctx} {x y : ℤ}, P c → Checked.stepGotoSpeed c x y v 0 = some c' → fine (-v)

theorem Scans.lines (K : Scans P fine) {p : Params} {img : Image} {yn startX lengthX : ℕ} (t : Turns P fine p.vX)
    (hN : lengthX * p.resX < 2 ^ 31) {n : ℕ} : ∀ {rep : ℕ} {s s' : Bool × Ctx}, P s.2 → (s.1 = false → fine (-p.vX)) →
    Checked.lines p img yn startX lengthX rep n s = some s' → P s'.2 ∧ (s'.1 = false → fine (-p.vX)) := by
  induction n with
  | zero => intro rep s s' h hf hp; cases hp; exact ⟨h, hf⟩
  | succ n ih =>
    rintro rep ⟨ltr, c⟩ s' h hf hp
    obtain ⟨c1, e1, hp⟩ := Option.bind_eq_some_iff.1 hp
    have hfl : fine (if ltr then p.vX else -p.vX) := by
      cases ltr
      · exact hf rfl
      · exact t.fwd
    obtain ⟨h1, x, y, c2, hg⟩ := K.line hN hfl h e1
    refine ih (s := (!ltr, c1)) h1 (fun hb => ?_) hp
    cases ltr
    · cases hb
    · exact t.back h hg

theorem Scans.rows (K : Scans P fine) {p : Params} {img : Image} (t : Turns P fine p.vX)
    (hN : img.width * p.resX < 2 ^ 31) {n : ℕ} : ∀ {yn : ℕ} {s s' : Bool × Ctx}, P s.2 → (s.1 = false → fine (-p.vX)) →
    Checked.rows p img yn n s = some s' → P s'.2 := by
  induction n with
  | zero => intro yn s s' h _ hp; cases hp; exact h
  | succ n ih =>
    intro yn s s' h hf hp
    unfold Checked.rows at hp
    simp only at hp
    split at hp
    · rename_i hl
      obtain ⟨s1, e1, hp⟩ := Option.bind_eq_some_iff.1 hp
      have h1 := ((findRowInterval_spec (marked img yn) img.width (findRowInterval (marked img yn) img.width).1
        (findRowInterval (marked img yn) img.width).2 rfl).2.1 hl).1
      obtain ⟨g1, g2⟩ := K.lines t (lt_of_le_of_lt (Nat.mul_le_mul_right _ (by omega)) hN) h hf e1
      exact ih g1 g2 hp
    · exact ih h hf hp

/-- The last calls of `image_raster`. -/
theorem raster_last {p : Params} {img : Image} {c c' : Ctx} (hp : Checked.raster p img c = some c') :
    (p.vX < 2 ^ 31 → 0 ≤ p.vX ∨ p.vX < -2 ^ 31) ∧ img.width * p.resX < 2 ^ 31 ∧ ∃ b c1 c2,
      Checked.rows p img 0 img.height (true, c.setWeight p.weight) = some (b, c1) ∧ Checked.stepGotoSpeed c1 0 0 0 0 = some c2 ∧
      c2.readEvents = some c' := by
  unfold Checked.raster at hp
  simp only at hp
  obtain ⟨_, e0, hp⟩ := Option.bind_eq_some_iff.1 hp
  unfold checks at e0
  obtain ⟨_, k1, e0⟩ := Option.bind_eq_some_iff.1 e0
  obtain ⟨_, k2, e0⟩ := Option.bind_eq_some_iff.1 e0
  obtain ⟨_, -, e0⟩ := Option.bind_eq_some_iff.1 e0
  obtain ⟨_, k3, -⟩ := Option.bind_eq_some_iff.1 e0
  obtain ⟨rfl, -⟩ := mulU32_eq k1
  obtain ⟨-, k2⟩ := mulU32_eq k2
  obtain ⟨-, k3⟩ := mulU32_eq k3
  obtain ⟨⟨b, c1⟩, e1, hp⟩ := Option.bind_eq_some_iff.1 hp
  obtain ⟨c2, e2, hp⟩ := Option.bind_eq_some_iff.1 hp
  refine ⟨fun _ => ?_, by omega, b, c1, c2, e1, e2, hp⟩
  unfold Raster.asU32 at k3
  omega

theorem Scans.raster (K : Scans P fine) {p : Params} {img : Image} (t : 0 ≤ p.vX → Turns P fine p.vX)
    (hv : -2 ^ 31 ≤ p.vX ∧ p.vX < 2 ^ 31) {c c' : Ctx} (h : P (c.setWeight p.weight))
    (hp : Checked.raster p img c = some c') : P c' := by
  obtain ⟨k, hN, b, c1, c2, e1, e2, e3⟩ := raster_last hp
  have hv0 : 0 ≤ p.vX := (k hv.2).resolve_right (by omega)
  exact K.read (K.goto (K.rows (t hv0) hN (s := (true, c.setWeight p.weight)) h (by simp) e1) (t hv0).zero e2) e3

end StepperPaths.Proof
