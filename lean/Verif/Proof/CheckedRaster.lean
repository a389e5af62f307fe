import Verif.Model.CheckedRaster
import Verif.Proof.CheckedMotion
import Verif.Proof.Raster
import Verif.Props.CheckedMotion

/-! The checked scan of an image agrees with the unbounded one: always when it returns, and it returns when
the unbounded one does and the machine is slow enough. -/

namespace StepperPaths.Checked
open Context IntegerCurve Raster Draw Spec Props

/-! ### What the checked functions return -/

theorem pixelWeight_le (p : Params) (img : Image) (x y : ℕ) :
    Le (pixelWeight p img x y) (some (Raster.pixelWeight p img x y)) := by
  intro w hw
  obtain ⟨a, h1, h2⟩ := Option.bind_eq_some_iff.1 hw
  unfold toI32 at h1
  split at h1
  · cases h1
    cases h2
    rfl
  · cases h1

theorem hold_le (c : Ctx) (n : ℕ) : Le (hold c n) (Raster.hold c n) := Le.ite (addAccInterval_le _ _ _ _) (Le.refl _)

theorem pixels_le (resX start : ℕ) {w w' : ℕ → Option ℤ} (hw : ∀ k, Le (w k) (w' k)) (n : ℕ) :
    ∀ (xn : ℕ) (prev : ℤ) (c : Ctx), Le (pixels resX start w xn prev c n) (Raster.pixels resX start w' xn prev c n) := by
  induction n with
  | zero => exact fun _ _ _ => Le.refl _
  | succ n ih =>
    intro xn prev c
    refine Le.bind (hw xn) fun wx => Le.ite ?_ (ih _ _ _)
    exact Le.bind (Le.refl _) fun _ => Le.bind (Le.refl _) fun _ => Le.bind (hold_le _ _) fun _ =>
      Le.bind (Le.refl _) fun _ => ih _ _ _

theorem lineY_le (p : Params) (yn rep : ℕ) : Le (lineY p yn rep) (Raster.lineY p yn rep) :=
  Le.bind (Le.refl _) fun _ => Le.bind (Le.refl _) fun _ => Le.val

theorem lineV_le (p : Params) (ltr : Bool) : Le (lineV p ltr) (some (if ltr then p.vX else -p.vX)) := by
  intro w hw
  unfold lineV at hw
  cases ltr
  · simp only [Bool.false_eq_true, if_false] at hw ⊢
    unfold toI32 at hw
    split at hw
    · exact hw
    · cases hw
  · simpa using hw

theorem line_le (p : Params) (img : Image) (ltr : Bool) (yn start len rep : ℕ) (c : Ctx) :
    Le (line p img ltr yn start len rep c) (Raster.line p img ltr yn start len rep c) := by
  refine Le.bind (Le.refl _) fun ls => Le.step (lineV_le _ _) ?_
  refine Le.bind (Le.refl _) fun x => Le.bind (lineY_le _ _ _) fun y => Le.bind (stepGotoSpeed_le _ _ _ _ _) fun c => ?_
  refine Le.bind (Le.refl _) fun st => Le.bind (pixels_le _ _ (fun k => ?_) _ _ _ _) fun c => ?_
  · exact Le.bind (Le.refl _) fun x => pixelWeight_le _ _ _ _
  · exact Le.bind (Le.refl _) fun _ => Le.bind (Le.refl _) fun _ => Le.bind (addAccInterval_le _ _ _ _) fun _ => Le.refl _

theorem lines_le (p : Params) (img : Image) (yn start len : ℕ) (n : ℕ) :
    ∀ (rep : ℕ) (s : Bool × Ctx), Le (lines p img yn start len rep n s) (Raster.lines p img yn start len rep n s) := by
  induction n with
  | zero => exact fun _ _ => Le.refl _
  | succ n ih => exact fun rep s => Le.bind (line_le _ _ _ _ _ _ _ _) fun _ => ih _ _

theorem rows_le (p : Params) (img : Image) (n : ℕ) :
    ∀ (yn : ℕ) (s : Bool × Ctx), Le (rows p img yn n s) (Raster.rows p img yn n s) := by
  induction n with
  | zero => exact fun _ _ => Le.refl _
  | succ n ih =>
    intro yn s
    rw [rows, Raster.rows]
    rcases findRowInterval (marked img yn) img.width with ⟨start, len⟩
    exact Le.ite (c := len > 0) (Le.bind (lines_le _ _ _ _ _ _ _ _) fun _ => ih _ _) (ih _ _)

theorem raster_le (p : Params) (img : Image) (c : Ctx) : Le (raster p img c) (Raster.raster p img c) :=
  Le.bind (Le.refl _) fun _ => Le.bind (rows_le _ _ _ _ _) fun _ => Le.bind (stepGotoSpeed_le _ _ _ _ _) fun _ => Le.refl _

/-! ### They do return -/

theorem coastChannel_ge {c : Ctx} {i : Axis} {n : ℕ} (hn : n ≤ 2 ^ 31) (hp : |(c.channels i).pos| ≤ 3 * 2 ^ 60)
    (hv : |(c.channels i).v| ≤ 2 ^ 24) : Le (c.addAccChannel i 0 n) (addAccChannel c i 0 n) := by
  have _ : Mag (0 : ℤ) 0 := ⟨by simp⟩
  have _ : Mag (n : Int) (2 ^ 31) := ⟨by rw [Nat.abs_cast]; exact_mod_cast hn⟩
  have _ : Mag (c.channels i).pos (3 * 2 ^ 60) := ⟨by exact_mod_cast hp⟩
  have _ : Mag (c.channels i).v (2 ^ 24) := ⟨by exact_mod_cast hv⟩
  exact Ge.eval (by norm_num) (Le.refl _)

/-- Without acceleration an interval may be longer. -/
theorem coast_ge {c : Ctx} {n : ℕ} (hn : n ≤ 2 ^ 31) (hp : ∀ i, |(c.channels i).pos| ≤ 3 * 2 ^ 60)
    (hv : ∀ i, |(c.channels i).v| ≤ 2 ^ 24) : Le (c.addAccInterval 0 0 n) (addAccInterval c 0 0 n) := by
  refine Ge.bind (Le.refl _) fun _ _ => Ge.bind (coastChannel_ge hn (hp .x) (hv .x)) fun c1 hc1 => ?_
  have e := addAccChannel_other hc1
  exact Ge.bind (coastChannel_ge hn (by rw [e]; exact hp .y) (by rw [e]; exact hv .y)) fun _ _ => Le.refl _

/-- The state while a line is scanned that began in the state `c0`. -/
structure Along (aMax vMax : Axis → ℤ) (N : ℕ) (c0 c : Ctx) : Prop where
  sync : Sync aMax vMax c
  vel : ∀ i, (c.channels i).v = (c0.channels i).v
  pos : ∀ i, (c.channels i).pos = (c0.channels i).pos +
    2 * (c0.channels i).v * ((c.channels .x).ticks - (c0.channels .x).ticks : ℤ)
  ge : (c0.channels .x).ticks ≤ (c.channels .x).ticks
  le : (c.channels .x).ticks ≤ (c0.channels .x).ticks + N

theorem Along.bound {aMax vMax : Axis → ℤ} {N : ℕ} {c0 c : Ctx} (h : Along aMax vMax N c0 c) (hN : N ≤ 2 ^ 31)
    (hp : ∀ i, |(c0.channels i).pos| ≤ 2 ^ 61) (hv : ∀ i, |(c0.channels i).v| ≤ 2 ^ 24) (i : Axis) :
    |(c.channels i).pos| ≤ 3 * 2 ^ 60 := by
  rw [h.pos i]
  have h1 := h.ge
  have h2 := h.le
  have hp := hp i
  have hv := hv i
  have hd : |((c.channels .x).ticks - (c0.channels .x).ticks : ℤ)| ≤ 2 ^ 31 := by
    rw [abs_le]
    norm_num at hN ⊢
    omega
  have hm : |2 * (c0.channels i).v * ((c.channels .x).ticks - (c0.channels .x).ticks : ℤ)| ≤ 2 * 2 ^ 24 * 2 ^ 31 := by
    rw [abs_mul, abs_mul, show |(2 : ℤ)| = 2 from rfl]
    exact mul_le_mul (mul_le_mul_of_nonneg_left hv (by norm_num)) hd (abs_nonneg _) (by norm_num)
  refine (abs_add_le _ _).trans ((add_le_add hp hm).trans (by norm_num))

theorem Along.wait {aMax vMax : Axis → ℤ} {N : ℕ} {c0 c c' : Ctx} {n : ℕ} (h : Along aMax vMax N c0 c) (hn : n < 2 ^ 31)
    (hu : (c.channels .x).ticks + n ≤ (c0.channels .x).ticks + N) (hr : c.addAccInterval 0 0 n = some c') :
    Along aMax vMax N c0 c' ∧ (c'.channels .x).ticks = (c.channels .x).ticks + n := by
  norm_num at hn
  obtain ⟨hnear, hxy, hle⟩ := h.sync.inv
  obtain ⟨M, -⟩ := addAccInterval_spec hnear hn hr
  have zero : ∀ i : Axis, both (0 : Int) 0 i = 0 := by intro i; cases i <;> rfl
  simp only [zero] at M
  have ht : (c'.channels .x).ticks = (c.channels .x).ticks + n := by rw [M.ch .x]; simp
  have hs : Sync aMax vMax c' := .step (op := .addAcc 0 0 n) h.sync (by norm_num [Op.InStep]; exact hn) hr
  have h1 := h.ge
  refine ⟨⟨hs, fun i => ?_, fun i => ?_, by omega, by omega⟩, ht⟩
  · rw [M.ch i]
    simp only [endVel_replicate, zero_mul, add_zero]
    exact h.vel i
  · rw [M.ch i, ht]
    simp only [dist_replicate]
    rw [h.vel, h.pos]
    push_cast
    ring

theorem pixels_ge {aMax vMax : Axis → ℤ} {c0 : Ctx} {resX len : ℕ} {w w' : ℕ → Option ℤ} (hw : ∀ k, Le (w k) (w' k))
    (hlen : len * resX < 2 ^ 31) (hp : ∀ i, |(c0.channels i).pos| ≤ 2 ^ 61) (hv : ∀ i, |(c0.channels i).v| ≤ 2 ^ 24) :
    ∀ (n xn : ℕ) (prev : ℤ) (c c' : Ctx), xn + n = len → Along aMax vMax (len * resX) c0 c →
      Raster.pixels resX (c0.channels .x).ticks w xn prev c n = some c' →
      pixels resX (c0.channels .x).ticks w' xn prev c n = some c' ∧ Along aMax vMax (len * resX) c0 c' := by
  intro n
  induction n with
  | zero =>
    intro xn prev c c' _ h hr
    cases hr
    exact ⟨rfl, h⟩
  | succ n ih =>
    intro xn prev c c' hx h hr
    rw [Raster.pixels] at hr
    obtain ⟨wx, hwx, hr⟩ := Option.bind_eq_some_iff.1 hr
    rw [pixels, hw _ _ hwx]
    simp only [Option.bind_eq_bind, Option.bind_some]
    have hmul : xn * resX ≤ len * resX := Nat.mul_le_mul_right resX (by omega)
    by_cases hne : wx ≠ prev
    · rw [if_pos hne] at hr ⊢
      obtain ⟨off, h1, hr1⟩ := Option.bind_eq_some_iff.1 hr
      obtain ⟨ivl, h2, hr2⟩ := Option.bind_eq_some_iff.1 hr1
      obtain ⟨c1, h3, hr3⟩ := Option.bind_eq_some_iff.1 hr2
      obtain ⟨c2, h4, hr4⟩ := Option.bind_eq_some_iff.1 hr3
      have hoff := (mulU32_eq h1).1
      subst hoff
      obtain ⟨now, hnow, hsum⟩ := waitFor_eq h2
      have hnow' := (ticks_some.1 hnow).1
      have hge := h.ge
      obtain ⟨e1, g1, t1⟩ : hold c ivl = some c1 ∧ Along aMax vMax (len * resX) c0 c1 ∧
          (c1.channels .x).ticks = (c0.channels .x).ticks + xn * resX := by
        unfold Raster.hold at h3
        unfold hold
        by_cases hi : ivl ≠ 0
        · rw [if_pos hi] at h3 ⊢
          have hivl : ivl < 2 ^ 31 := by omega
          obtain ⟨g, t⟩ := h.wait hivl (by omega) h3
          exact ⟨coast_ge hivl.le (fun i => h.bound hlen.le hp hv i) (fun i => by rw [h.vel i]; exact hv i) _ h3, g, by omega⟩
        · rw [if_neg hi] at h3 ⊢
          cases h3
          exact ⟨rfl, h, by omega⟩
      rw [h1, Option.bind_some, h2, Option.bind_some, e1, Option.bind_some, h4, Option.bind_some]
      rw [← t1] at h4
      obtain ⟨s2, ch2, -⟩ := weight_now g1.sync h4
      exact ih _ _ _ _ (by omega) ⟨s2, fun i => by rw [ch2]; exact g1.vel i, fun i => by rw [ch2]; exact g1.pos i,
        by rw [ch2]; exact g1.ge, by rw [ch2]; exact g1.le⟩ hr4
    · rw [if_neg hne] at hr ⊢
      exact ih _ _ _ _ (by omega) h hr

/-- What the scan needs besides `Setup`, `Machine` and `Raster.Small`. -/
structure Mild (p : Params) (img : Image) (vMax : Axis → ℤ) : Prop where
  slow : ∀ i, vMax i ≤ 2 ^ 24
  weight : |p.weight| ≤ 2 ^ 22
  grey : ∀ x y, img.pixel x y ≤ 255

theorem pixelWeight_ge {p : Params} {img : Image} {vMax : Axis → ℤ} (h : Mild p img vMax) (x y : ℕ) :
    pixelWeight p img x y = some (Raster.pixelWeight p img x y) := by
  have hg := h.grey x y
  have hw := h.weight
  have hb : |(255 - img.pixel x y : ℤ) * p.weight| ≤ 255 * 2 ^ 22 := by
    rw [abs_mul]
    refine mul_le_mul ?_ hw (abs_nonneg _) (by norm_num)
    rw [abs_le]
    omega
  rw [abs_le] at hb
  unfold pixelWeight toI32
  rw [if_pos (by norm_num at hb; omega)]
  rfl

theorem line_ge {p : Params} {img : Image} {aMax vMax : Axis → ℤ} {ltr : Bool} {yn start len rep : ℕ}
    {c c' : Ctx} (S : Setup p img aMax vMax) (hM : Machine aMax vMax) (hS : Raster.Small p img vMax) (hB : Mild p img vMax)
    (h : Inside p img aMax vMax c) (hin : start + len ≤ img.width) (hyn : yn < img.height)
    (hrep : rep < p.resY) (hr : Raster.line p img ltr yn start len rep c = some c') :
    line p img ltr yn start len rep c = some c' := by
  unfold Raster.line at hr
  obtain ⟨ls, e1, r1⟩ := Option.bind_eq_some_iff.1 hr
  obtain ⟨x, e2, r2⟩ := Option.bind_eq_some_iff.1 r1
  obtain ⟨y, e3, r3⟩ := Option.bind_eq_some_iff.1 r2
  obtain ⟨c1, e4, r4⟩ := Option.bind_eq_some_iff.1 r3
  obtain ⟨st, e5, r5⟩ := Option.bind_eq_some_iff.1 r4
  obtain ⟨c2, e6, r6⟩ := Option.bind_eq_some_iff.1 r5
  obtain ⟨off, e7, r7⟩ := Option.bind_eq_some_iff.1 r6
  obtain ⟨ivl, e8, r8⟩ := Option.bind_eq_some_iff.1 r7
  obtain ⟨c3, e9, r9⟩ := Option.bind_eq_some_iff.1 r8
  clear hr r1 r2 r3 r4 r5 r6 r7 r8
  have hvx0 := S.vx0
  have hvx1 := S.vx1
  obtain ⟨hx, hx0, hx2⟩ := lineX_eq S.vx0 S.vx1 e2
  obtain ⟨hy', hy1⟩ := lineY_eq S.step e3
  have hls : ls ≤ img.width := by
    unfold lineStart at e1
    cases ltr
    · have := (addU32_eq e1).1; omega
    · cases e1; omega
  have hx1 : x ≤ 2 * p.vX * (img.width * p.resX : ℕ) := by
    rw [hx]
    refine mul_le_mul_of_nonneg_left ?_ (by omega)
    have := Nat.mul_le_mul_left p.resX hls
    rw [mul_comm img.width]
    exact_mod_cast this
  have hyr : yn * p.resY + rep < img.height * p.resY := by
    have := Nat.mul_le_mul_right p.resY (show yn + 1 ≤ img.height by omega)
    rw [Nat.add_mul, Nat.one_mul] at this
    omega
  have f0 : lineV p ltr = some (if ltr then p.vX else -p.vX) := by
    unfold lineV
    cases ltr
    · simp only [Bool.false_eq_true, if_false]
      unfold toI32
      rw [if_pos (by omega)]
    · rfl
  set V : ℤ := if ltr = true then p.vX else -p.vX with hV
  have vmx : |V| ≤ vMax .x := by
    have := S.vxm
    rw [hV]
    split
    · rwa [abs_of_nonneg hvx0]
    · rwa [abs_neg, abs_of_nonneg hvx0]
  have f3 : lineY p yn rep = some y := by
    obtain ⟨a, k1, k2⟩ := Option.bind_eq_some_iff.1 e3
    obtain ⟨b, k3, k4⟩ := Option.bind_eq_some_iff.1 k2
    cases k4
    unfold lineY
    simp only [k1, k3, Option.bind_eq_bind, Option.bind_some]
    have _ : Mag (b : ℤ) (2 ^ 32) := ⟨by
      rw [Nat.abs_cast]
      have := (addU32_eq k3)
      norm_num
      omega⟩
    have _ : Mag p.stepY (2 ^ 28) := ⟨by exact_mod_cast S.step⟩
    exact Ge.val (by norm_num) _ rfl
  -- the move
  obtain ⟨-, -, ea, ev, -⟩ := h.sync.reach.inv
  have px := h.pos .x
  have py := h.pos .y
  have x0 := h.x0
  have x1 := h.x1
  have sx := hS.x
  have slow := hB.slow
  have hwide := S.wide
  obtain ⟨k, hk, hky⟩ := h.y
  have dy : |y - (c.channels .y).pos| ≤ vMax .y * 65535 := by
    rw [hy']
    have := way_y hk hyr.le hky
    push_cast at this
    exact this.trans (by simpa using hS.y)
  have Lx : InLimits (x - (c.channels .x).pos) (c.channels .x).v V (aMax .x) (vMax .x) := by
    refine ⟨S.a1 _, S.v1 _, S.v2 _, h.vel _, vmx, ?_⟩
    rw [abs_le] at px ⊢
    norm_num at px ⊢
    omega
  have Ly : InLimits (y - (c.channels .y).pos) (c.channels .y).v 0 (aMax .y) (vMax .y) := by
    refine ⟨S.a1 _, S.v1 _, S.v2 _, h.vel _, by simpa using (zero_le_one.trans (S.v1 .y)), ?_⟩
    rw [abs_le] at py hy1 ⊢
    norm_num at py hy1 ⊢
    omega
  have f4 : stepGotoSpeed c x y V 0 = some c1 := by
    refine stepGotoSpeed_ge ?_ ?_ h.pos ?_ ?_ _ e4
    · refine ⟨?_, ?_, ?_, ?_, ?_, ?_, ?_⟩ <;> simp only [Ctx.limits, ea, ev]
      · exact S.a1 .x
      · exact (hM.a2 .x).trans (by norm_num)
      · exact S.v1 .x
      · exact (slow .x).trans (by norm_num)
      · exact h.vel .x
      · exact vmx
      · have := slow .x
        rw [abs_le]
        norm_num at this ⊢
        omega
    · refine ⟨?_, ?_, ?_, ?_, ?_, ?_, ?_⟩ <;> simp only [Ctx.limits, ea, ev]
      · exact S.a1 .y
      · exact (hM.a2 .y).trans (by norm_num)
      · exact S.v1 .y
      · exact (slow .y).trans (by norm_num)
      · exact h.vel .y
      · simpa using (zero_le_one.trans (S.v1 .y))
      · refine dy.trans ?_
        have := slow .y
        norm_num at this ⊢
        omega
    · rw [abs_le]
      norm_num
      omega
    · exact hy1.trans (by norm_num)
  obtain ⟨s1, -⟩ := goto_past h.sync e4
  obtain ⟨A1, A2, A3, -, -⟩ := C25_arrives _ _ _ _ h.sync.reach _ _ _ _ Lx Ly e4
  unfold Ctx.velocity at A1
  unfold Ctx.position at A2 A3
  simp only [Prod.mk.injEq] at A1 A2 A3
  have v1 : ∀ i, |(c1.channels i).v| ≤ 2 ^ 24 := by
    intro i
    cases i
    · rw [A1.1]; exact vmx.trans (slow .x)
    · rw [A1.2]; norm_num
  have p1 : ∀ i, |(c1.channels i).pos| ≤ 2 ^ 61 := by
    intro i
    cases i
    · rw [abs_le] at A2 ⊢
      norm_num
      omega
    · rw [abs_le] at A3 hy1 ⊢
      norm_num at hy1 ⊢
      omega
  have hst := (ticks_some.1 e5).1
  subst hst
  have hlen : len * p.resX < 2 ^ 31 :=
    lt_of_le_of_lt (Nat.mul_le_mul_right _ (show len ≤ img.width by omega)) (by norm_num; exact S.ticks)
  obtain ⟨f6, a2⟩ := pixels_ge (aMax := aMax) (vMax := vMax) (w' := fun xn => do
    let x ← bitmapX ltr start len xn
    pixelWeight p img x yn) (fun k => Le.bind (Le.refl _) fun x => by
      show Le (some _) _
      rw [pixelWeight_ge hB]
      exact Le.refl _) hlen p1 v1 len 0 0 c1 c2 (Nat.zero_add _)
    ⟨s1, fun _ => rfl, fun i => by simp, le_rfl, by omega⟩ e6
  obtain ⟨now, hnow, hsum⟩ := waitFor_eq e8
  have hnow' := (ticks_some.1 hnow).1
  have hoff := (mulU32_eq e7).1
  have f9 : addAccInterval c2 0 0 ivl = some c3 :=
    coast_ge (by have := a2.ge; omega) (fun i => a2.bound hlen.le p1 v1 i) (fun i => by rw [a2.vel i]; exact v1 i) _ e9
  unfold line
  simp only [Option.bind_eq_bind] at f6 ⊢
  rw [e1, Option.bind_some, f0, Option.bind_some, e2, Option.bind_some, f3, Option.bind_some, f4, Option.bind_some, e5,
    Option.bind_some, f6, Option.bind_some, e7, Option.bind_some, e8, Option.bind_some, f9, Option.bind_some]
  exact r9

theorem lines_ge {p : Params} {img : Image} {aMax vMax : Axis → ℤ} (S : Setup p img aMax vMax)
    (hM : Machine aMax vMax) (hS : Raster.Small p img vMax) (hB : Mild p img vMax) {yn start len : ℕ} (hpos : 0 < len)
    (hin : start + len ≤ img.width) (hy : yn < img.height) :
    ∀ (n rep : ℕ) (s : Bool × Ctx), Inside p img aMax vMax s.2 → rep + n ≤ p.resY →
      lines p img yn start len rep n s = Raster.lines p img yn start len rep n s := by
  intro n
  induction n with
  | zero => exact fun rep s h _ => rfl
  | succ n ih =>
    rintro rep ⟨ltr, c⟩ h hn
    obtain ⟨c1, h1, i1⟩ := line_ok (ltr := ltr) S hM hS h hpos hin hy (show rep < p.resY by omega)
    rw [lines, Raster.lines, h1, line_ge S hM hS hB h hin hy (by omega) h1]
    exact ih _ _ i1 (by omega)

theorem rows_ge {p : Params} {img : Image} {aMax vMax : Axis → ℤ} (S : Setup p img aMax vMax)
    (hM : Machine aMax vMax) (hS : Raster.Small p img vMax) (hB : Mild p img vMax) :
    ∀ (n yn : ℕ) (s : Bool × Ctx), Inside p img aMax vMax s.2 → yn + n ≤ img.height →
      rows p img yn n s = Raster.rows p img yn n s := by
  intro n
  induction n with
  | zero => exact fun yn s h _ => rfl
  | succ n ih =>
    intro yn s h hn
    rw [rows, Raster.rows]
    rcases he : findRowInterval (marked img yn) img.width with ⟨start, len⟩
    simp only
    obtain ⟨-, f2, -⟩ := findRowInterval_spec _ _ _ _ he
    by_cases hl : len > 0
    · rw [if_pos hl, if_pos hl, lines_ge S hM hS hB hl (f2 hl).1 (by omega) p.resY 0 s h (by omega)]
      obtain ⟨s1, h1, i1⟩ := lines_ok S hM hS hl (f2 hl).1 (show yn < img.height by omega) p.resY 0 s h (by omega)
      rw [h1]
      exact ih _ _ i1 (by omega)
    · rw [if_neg hl, if_neg hl]
      exact ih _ _ h (by omega)

theorem raster_eq {p : Params} {img : Image} {aMax vMax : Axis → ℤ} (hM : Machine aMax vMax)
    (hS : Raster.Small p img vMax) (hB : Mild p img vMax) (res : 0 < p.resX) (ticks : img.width * p.resX < 2 ^ 31)
    (step : |p.stepY| ≤ 2 ^ 28) (vx0 : 0 ≤ p.vX) (vxm : p.vX ≤ vMax .x)
    (wide : 2 * p.vX * (img.width * p.resX : ℕ) < 2 ^ 32) :
    raster p img (Ctx.new aMax vMax) = Raster.raster p img (Ctx.new aMax vMax) := by
  norm_num at ticks wide
  have vx1 : p.vX < 2147483648 := by have := hM.v2 .x; norm_num at this; omega
  have S : Setup p img aMax vMax := ⟨hM.a1, hM.v1, fun i => by have := hM.v2 i; norm_num at *; omega, res,
    ticks, step, vxm, vx0, vx1, wide⟩
  have I0 : Inside p img aMax vMax ((Ctx.new aMax vMax).setWeight p.weight) := by
    have W0 : 0 ≤ 2 * p.vX * (img.width * p.resX : ℕ) := by positivity
    refine ⟨⟨.step (op := .setWeight p.weight) .new trivial rfl, fun i => ?_, fun i => ?_⟩, ?_, ?_, 0, by omega, ?_⟩
    · simpa [Ctx.setWeight, Ctx.new] using (zero_le_one.trans (hM.v1 i))
    · simp [Ctx.setWeight, Ctx.new]
    · simp [Ctx.setWeight, Ctx.new]
    · simp only [Ctx.setWeight, Ctx.new]
      omega
    · simp [Ctx.setWeight, Ctx.new]
  obtain ⟨⟨b, c1⟩, e1, i1⟩ := rows_ok S hM hS img.height 0
    (true, (Ctx.new aMax vMax).setWeight p.weight) I0 (by omega)
  have f1 := rows_ge S hM hS hB img.height 0 (true, (Ctx.new aMax vMax).setWeight p.weight) I0 (by omega)
  simp only at i1
  obtain ⟨-, -, ea, ev, -⟩ := i1.sync.reach.inv
  have x0 := i1.x0
  have x1 := i1.x1
  have sx := hS.x
  have sy := hS.y
  have slow := hB.slow
  obtain ⟨k, hk, hky⟩ := i1.y
  have dy := way_y hk (Nat.zero_le _) hky
  rw [Nat.cast_zero, zero_mul] at dy
  have f2 : stepGotoSpeed c1 0 0 0 0 = c1.stepGotoSpeed 0 0 0 0 := by
    refine C89_goto _ _ _ _ _ ?_ ?_ i1.pos (by norm_num) (by norm_num)
    · refine ⟨?_, ?_, ?_, ?_, ?_, ?_, ?_⟩ <;> simp only [ea, ev]
      · exact hM.a1 .x
      · exact (hM.a2 .x).trans (by norm_num)
      · exact hM.v1 .x
      · exact (slow .x).trans (by norm_num)
      · exact i1.vel .x
      · simpa using (zero_le_one.trans (hM.v1 .x))
      · have := slow .x
        rw [abs_le]
        norm_num at this ⊢
        omega
    · refine ⟨?_, ?_, ?_, ?_, ?_, ?_, ?_⟩ <;> simp only [ea, ev]
      · exact hM.a1 .y
      · exact (hM.a2 .y).trans (by norm_num)
      · exact hM.v1 .y
      · exact (slow .y).trans (by norm_num)
      · exact i1.vel .y
      · simpa using (zero_le_one.trans (hM.v1 .y))
      · refine (dy.trans sy).trans ?_
        have := slow .y
        norm_num at this ⊢
        omega
  unfold raster Raster.raster
  simp only [f1, e1, Option.bind_eq_bind, Option.bind_some, f2]
  rfl

end StepperPaths.Checked
