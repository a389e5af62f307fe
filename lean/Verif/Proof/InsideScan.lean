import Verif.Proof.AnyScan

/-! Where the machine is during moves and scans that return. -/

namespace StepperPaths.InsideScan
open Context Control Spec IntegerCurve Props Draw Raster Proof AnyScan

/-- What an axis needs to turn from speed `v`, at most. -/
def reach (a v : ℤ) : ℤ := |v| + v ^ 2 / a

theorem reach_zero (a : ℤ) : reach a 0 = 0 := by simp [reach]

theorem reach_mono {a v w : ℤ} (ha : 1 ≤ a) (h : |v| ≤ |w|) : reach a v ≤ reach a w :=
  add_le_add h (Int.ediv_le_ediv (by omega) (sq_le_sq.2 h))

theorem reach_nonneg {a : ℤ} (ha : 1 ≤ a) (v : ℤ) : 0 ≤ reach a v :=
  add_nonneg (abs_nonneg _) (Int.ediv_nonneg (sq_nonneg _) (by omega))

theorem turn_reach {a : ℤ} (ha : 1 ≤ a) {v x : ℤ} (h : a * x ≤ Inside.turn a v) : x ≤ reach a v := by
  unfold Inside.turn at h
  unfold reach
  have : x - |v| ≤ v ^ 2 / a := by
    rw [Int.le_ediv_iff_mul_le (by omega)]
    have e : (x - |v|) * a = a * x - a * |v| := by ring
    omega
  omega

/-- The ends of a position from `Near`. -/
theorem near_reach {a v w d m R : ℤ} (ha : 1 ≤ a) (h : Inside.Near a v w d m) (hv : reach a v ≤ R) (hw : reach a w ≤ R) :
    min 0 d - R ≤ m ∧ m ≤ max 0 d + R := by
  obtain ⟨h1, h2⟩ := h
  constructor
  · have : a * (min 0 d - m) ≤ max (Inside.turn a v) (Inside.turn a w) := by rw [mul_sub]; omega
    rcases le_max_iff.1 this with t | t
    · have := turn_reach ha t; omega
    · have := turn_reach ha t; omega
  · have : a * (m - max 0 d) ≤ max (Inside.turn a v) (Inside.turn a w) := by rw [mul_sub]; omega
    rcases le_max_iff.1 this with t | t
    · have := turn_reach ha t; omega
    · have := turn_reach ha t; omega

/-- A move that returns, from speeds not above the limit. -/
theorem goto_inside {aMax vMax : Axis → ℤ} (L : Limits aMax vMax) {c c' : Ctx} (S : Sync aMax vMax c)
    (hv : ∀ i, (c.channels i).v ≤ vMax i ∧ |(c.channels i).v| ≤ 2 ^ 31) {x y vx vy : ℤ}
    (h : Checked.stepGotoSpeed c x y vx vy = some c') (i : Axis) :
    |(c'.channels i).pos - both x y i| ≤ 1 ∧ (c'.channels i).v = both vx vy i ∧
    ∀ τ, (c.channels .x).ticks ≤ τ → τ ≤ (c'.channels .x).ticks → ∀ R, reach (aMax i) (c.channels i).v ≤ R → reach (aMax i) (both vx vy i) ≤ R →
      min (c.channels i).pos (c'.channels i).pos - R ≤ posAt i c'.events τ ∧
        posAt i c'.events τ ≤ max (c.channels i).pos (c'.channels i).pos + R := by
  obtain ⟨l, M, hl⟩ := goto_any L S hv h
  obtain ⟨-, d1, -, W⟩ := hl i
  have ht := S.reach.inv.2.1
  have S' := (goto_past S (Checked.stepGotoSpeed_le _ _ _ _ _ _ h)).1
  have e0 := same_ticks S i
  have e1 := same_ticks S' i
  have ech := M.ch i
  have ep : (c'.channels i).pos = (c.channels i).pos + dist (c.channels i).v (l i) := by rw [ech]
  have ev : (c'.channels i).v = endVel (c.channels i).v (l i) := by rw [ech]
  have et : (c'.channels i).ticks = (c.channels i).ticks + (l i).length := by rw [ech]
  refine ⟨?_, by rw [ev, W.endv], fun τ h1 h2 R r1 r2 => ?_⟩
  · rw [ep]
    convert d1 using 2
    ring
  · obtain ⟨k, rfl⟩ : ∃ k, τ = (c.channels i).ticks + k := ⟨τ - (c.channels i).ticks, by omega⟩
    have hk : k ≤ (l i).length := by omega
    have hp := posAt_follows ((M.acc i).take hk)
    rw [List.length_take, min_eq_left hk, ← ht.pos, ← ht.vel] at hp
    obtain ⟨n1, n2⟩ := near_reach (L.acc i) (W.near k) r1 r2
    rw [hp, ep]
    omega

/-! ### A scan -/

/-- The right edge. -/
def farX (p : Params) (img : Image) : ℤ := 2 * p.vX * (p.resX * img.width : ℕ)

/-- The last line. -/
def farY (p : Params) (img : Image) : ℤ := (p.resY * img.height - 1 : ℕ) * p.stepY

/-- Where the machine is and has been. -/
structure In (p : Params) (img : Image) (aMax : Axis → ℤ) (c : Ctx) : Prop where
  vx : |(c.channels .x).v| ≤ p.vX
  vy : (c.channels .y).v = 0
  px : -1 ≤ (c.channels .x).pos ∧ (c.channels .x).pos ≤ farX p img + 1
  py : min 0 (farY p img) - 1 ≤ (c.channels .y).pos ∧ (c.channels .y).pos ≤ max 0 (farY p img) + 1
  hx : ∀ τ ≤ (c.channels .x).ticks, -1 - reach (aMax .x) p.vX ≤ posAt .x c.events τ ∧
    posAt .x c.events τ ≤ farX p img + 1 + reach (aMax .x) p.vX
  hy : ∀ τ ≤ (c.channels .x).ticks, min 0 (farY p img) - 1 ≤ posAt .y c.events τ ∧ posAt .y c.events τ ≤ max 0 (farY p img) + 1

section
variable {p : Params} {img : Image} {aMax vMax : Axis → ℤ}

theorem In.goto (L : Limits aMax vMax) (vx0 : 0 ≤ p.vX) {c c' : Ctx} (S : Sync aMax vMax c)
    (hv : ∀ i, |(c.channels i).v| ≤ vMax i) (I : In p img aMax c) {x y vx : ℤ} (hx0 : 0 ≤ x) (hx1 : x ≤ farX p img)
    (hy0 : min 0 (farY p img) ≤ y) (hy1 : y ≤ max 0 (farY p img)) (hvx : |vx| ≤ p.vX)
    (h : Checked.stepGotoSpeed c x y vx 0 = some c') : In p img aMax c' := by
  have hv' : ∀ i, (c.channels i).v ≤ vMax i ∧ |(c.channels i).v| ≤ 2 ^ 31 := fun i =>
    ⟨(abs_le.1 (hv i)).2, (hv i).trans (L.big i).le⟩
  obtain ⟨a1, a2, a3⟩ := goto_inside L S hv' h .x
  obtain ⟨b1, b2, b3⟩ := goto_inside L S hv' h .y
  obtain ⟨S', P⟩ := goto_past S (Checked.stepGotoSpeed_le _ _ _ _ _ _ h)
  simp only [both] at a1 a2 a3 b1 b2 b3
  have evx : |p.vX| = p.vX := abs_of_nonneg vx0
  have r1 : reach (aMax .x) (c.channels .x).v ≤ reach (aMax .x) p.vX := reach_mono (L.acc _) (by rw [evx]; exact I.vx)
  have r2 : reach (aMax .x) vx ≤ reach (aMax .x) p.vX := reach_mono (L.acc _) (by rw [evx]; exact hvx)
  have a1' := abs_le.1 a1
  have b1' := abs_le.1 b1
  have ix := I.px
  have iy := I.py
  refine ⟨by rw [a2]; exact hvx, b2, by omega, by omega, fun τ hτ => ?_, fun τ hτ => ?_⟩
  · by_cases hb : τ ≤ (c.channels .x).ticks
    · rw [posAt_congr (P.acc .x) hb]
      exact I.hx τ hb
    · have := a3 τ (by omega) hτ _ r1 r2
      omega
  · by_cases hb : τ ≤ (c.channels .x).ticks
    · rw [posAt_congr (P.acc .y) (by rw [same_ticks S]; exact hb)]
      exact I.hy τ hb
    · have := b3 τ (by omega) hτ 0 (by rw [I.vy, reach_zero]) (by rw [reach_zero])
      omega

theorem line_y {yn rep : ℕ} (hy : yn < img.height) (hr : rep < p.resY) :
    min 0 (farY p img) ≤ ((yn : ℤ) * p.resY + rep) * p.stepY ∧ ((yn : ℤ) * p.resY + rep) * p.stepY ≤ max 0 (farY p img) := by
  have hn : yn * p.resY + rep ≤ p.resY * img.height - 1 := by
    have : (yn + 1) * p.resY ≤ img.height * p.resY := Nat.mul_le_mul_right _ hy
    rw [Nat.mul_comm p.resY]
    rw [Nat.add_mul] at this
    omega
  have e : ((yn : ℤ) * p.resY + rep) = ((yn * p.resY + rep : ℕ) : ℤ) := by push_cast; ring
  rw [e]
  unfold farY
  generalize p.resY * img.height - 1 = N at *
  generalize yn * p.resY + rep = n at *
  have hn' : (n : ℤ) ≤ N := by exact_mod_cast hn
  have n0 : (0 : ℤ) ≤ n := by positivity
  rcases le_total 0 p.stepY with hs | hs
  · have h1 : (n : ℤ) * p.stepY ≤ N * p.stepY := mul_le_mul_of_nonneg_right hn' hs
    have h2 : 0 ≤ (n : ℤ) * p.stepY := mul_nonneg n0 hs
    omega
  · have h1 : (N : ℤ) * p.stepY ≤ n * p.stepY := mul_le_mul_of_nonpos_right hn' hs
    have h2 : (n : ℤ) * p.stepY ≤ 0 := mul_nonpos_of_nonneg_of_nonpos n0 hs
    omega

theorem edge_x (vx0 : 0 ≤ p.vX) {n : ℕ} (hn : n ≤ p.resX * img.width) :
    0 ≤ 2 * p.vX * (n : ℤ) ∧ 2 * p.vX * (n : ℤ) ≤ farX p img := by
  unfold farX
  have : (n : ℤ) ≤ (p.resX * img.width : ℕ) := by exact_mod_cast hn
  exact ⟨by positivity, mul_le_mul_of_nonneg_left this (by omega)⟩

theorem In.line {ltr : Bool} {yn start len rep : ℕ} {c c' : Ctx} (S : AnyScan.Setup p img aMax vMax) (h : AnyScan.Ready p aMax vMax (ltr, c))
    (I : In p img aMax c) (hpos : 0 < len) (hin : start + len ≤ img.width) (hyn : yn < img.height) (hrep : rep < p.resY)
    (hc : Checked.line p img ltr yn start len rep c = some c') : In p img aMax c' := by
  obtain ⟨R, P, c1, LP, P1, S1, hg⟩ := line_inner S h hin hc
  have hls : (if ltr = true then start else start + len) ≤ img.width := by split <;> omega
  obtain ⟨x0, x1⟩ := edge_x (img := img) S.vx0 (Nat.mul_le_mul_left p.resX hls)
  obtain ⟨y0, y1⟩ := line_y (p := p) (img := img) hyn hrep
  have hV : |(if ltr = true then p.vX else -p.vX)| ≤ p.vX := by
    split
    · rw [abs_of_nonneg S.vx0]
    · rw [abs_neg, abs_of_nonneg S.vx0]
  have I1 := I.goto S.lim S.vx0 h.sync h.vel x0 x1 y0 y1 hV hg
  -- the places in the line
  have X : ∀ τ, (c1.channels .x).ticks ≤ τ → τ ≤ (c'.channels .x).ticks → -1 ≤ posAt .x c'.events τ ∧ posAt .x c'.events τ ≤ farX p img + 1 := by
    intro τ h1 h2
    have hlen := LP.len
    simp only at hlen
    obtain ⟨q, rfl⟩ := Nat.exists_eq_add_of_le h1
    obtain ⟨k, j, hk, hj, e⟩ : ∃ k j, k < len ∧ j ≤ p.resX ∧ q = k * p.resX + j := by
      by_cases hq : q < len * p.resX
      · refine ⟨q / p.resX, q % p.resX, ?_, (Nat.mod_lt _ S.res).le, ?_⟩
        · exact (Nat.div_lt_iff_lt_mul S.res).2 hq
        · rw [Nat.mul_comm]; exact (Nat.div_add_mod q p.resX).symm
      · refine ⟨len - 1, p.resX, by omega, le_rfl, ?_⟩
        have : (len - 1) * p.resX + p.resX = len * p.resX := by
          rw [← Nat.succ_mul]
          congr 1
          omega
        omega
    subst e
    have g := abs_le.1 (LP.xpos k j hk hj)
    have hcol : (ScanLine.mk yn rep start len ltr).column k + 1 ≤ img.width := by
      unfold ScanLine.column
      simp only
      split <;> omega
    simp only at g
    generalize (ScanLine.mk yn rep start len ltr).column k = m at *
    have hm : p.resX * (m + 1) ≤ p.resX * img.width := Nat.mul_le_mul_left _ hcol
    cases ltr
    · simp only [Bool.false_eq_true, if_false] at g
      have e : ((p.resX : ℤ) * (m + 1) - j) = ((p.resX * (m + 1) - j : ℕ) : ℤ) := by
        have : j ≤ p.resX * (m + 1) := by rw [Nat.mul_add]; omega
        push_cast [Nat.cast_sub this]
        ring
      rw [e] at g
      have := edge_x (img := img) S.vx0 (show p.resX * (m + 1) - j ≤ p.resX * img.width by omega)
      omega
    · simp only [if_true] at g
      have e : ((p.resX : ℤ) * m + j) = ((p.resX * m + j : ℕ) : ℤ) := by push_cast; ring
      rw [e] at g
      have := edge_x (img := img) S.vx0 (show p.resX * m + j ≤ p.resX * img.width by rw [Nat.mul_add] at hm; omega)
      omega
  have Y : ∀ τ, (c1.channels .x).ticks ≤ τ → τ ≤ (c'.channels .x).ticks → min 0 (farY p img) - 1 ≤ posAt .y c'.events τ ∧
      posAt .y c'.events τ ≤ max 0 (farY p img) + 1 := by
    intro τ h1 h2
    have := abs_le.1 (LP.ypos τ h1 h2)
    simp only at this
    omega
  obtain ⟨-, T, -⟩ := R.sync.reach.inv
  have s' := fun i => same_ticks R.sync i
  simp only at s'
  have R0 := reach_nonneg (S.lim.acc .x) p.vX
  refine ⟨?_, ?_, ?_, ?_, fun τ hτ => ?_, fun τ hτ => ?_⟩
  · rw [T.vel .x, LP.xvel _ P1.ticks le_rfl]
    exact hV
  · rw [T.vel .y, s' .y, LP.yvel _ P1.ticks le_rfl]
  · rw [T.pos .x]
    exact X _ P1.ticks le_rfl
  · rw [T.pos .y, s' .y]
    exact Y _ P1.ticks le_rfl
  · by_cases hb : τ ≤ (c1.channels .x).ticks
    · rw [posAt_congr (P1.acc .x) hb]
      exact I1.hx τ hb
    · have := X τ (by omega) hτ
      omega
  · by_cases hb : τ ≤ (c1.channels .x).ticks
    · rw [posAt_congr (P1.acc .y) (by rw [same_ticks S1]; exact hb)]
      exact I1.hy τ hb
    · exact Y τ (by omega) hτ

theorem In.lines (S : AnyScan.Setup p img aMax vMax) {yn start len : ℕ} (hpos : 0 < len) (hin : start + len ≤ img.width) (hyn : yn < img.height) :
    ∀ (n rep : ℕ) (s s' : Bool × Ctx), rep + n ≤ p.resY → AnyScan.Ready p aMax vMax s → In p img aMax s.2 →
      Checked.lines p img yn start len rep n s = some s' → AnyScan.Ready p aMax vMax s' ∧ In p img aMax s'.2 := by
  intro n
  induction n with
  | zero =>
    intro rep s s' _ h I hr
    simp only [Checked.lines, Option.some.injEq] at hr
    subst hr
    exact ⟨h, I⟩
  | succ n ih =>
    rintro rep ⟨ltr, c⟩ s' hn h I hr
    rw [Checked.lines] at hr
    obtain ⟨c1, h1, h2⟩ := Option.bind_eq_some_iff.1 hr
    exact ih _ _ _ (by omega) (line_spec S h hin h1).1 (In.line S h I hpos hin hyn (by omega) h1) h2

theorem In.rows (S : AnyScan.Setup p img aMax vMax) : ∀ (n yn : ℕ) (s s' : Bool × Ctx), yn + n ≤ img.height → AnyScan.Ready p aMax vMax s →
    In p img aMax s.2 → Checked.rows p img yn n s = some s' → AnyScan.Ready p aMax vMax s' ∧ In p img aMax s'.2 := by
  intro n
  induction n with
  | zero =>
    intro yn s s' _ h I hr
    simp only [Checked.rows, Option.some.injEq] at hr
    subst hr
    exact ⟨h, I⟩
  | succ n ih =>
    intro yn s s' hn h I hr
    rw [Checked.rows] at hr
    rcases he : findRowInterval (marked img yn) img.width with ⟨start, len⟩
    rw [he] at hr
    simp only at hr
    obtain ⟨f1, f2, f3⟩ := findRowInterval_spec _ _ _ _ he
    by_cases hl : len > 0
    · rw [if_pos hl] at hr
      obtain ⟨s1, h1, h2⟩ := Option.bind_eq_some_iff.1 hr
      obtain ⟨R, J⟩ := In.lines S hl (f2 hl).1 (by omega) _ _ _ _ (by omega) h I h1
      exact ih _ _ _ (by omega) R J h2
    · rw [if_neg hl] at hr
      exact ih _ _ _ (by omega) h I hr

/-- A scan that returns stays near the picture. -/
theorem raster_inside {c' : Ctx} (L : Limits aMax vMax) (res : 0 < p.resX)
    (vx0 : -2 ^ 31 ≤ p.vX) (vx1 : p.vX < 2 ^ 31) (hr : Checked.raster p img (Ctx.new aMax vMax) = some c') (τ : ℕ) :
    0 ≤ p.vX ∧ (-1 - reach (aMax .x) p.vX ≤ posAt .x c'.events τ ∧ posAt .x c'.events τ ≤ farX p img + 1 + reach (aMax .x) p.vX) ∧
      min 0 (farY p img) - 1 ≤ posAt .y c'.events τ ∧ posAt .y c'.events τ ≤ max 0 (farY p img) + 1 := by
  unfold Checked.raster at hr
  simp only at hr
  obtain ⟨_, e1, r1⟩ := Option.bind_eq_some_iff.1 hr
  obtain ⟨⟨b, c1⟩, e2, r2⟩ := Option.bind_eq_some_iff.1 r1
  obtain ⟨c2, e3, r3⟩ := Option.bind_eq_some_iff.1 r2
  clear hr r1 r2
  norm_num at vx0 vx1
  obtain ⟨k1, k2, ticks⟩ := checks_eq e1 vx0 vx1
  have S : AnyScan.Setup p img aMax vMax := ⟨L, res, ticks, k1, vx1, k2⟩
  have R0 : AnyScan.Ready p aMax vMax (true, (Ctx.new aMax vMax).setWeight p.weight) := by
    refine ⟨.step (op := .setWeight p.weight) .new trivial rfl, fun i => ?_, fun h => by cases h⟩
    · simpa [Ctx.setWeight, Ctx.new] using (zero_le_one.trans (L.one i))
  have f0 : 0 ≤ farX p img := (edge_x (img := img) S.vx0 le_rfl).1
  have rn := reach_nonneg (S.lim.acc .x) p.vX
  have I0 : In p img aMax ((Ctx.new aMax vMax).setWeight p.weight) := by
    refine ⟨by simpa [Ctx.setWeight, Ctx.new] using S.vx0, rfl, ?_, ?_, fun τ hτ => ?_, fun τ hτ => ?_⟩
    · show -1 ≤ (0 : ℤ) ∧ (0 : ℤ) ≤ _
      omega
    · show _ ≤ (0 : ℤ) ∧ (0 : ℤ) ≤ _
      omega
    · obtain rfl : τ = 0 := Nat.le_zero.1 hτ
      show _ ≤ (0 : ℤ) ∧ (0 : ℤ) ≤ _
      omega
    · obtain rfl : τ = 0 := Nat.le_zero.1 hτ
      show _ ≤ (0 : ℤ) ∧ (0 : ℤ) ≤ _
      omega
  obtain ⟨R, I⟩ := In.rows S _ _ _ _ (by omega) R0 I0 e2
  have J := I.goto L S.vx0 R.sync R.vel (x := 0) (y := 0) (vx := 0) le_rfl f0 (min_le_left _ _) (le_max_left _ _) (by simpa using S.vx0) e3
  obtain ⟨s2, -⟩ := goto_past R.sync (Checked.stepGotoSpeed_le _ _ _ _ _ _ e3)
  have En := fun w0 τ => C28_end_of_events _ _ _ _ s2.reach r3 _ (ticks_of_sync s2) w0 τ
  obtain ⟨-, T2, -⟩ := s2.reach.inv
  have acc1 : ∀ i, ∀ τ < (c2.channels .x).ticks, accAt i c'.events τ = accAt i c2.events τ :=
    fun i τ hτ => ((En 0 τ).2.1 hτ).2 i
  have z : ∀ i, |(0 : ℤ)| ≤ vMax i := fun i => by simpa using (zero_le_one.trans (L.one i))
  obtain ⟨V1, V2, -⟩ := goto_facts L R.sync R.vel (z _) (z _) e3
  have past : ∀ i, ∀ τ ≤ (c2.channels .x).ticks, posAt i c'.events τ = posAt i c2.events τ := fun i τ hτ =>
    posAt_congr (fun σ hσ => acc1 i σ hσ) hτ
  have stop : ∀ i τ, (c2.channels .x).ticks ≤ τ → posAt i c'.events τ = posAt i c2.events (c2.channels .x).ticks := by
    intro i τ hτ
    obtain ⟨n, rfl⟩ := Nat.exists_eq_add_of_le hτ
    obtain ⟨-, q2⟩ := coast (i := i) (es := c'.events) (a := (c2.channels .x).ticks) (n := n) (fun τ k1 _ => by
      cases i
      · exact ((En 0 τ).1 k1).2.1
      · exact ((En 0 τ).1 k1).2.2)
    have e1 := T2.vel i
    rw [same_ticks s2] at e1
    rw [q2, velAt_congr (acc1 i) le_rfl, past i _ le_rfl, ← e1]
    cases i
    · rw [V1]; simp
    · rw [V2]; simp
  refine ⟨S.vx0, ?_⟩
  by_cases h : τ ≤ (c2.channels .x).ticks
  · rw [past .x _ h, past .y _ h]
    exact ⟨J.hx τ h, J.hy τ h⟩
  · rw [stop .x τ (by omega), stop .y τ (by omega)]
    exact ⟨J.hx _ le_rfl, J.hy _ le_rfl⟩

end

end StepperPaths.InsideScan
