import Verif.Proof.AnySpeed

/-! What `image_raster` burns, with any numbers: the lines of C57 without its conditions. -/

namespace StepperPaths.AnyScan
open Context Control Spec IntegerCurve Props Draw Raster Proof

/-- A move between speeds within the limits. -/
theorem goto_facts {aMax vMax : Axis → ℤ} (L : Limits aMax vMax) {c c' : Ctx} (S : Sync aMax vMax c) (hv : ∀ i, |(c.channels i).v| ≤ vMax i)
    {x y vx vy : ℤ} (hx : |vx| ≤ vMax .x) (hy : |vy| ≤ vMax .y) (h : Checked.stepGotoSpeed c x y vx vy = some c') :
    (c'.channels .x).v = vx ∧ (c'.channels .y).v = vy ∧ |(c'.channels .x).pos - x| ≤ 1 ∧ |(c'.channels .y).pos - y| ≤ 1 ∧
      ((c'.channels .x).pos = x ↔ (x - vx) % 2 = 0) ∧ ((c'.channels .y).pos = y ↔ (y - vy) % 2 = 0) ∧
      ∀ i, (c.channels .x).ticks < (c'.channels .x).ticks ∧ ∀ τ, (c.channels .x).ticks ≤ τ → τ < (c'.channels .x).ticks →
        |accAt i c'.events τ| ≤ aMax i ∧ |velAt i c'.events (τ + 1)| ≤ vMax i := by
  have hv' : ∀ i, (c.channels i).v ≤ vMax i ∧ |(c.channels i).v| ≤ 2 ^ 31 := fun i =>
    ⟨(abs_le.1 (hv i)).2, (hv i).trans (L.big i).le⟩
  obtain ⟨l, M, hl⟩ := goto_any L S hv' h
  have S' := (goto_past S (Checked.stepGotoSpeed_le _ _ _ _ _ _ h)).1
  have vel : ∀ i, (c'.channels i).v = both vx vy i := fun i => by rw [M.ch i]; exact (hl i).2.2.2.endv
  have pos : ∀ i, |(c'.channels i).pos - both x y i| ≤ 1 := fun i => by
    rw [M.ch i]
    have := (hl i).2.1
    simp only
    rw [abs_le] at this ⊢
    omega
  have par : ∀ i, (c'.channels i).pos = both x y i ↔ (both x y i - both vx vy i) % 2 = 0 := fun i => by
    have e : 2 ∣ (c'.channels i).pos - 0 - (c'.channels i).v := by
      rw [S'.reach.inv.2.1.pos i, S'.reach.inv.2.1.vel i]
      exact dist_even _ _
    have h1 := pos i
    rw [vel i] at e
    rw [abs_le] at h1
    omega
  refine ⟨vel .x, vel .y, pos .x, pos .y, par .x, par .y, fun i => ?_⟩
  have hlen : ∀ i, (c'.channels .x).ticks = (c.channels .x).ticks + (l i).length := fun i => by
    rw [← same_ticks S' i, ← same_ticks S i, M.ch i]
  refine ⟨by have := hlen i; have := (hl i).2.2.1; omega, fun τ h1 h2 => ?_⟩
  obtain ⟨k, rfl⟩ := Nat.exists_eq_add_of_le h1
  have hk : k < (l i).length := by have := hlen i; omega
  constructor
  · have := M.accAt i hk
    rw [same_ticks S i] at this
    rw [this]
    exact (hl i).2.2.2.acc _ (List.getElem_mem _)
  · have := M.velAt S.reach.inv.2.1 i (k := k + 1) hk
    rw [same_ticks S i, ← Nat.add_assoc] at this
    rw [this]
    have h3 := (hl i).2.2.2.vel _ (endVel_take_mem (c.channels i).v (l i) (by omega) hk)
    have h4 := (abs_le.1 (hv i)).1
    have h5 : -vMax i ≤ both vx vy i := by
      cases i
      · exact (abs_le.1 hx).1
      · exact (abs_le.1 hy).1
    rw [abs_le]
    exact ⟨le_trans (le_min le_rfl (le_min h4 h5)) h3.1, h3.2⟩

/-- The state between two lines. -/
structure Ready (p : Params) (aMax vMax : Axis → ℤ) (s : Bool × Ctx) : Prop where
  sync : Sync aMax vMax s.2
  vel : ∀ i, |(s.2.channels i).v| ≤ vMax i
  turn : s.1 = false → p.vX ≤ vMax .x

/-- What `line` needs. -/
structure Setup (p : Params) (img : Image) (aMax vMax : Axis → ℤ) : Prop where
  lim : Limits aMax vMax
  res : 0 < p.resX
  ticks : img.width * p.resX < 2147483648
  vx0 : 0 ≤ p.vX
  vx1 : p.vX < 2147483648
  wide : 2 * p.vX * (img.width * p.resX : ℕ) < 4294967296

theorem lineY_eq {p : Params} {yn rep : ℕ} {y : ℤ} (h : lineY p yn rep = some y) : y = (yn * p.resY + rep) * p.stepY := by
  obtain ⟨a, e1, h2⟩ := Option.bind_eq_some_iff.1 h
  obtain ⟨b, e2, h3⟩ := Option.bind_eq_some_iff.1 h2
  obtain ⟨rfl, -⟩ := mulU32_eq e1
  obtain ⟨e, hlt⟩ := addU32_eq e2
  cases h3
  rw [e]
  push_cast
  ring

theorem line_goto {p : Params} {img : Image} {ltr : Bool} {yn start len rep ls : ℕ} {x y : ℤ} {c c' : Ctx}
    (h : Checked.line p img ltr yn start len rep c = some c') (e1 : lineStart ltr start len = some ls) (e2 : lineX p ls = some x)
    (e3 : lineY p yn rep = some y) : ∃ c1, Checked.stepGotoSpeed c x y (if ltr = true then p.vX else -p.vX) 0 = some c1 := by
  unfold Checked.line at h
  obtain ⟨_, k1, h⟩ := Option.bind_eq_some_iff.1 h
  obtain ⟨v, k2, h⟩ := Option.bind_eq_some_iff.1 h
  obtain ⟨_, k3, h⟩ := Option.bind_eq_some_iff.1 h
  obtain ⟨_, k4, h⟩ := Option.bind_eq_some_iff.1 h
  obtain ⟨c1, k5, h⟩ := Option.bind_eq_some_iff.1 h
  rw [e1, Option.some.injEq] at k1
  subst k1
  rw [e2, Option.some.injEq] at k3
  subst k3
  have := Checked.lineY_le _ _ _ _ k4
  rw [e3, Option.some.injEq] at this
  subst this
  have := Checked.lineV_le _ _ _ k2
  rw [Option.some.injEq] at this
  subst this
  exact ⟨c1, k5⟩

theorem line_inner {p : Params} {img : Image} {aMax vMax : Axis → ℤ} {ltr : Bool} {yn start len rep : ℕ}
    {c c' : Ctx} (S : Setup p img aMax vMax) (h : Ready p aMax vMax (ltr, c))
    (hin : start + len ≤ img.width) (hc : Checked.line p img ltr yn start len rep c = some c') :
    Ready p aMax vMax (!ltr, c') ∧ Past c c' ∧
      ∃ c1, LinePlayed p img aMax vMax c'.events (c.channels .x).ticks (c1.channels .x).ticks (c'.channels .x).ticks
        ⟨yn, rep, start, len, ltr⟩ ∧ Past c1 c' ∧ Sync aMax vMax c1 ∧
        Checked.stepGotoSpeed c (2 * p.vX * (p.resX * (if ltr then start else start + len : ℕ) : ℕ)) ((yn * p.resY + rep) * p.stepY)
          (if ltr then p.vX else -p.vX) 0 = some c1 := by
  have hr := Checked.line_le _ _ _ _ _ _ _ _ _ hc
  unfold line at hr
  obtain ⟨ls, e1, r1⟩ := Option.bind_eq_some_iff.1 hr
  obtain ⟨x, e2, r2⟩ := Option.bind_eq_some_iff.1 r1
  obtain ⟨y, e3, r3⟩ := Option.bind_eq_some_iff.1 r2
  obtain ⟨c1, e4, r4⟩ := Option.bind_eq_some_iff.1 r3
  obtain ⟨st, e5, r5⟩ := Option.bind_eq_some_iff.1 r4
  obtain ⟨c2, e6, r6⟩ := Option.bind_eq_some_iff.1 r5
  obtain ⟨off, e7, r7⟩ := Option.bind_eq_some_iff.1 r6
  obtain ⟨ivl, e8, r8⟩ := Option.bind_eq_some_iff.1 r7
  obtain ⟨c3, e9, r9⟩ := Option.bind_eq_some_iff.1 r8
  clear hr r1 r2 r3 r4 r5 r6 r7 r8
  have hls : ls = if ltr then start else start + len := by
    unfold lineStart at e1
    cases ltr
    · exact (addU32_eq e1).1
    · cases e1; rfl
  obtain ⟨hx, hx0, hx1⟩ := lineX_eq S.vx0 S.vx1 e2
  have hy := lineY_eq e3
  have hlen : len * p.resX < 2147483648 :=
    lt_of_le_of_lt (Nat.mul_le_mul_right _ (by omega)) S.ticks
  have hvx0 := S.vx0
  obtain ⟨cg, eg⟩ := line_goto hc e1 e2 e3
  obtain rfl : c1 = cg := Option.some.inj (e4.symm.trans (Checked.stepGotoSpeed_le _ _ _ _ _ _ eg))
  have hvxm : p.vX ≤ vMax .x := by
    cases ltr
    · exact h.turn rfl
    · obtain ⟨b1, -, -⟩ := stepGotoSpeed_eq e4
      rw [h.sync.reach.inv.2.2.2.1] at b1
      exact b1
  have hwide : 2 * p.vX * (len * p.resX : ℕ) < 4294967296 := by
    refine lt_of_le_of_lt (mul_le_mul_of_nonneg_left ?_ (by omega)) S.wide
    exact_mod_cast Nat.mul_le_mul_right _ (by omega)
  set V : ℤ := if ltr = true then p.vX else -p.vX with hV
  have vmx : |V| ≤ vMax .x := by
    rw [hV]
    split
    · rwa [abs_of_nonneg hvx0]
    · rwa [abs_neg, abs_of_nonneg hvx0]
  obtain ⟨s1, p1⟩ := goto_past h.sync e4
  have hy0 : |(0 : ℤ)| ≤ vMax .y := by simpa using (zero_le_one.trans (S.lim.one .y))
  obtain ⟨V1, V2, A2, A3, -, -, B⟩ := goto_facts S.lim h.sync h.vel vmx hy0 eg
  have W := C28_goto_weight _ _ _ _ h.sync.reach _ _ _ _ e4 _ (ticks_of_sync h.sync)
  have hmove := (B .x).1
  simp only at hmove W
  have hst := (ticks_some.1 e5).1
  subst hst
  obtain ⟨rfl, -⟩ := mulU32_eq e7
  -- the pixels
  have g0 : Gliding aMax vMax c1 c1 ((c1.channels .x).ticks + 0 * p.resX)
      (fun τ => (fun k => shade p img ((ScanLine.mk yn rep start len ltr).column k) yn)
        ((τ - (c1.channels .x).ticks) / p.resX)) 0 := by
    refine ⟨s1, .refl _, by omega, fun _ => rfl, fun i => by simp, fun i τ k1 k2 => by omega, fun w0 τ k1 => ?_⟩
    rw [if_neg (by omega), (W w0 τ).2 (by omega)]
  obtain ⟨prev, g2⟩ := pixels_spec s1 S.res (wf := fun xn => do
    let x ← bitmapX ltr start len xn
    return pixelWeight p img x yn) (ws := fun k => shade p img ((ScanLine.mk yn rep start len ltr).column k) yn)
    (len := len) (fun k hk w hw => by
      obtain ⟨z, k1, k2⟩ := Option.bind_eq_some_iff.1 hw
      cases k2
      rw [bitmapX_eq (y := yn) (rep := rep) k1]
      rfl) hlen len 0 0 c1 c2 (by omega) g0 e6
  obtain ⟨now, hnow, hsum⟩ := waitFor_eq e8
  have hnow' := (ticks_some.1 hnow).1
  have q2 := g2.past.ticks
  obtain ⟨g3, t3⟩ := g2.wait s1 (by omega) (by omega) e9
  obtain ⟨g4, t4⟩ := g3.change s1 (by omega) r9
  have pp : Past c c' := p1.trans g4.past h.sync.inv.2.1 s1.inv.2.1
  -- the motion during the line
  have hacc1 : ∀ i, ∀ τ < (c1.channels .x).ticks, accAt i c'.events τ = accAt i c1.events τ := fun i τ hτ =>
    g4.past.acc i τ (by rw [same_ticks s1]; exact hτ)
  obtain ⟨-, T1, -⟩ := s1.reach.inv
  have C : ∀ i n, n ≤ len * p.resX → velAt i c'.events ((c1.channels .x).ticks + n) = (c1.channels i).v ∧
      posAt i c'.events ((c1.channels .x).ticks + n) = (c1.channels i).pos + 2 * (c1.channels i).v * n := by
    intro i n hn
    obtain ⟨k1, k2⟩ := coast (i := i) (es := c'.events) (a := (c1.channels .x).ticks) (n := n)
      (fun τ k1 k2 => g4.acc i τ k1 (by omega))
    rw [k1, k2, velAt_congr (hacc1 i) le_rfl, posAt_congr (hacc1 i) le_rfl]
    have e1 := T1.vel i
    have e2 := T1.pos i
    rw [same_ticks s1] at e1 e2
    rw [← e1, ← e2]
    exact ⟨rfl, rfl⟩
  refine ⟨⟨g4.sync, fun i => ?_, fun _ => ?_⟩, pp, c1, ⟨hmove, by rw [t4],
    fun w0 τ k1 k2 => ?_, fun w0 k j hk hj => ?_, fun k j hk hj => ?_, fun τ k1 k2 => ?_,
    fun τ k1 k2 => ?_, fun τ k1 k2 => ?_, fun i τ k1 k2 => ?_, fun i τ k1 k2 => ?_⟩, g4.past, s1, ?_⟩
  · simp only
    rw [g4.vel i]
    cases i
    · rw [V1]; exact vmx
    · rw [V2]; exact hy0
  · exact hvxm
  · rw [g4.past.weight w0 τ k2, (W w0 τ).2 k1]
  · replace hk : k < len := hk
    have hb := column_end hk (Nat.succ_le_of_lt hj)
    rw [g4.weight w0 _ (by omega), if_pos (by omega)]
    simp only
    congr 2
    rw [Nat.add_sub_cancel_left, Nat.div_eq_iff S.res]
    constructor
    · omega
    · omega
  · replace hk : k < len := hk
    have hb := column_end hk hj
    rw [(C .x _ hb).2, V1]
    have key : x + 2 * V * ((k * p.resX + j : ℕ) : ℤ) = 2 * p.vX * (if ltr = true then
        (p.resX * ((ScanLine.mk yn rep start len ltr).column k : ℕ) + j : ℤ)
        else (p.resX * (((ScanLine.mk yn rep start len ltr).column k : ℕ) + 1) - j : ℤ)) := by
      rw [hx, hls, hV]
      unfold ScanLine.column
      cases ltr
      · simp only [Bool.false_eq_true, if_false]
        have e : ((start + len - 1 - k : ℕ) : ℤ) = start + len - 1 - k := by omega
        rw [e]
        push_cast
        ring
      · simp only [if_true]
        push_cast
        ring
    simp only at key ⊢
    rw [← key]
    rw [abs_le] at A2 ⊢
    omega
  · obtain ⟨n, rfl⟩ := Nat.exists_eq_add_of_le k1
    rw [(C .y n (by omega)).2, V2, mul_zero, zero_mul, add_zero]
    simp only
    rw [← hy]
    exact A3
  · obtain ⟨n, rfl⟩ := Nat.exists_eq_add_of_le k1
    rw [(C .x n (by omega)).1, V1]
  · obtain ⟨n, rfl⟩ := Nat.exists_eq_add_of_le k1
    rw [(C .y n (by omega)).1, V2]
  · rw [hacc1 i τ k2]
    exact ((B i).2 τ k1 k2).1
  · rw [velAt_congr (hacc1 i) (by omega)]
    exact ((B i).2 τ k1 k2).2

  · rw [← hls, ← hy]
    convert eg using 2
    rw [hx]
    push_cast
    ring

theorem line_spec {p : Params} {img : Image} {aMax vMax : Axis → ℤ} {ltr : Bool} {yn start len rep : ℕ}
    {c c' : Ctx} (S : Setup p img aMax vMax) (h : Ready p aMax vMax (ltr, c))
    (hin : start + len ≤ img.width) (hc : Checked.line p img ltr yn start len rep c = some c') :
    Ready p aMax vMax (!ltr, c') ∧ Past c c' ∧
      ∃ a, LinePlayed p img aMax vMax c'.events (c.channels .x).ticks a (c'.channels .x).ticks
        ⟨yn, rep, start, len, ltr⟩ := by
  obtain ⟨h1, h2, c1, h3, -⟩ := line_inner S h hin hc
  exact ⟨h1, h2, _, h3⟩

/-- What a part of the scan has done. -/
structure Scanned (p : Params) (img : Image) (aMax vMax : Axis → ℤ) (s s' : Bool × Ctx) (plan : List (ℕ × ℕ))
    (ls : List ScanLine) : Prop where
  ready : Ready p aMax vMax s'
  past : Past s.2 s'.2
  scan : Scan p img aMax vMax s'.2.events (s.2.channels .x).ticks ls (s'.2.channels .x).ticks
  plan : ls.map (fun l => (l.y, l.rep)) = plan
  span : ∀ l ∈ ls, 0 < l.len ∧ RowSpan img l.y l.start l.len
  alt : Alternating s.1 ls
  next : s'.1 = if ls.length % 2 = 0 then s.1 else !s.1

theorem Scanned.refl {p : Params} {img : Image} {aMax vMax : Axis → ℤ} {s : Bool × Ctx}
    (h : Ready p aMax vMax s) : Scanned p img aMax vMax s s [] [] :=
  ⟨h, .refl _, .nil _, rfl, by simp, trivial, by simp⟩

theorem Scanned.trans {p : Params} {img : Image} {aMax vMax : Axis → ℤ} {s1 s2 s3 : Bool × Ctx}
    {P Q : List (ℕ × ℕ)} {ls ms : List ScanLine} (h0 : Sync aMax vMax s1.2)
    (h : Scanned p img aMax vMax s1 s2 P ls)
    (h' : Scanned p img aMax vMax s2 s3 Q ms) : Scanned p img aMax vMax s1 s3 (P ++ Q) (ls ++ ms) := by
  have e2 := h.ready.sync.inv.2.1
  refine ⟨h'.ready, h.past.trans h'.past h0.inv.2.1 e2, ?_, ?_, ?_, ?_, ?_⟩
  · refine (h.scan.mono (fun i τ hτ => ?_) (fun w0 τ hτ => h'.past.weight w0 τ hτ)).append h'.scan
    exact h'.past.acc i τ (by rw [same_ticks h.ready.sync]; exact hτ)
  · rw [List.map_append, h.plan, h'.plan]
  · intro l hl
    rcases List.mem_append.1 hl with hl | hl
    · exact h.span l hl
    · exact h'.span l hl
  · apply Alternating.append h.alt
    rw [← h.next]
    exact h'.alt
  · rw [h'.next, h.next, List.length_append]
    rcases Nat.mod_two_eq_zero_or_one ls.length with e | e <;>
      rcases Nat.mod_two_eq_zero_or_one ms.length with e' | e' <;>
        simp [Nat.add_mod, e, e']

theorem lines_spec {p : Params} {img : Image} {aMax vMax : Axis → ℤ} (S : Setup p img aMax vMax)
    {yn start len : ℕ} (hpos : 0 < len) (hin : start + len ≤ img.width) (hsp : RowSpan img yn start len) :
    ∀ (n rep : ℕ) (s s' : Bool × Ctx), Ready p aMax vMax s → Checked.lines p img yn start len rep n s = some s' →
      ∃ ls, Scanned p img aMax vMax s s' ((List.range' rep n).map fun r => (yn, r)) ls := by
  intro n
  induction n with
  | zero =>
    intro rep s s' h hr
    simp only [Checked.lines, Option.some.injEq] at hr
    subst hr
    exact ⟨[], .refl h⟩
  | succ n ih =>
    rintro rep ⟨ltr, c⟩ s' h hr
    rw [Checked.lines] at hr
    obtain ⟨c1, h1, h2⟩ := Option.bind_eq_some_iff.1 hr
    obtain ⟨R, P, a, L⟩ := line_spec S h hin h1
    have one : Scanned p img aMax vMax (ltr, c) (!ltr, c1) [(yn, rep)] [⟨yn, rep, start, len, ltr⟩] :=
      ⟨R, P, .cons L (.nil _), rfl, by simpa using ⟨hpos, hsp⟩, ⟨rfl, trivial⟩, by simp⟩
    obtain ⟨ls, h3⟩ := ih _ _ _ R h2
    exact ⟨_, one.trans h.sync h3⟩

theorem rows_spec {p : Params} {img : Image} {aMax vMax : Axis → ℤ} (S : Setup p img aMax vMax) :
    ∀ (n yn : ℕ) (s s' : Bool × Ctx), Ready p aMax vMax s → Checked.rows p img yn n s = some s' →
      ∃ ls, Scanned p img aMax vMax s s' (rowPlan p img yn n) ls := by
  intro n
  induction n with
  | zero =>
    intro yn s s' h hr
    simp only [Checked.rows, Option.some.injEq] at hr
    subst hr
    exact ⟨[], .refl h⟩
  | succ n ih =>
    intro yn s s' h hr
    rw [Checked.rows] at hr
    rcases he : findRowInterval (marked img yn) img.width with ⟨start, len⟩
    rw [he] at hr
    simp only at hr
    obtain ⟨f1, f2, f3⟩ := findRowInterval_spec _ _ _ _ he
    rw [rowPlan_succ]
    by_cases hl : len > 0
    · rw [if_pos hl] at hr
      obtain ⟨s1, h1, h2⟩ := Option.bind_eq_some_iff.1 hr
      have hs : RowSpan img yn start len := by
        refine ⟨fun x hx hp => f1 x hx (by simpa [marked] using hp), fun _ => ?_⟩
        obtain ⟨k1, k2, k3⟩ := f2 hl
        exact ⟨k1, by simpa [marked] using k2, by simpa [marked] using k3⟩
      obtain ⟨ls, q⟩ := lines_spec S hl (f2 hl).1 hs _ _ _ _ h h1
      obtain ⟨ms, q'⟩ := ih _ _ _ q.ready h2
      rw [if_pos ⟨start, by have := (f2 hl).1; omega, (hs.2 hl).2.1⟩, List.range_eq_range']
      exact ⟨_, q.trans h.sync q'⟩
    · rw [if_neg hl] at hr
      rw [if_neg]
      · exact ih _ _ _ h hr
      · rintro ⟨x, hx, hp⟩
        have := f3.1 (by omega) x hx
        simp [marked] at this
        omega


theorem raster_spec {p : Params} {img : Image} {aMax vMax : Axis → ℤ} {c' : Ctx} (L : Limits aMax vMax) (res : 0 < p.resX)
    (vx0 : -2 ^ 31 ≤ p.vX) (vx1 : p.vX < 2 ^ 31) (hr : Checked.raster p img (Ctx.new aMax vMax) = some c') :
    ∃ ls T E, Scan p img aMax vMax c'.events 0 ls T ∧
      ls.map (fun l => (l.y, l.rep)) = rowPlan p img 0 img.height ∧
      (∀ l ∈ ls, 0 < l.len ∧ RowSpan img l.y l.start l.len) ∧
      (∀ k (hk : k < ls.length), ls[k].ltr = decide (k % 2 = 0)) ∧
      T < E ∧ (∀ w0 τ, T ≤ τ → weightAt w0 c'.events τ = 0) ∧
      (∀ i τ, T ≤ τ → |accAt i c'.events τ| ≤ aMax i ∧ |velAt i c'.events (τ + 1)| ≤ vMax i) ∧
      ∀ i τ, E ≤ τ → velAt i c'.events τ = 0 ∧ posAt i c'.events τ = 0 := by
  unfold Checked.raster at hr
  simp only at hr
  obtain ⟨_, e1, r1⟩ := Option.bind_eq_some_iff.1 hr
  obtain ⟨⟨b, c1⟩, e2, r2⟩ := Option.bind_eq_some_iff.1 r1
  obtain ⟨c2, e3, r3⟩ := Option.bind_eq_some_iff.1 r2
  clear hr r1 r2
  norm_num at vx0 vx1
  obtain ⟨k1, k2, ticks⟩ := checks_eq e1 vx0 vx1
  have S : Setup p img aMax vMax := ⟨L, res, ticks, k1, vx1, k2⟩
  have R0 : Ready p aMax vMax (true, (Ctx.new aMax vMax).setWeight p.weight) := by
    refine ⟨.step (op := .setWeight p.weight) .new trivial rfl, fun i => ?_, fun h => by cases h⟩
    · simpa [Ctx.setWeight, Ctx.new] using (zero_le_one.trans (L.one i))
  obtain ⟨ls, Q⟩ := rows_spec S _ _ _ _ R0 e2
  have R := Q.ready
  obtain ⟨s2, p2⟩ := goto_past R.sync (Checked.stepGotoSpeed_le _ _ _ _ _ _ e3)
  have z : ∀ i, |(0 : ℤ)| ≤ vMax i := fun i => by simpa using (zero_le_one.trans (L.one i))
  obtain ⟨V1, V2, -, -, A2, A3, B⟩ := goto_facts L R.sync R.vel (z _) (z _) e3
  have W := C28_goto_weight _ _ _ _ R.sync.reach _ _ _ _ (Checked.stepGotoSpeed_le _ _ _ _ _ _ e3) _ (ticks_of_sync R.sync)
  have En := fun w0 τ => C28_end_of_events _ _ _ _ s2.reach r3 _ (ticks_of_sync s2) w0 τ
  replace A2 := A2.2 (by norm_num)
  replace A3 := A3.2 (by norm_num)
  have hmove : (c1.channels .x).ticks < (c2.channels .x).ticks := (B .x).1
  obtain ⟨-, T2, -⟩ := s2.reach.inv
  have acc1 : ∀ i, ∀ τ < (c2.channels .x).ticks, accAt i c'.events τ = accAt i c2.events τ :=
    fun i τ hτ => ((En 0 τ).2.1 hτ).2 i
  have rest : ∀ i τ, (c2.channels .x).ticks ≤ τ → accAt i c'.events τ = 0 := by
    intro i τ hτ
    cases i
    · exact ((En 0 τ).1 hτ).2.1
    · exact ((En 0 τ).1 hτ).2.2
  have stop : ∀ i τ, (c2.channels .x).ticks ≤ τ → velAt i c'.events τ = 0 ∧ posAt i c'.events τ = 0 := by
    intro i τ hτ
    obtain ⟨n, rfl⟩ := Nat.exists_eq_add_of_le hτ
    obtain ⟨q1, q2⟩ := coast (i := i) (es := c'.events) (a := (c2.channels .x).ticks) (n := n)
      (fun τ k1 _ => rest i τ k1)
    have e1 := T2.vel i
    have e2 := T2.pos i
    rw [same_ticks s2] at e1 e2
    rw [q1, q2, velAt_congr (acc1 i) le_rfl, posAt_congr (acc1 i) le_rfl, ← e1, ← e2]
    cases i
    · rw [V1]; simpa using A2
    · rw [V2]; simpa using A3
  refine ⟨ls, (c1.channels .x).ticks, (c2.channels .x).ticks, ?_, Q.plan, Q.span, ?_, hmove, ?_, ?_, stop⟩
  · have t0 : (((Ctx.new aMax vMax).setWeight p.weight).channels .x).ticks = 0 := rfl
    have := Q.scan
    simp only [t0] at this
    refine this.mono (fun i τ hτ => ?_) (fun w0 τ hτ => ?_)
    · rw [acc1 i τ (by omega)]
      exact p2.acc i τ (by rw [same_ticks R.sync]; exact hτ)
    · rw [((En w0 τ).2.1 (by omega)).1]
      exact p2.weight w0 τ hτ
  · intro k hk
    have := Alternating.getElem Q.alt k hk
    simp only at this
    rw [this]
    by_cases h : k % 2 = 0 <;> simp [h]
  · intro w0 τ hτ
    by_cases h : τ < (c2.channels .x).ticks
    · rw [((En w0 τ).2.1 h).1]
      exact (W w0 τ).2 hτ
    · exact ((En w0 τ).1 (by omega)).1
  · intro i τ hτ
    by_cases h : τ < (c2.channels .x).ticks
    · rw [acc1 i τ h, velAt_congr (acc1 i) (by omega)]
      exact (B i).2 τ hτ h
    · rw [rest i τ (by omega), (stop i (τ + 1) (by omega)).1]
      have := L.acc i
      have := L.one i
      simp
      omega

end StepperPaths.AnyScan
