import Verif.Proof.PictureLines

/-! Drawing a picture once, and several times. -/

namespace StepperPaths.Picture
open Coords Curves Context Draw Spec Props Rounded Program

theorem draw_past {aMax vMax : Axis → ℤ} {e : Draw.Env} {c c' : Ctx} {v : ℝ} {segs : List Seg} {err : Axis → ℤ} (h : Sync aMax vMax c)
    (hd : Draw.drawCurves e c segs v = some (c', err)) : Past c c' := by
  unfold Draw.drawCurves at hd
  split at hd
  · cases hd
    exact Past.refl _
  · obtain ⟨s, h1, h2⟩ := Option.bind_eq_some_iff.1 hd
    obtain ⟨c1, h3, h4⟩ := Option.bind_eq_some_iff.1 h2
    cases h4
    rw [Props.drawPen_eq] at h1
    obtain ⟨h5, h6⟩ := Draw.finish_later (s := Draw.Pen.init e c) h h1
    exact Past.trans h6.past (weight_now h5 h3).2.2.1 h.inv.2.1 h5.inv.2.1

theorem round_half (x : ℝ) : |(Draw.round x : ℝ) - x| ≤ 1 / 2 := by
  unfold Draw.round
  split
  · have h1 := Int.floor_le (x + 1 / 2)
    have h2 := Int.lt_floor_add_one (x + 1 / 2)
    rw [abs_le]
    constructor <;> linarith
  · have h1 := Int.floor_le (-x + 1 / 2)
    have h2 := Int.lt_floor_add_one (-x + 1 / 2)
    push_cast
    rw [abs_le]
    constructor <;> linarith

/-- One pass. -/
theorem pass_burnt {aMax vMax : Axis → ℤ} (hM : Machine aMax vMax) {e : Draw.Env} (hf : Searches (exactEnv e)) (hT : Tables e)
    {c : Ctx} (h : Sync aMax vMax c) (hc : ∀ i, |(c.channels i).v| ≤ vMax i) (hp : ∀ i, |(c.channels i).pos| ≤ 2 ^ 28)
    (hw : c.curveWeight ≠ 0) {v S M D ε κ : ℝ} {N m : ℕ} (L : CurveLimits (exactEnv e) aMax vMax v S M D ε κ N m)
    {ρ : Axis → ℝ} (hρ : ∀ i, 387 / 100 * S + 1 / 2 + 3 * (N * (1 / 1000000 + 1 / 10 ^ 12) * e.stepScale i) ≤ ρ i)
    {p0 : Vec} {rest : List Seg} (hN : rest.length < N)
    (hF : Fits e.stepScale M (m * v) D ε κ (v / 100) ρ p0 rest (fun i => (c.channels i).pos)) :
    ∃ c' err, Draw.drawCurves e c (.goTo p0 :: rest) v = some (c', err) ∧ Sync aMax vMax c' ∧ Past c c' ∧
      Burnt e.stepScale c.curveWeight aMax vMax c'.events (c.channels .x).ticks (c'.channels .x).ticks (linesOf p0 rest)
        (fun i => 1 + e.stepScale i / 1000000)
        (fun i => 386 / 100 * S + 1 / 2 + (N * (1 / 1000000 + 1 / 10 ^ 12) + N * D) * e.stepScale i)
        (fun i => 386 / 100 * S + 1 / 2 + (N * (1 / 1000000 + 1 / 10 ^ 12) + N * D + 13 / 10 * v) * e.stepScale i) ∧
      (∀ w τ, (c'.channels .x).ticks ≤ τ → weightAt w c'.events τ = 0) ∧
      (∀ i, |(c'.channels i).v| ≤ vMax i) ∧
      (∀ i, |((c'.channels i).pos : ℝ)| ≤ 2 * M * e.stepScale i + 4 * S + 2) ∧
      ((∀ i, (c'.channels i).pos = (c.channels i).pos) ∨ AtEnd e.stepScale ρ p0 rest (fun i => (c'.channels i).pos)) := by
  have hs : ∀ i, 0 < e.stepScale i := fun i => lt_of_lt_of_le (by norm_num) (L.scale i)
  have hv : 0 < v := lt_of_lt_of_le (by norm_num) L.tiny
  have hm : 0 < (m : ℝ) * v := mul_pos (by exact_mod_cast (lt_of_lt_of_le zero_lt_two L.two)) hv
  obtain ⟨c', err, t', segs', n, l, G, q1, q2, -, q3, q4, q5, q6, -, q7, -, q8, q9, q10, q11⟩ :=
    C94_path aMax vMax hM e hf hT c h hc hp v S M D ε κ N m L ρ hρ (.goTo p0 :: rest) (by simp) (by simpa using hN)
      (place e.stepScale fun i => (c.channels i).pos) (by intro i; cases i <;> rfl) hF.bounded hF.path _ (ticks_of_sync h)
  have et : t' = (c'.channels .x).ticks := by
    rw [ticks_of_sync q9] at q2
    exact (Option.some.inj q2).symm
  subst et
  have hp0 := hF.path
  obtain ⟨-, hpath, hpath'⟩ := hp0
  have main : (∃ δ : Axis → ℝ, (∀ i, 0 ≤ δ i) ∧ (∀ i, δ i * e.stepScale i ≤ 1 / 2) ∧ ∃ A E : List _,
      (∀ a ∈ l, ∃ γ ∈ A, Same (shapeOf pictures a) γ) ∧
      (∀ γ ∈ A, (∃ a ∈ l, Same (shapeOf pictures a) γ) ∨ ∃ p q, γ = pointAt p (.closeTo q) ∧ (p - q).length < 1 / 1000000) ∧
      endsOf (exactEnv e) (place e.stepScale fun i => (c.channels i).pos) segs' = E ∧
      List.Forall₂ (Close δ) A (linesOf p0 rest) ∧
      List.Forall₂ (fun a b => ∀ i, |coord a i - coord b i| ≤ δ i) E (lineEnds p0 rest)) ∧ n ≤ N := by
    cases q3 with
    | move hd =>
      have := (CurvePath.dropped_apart hd (CurvePath.exact_apart rest _ _ hpath hF.apart)).symm
      subst this
      refine ⟨⟨fun _ => 0, fun _ => le_rfl, fun i => by norm_num, ?_⟩, (intended_short q4).trans (by simpa using hN)⟩
      obtain ⟨a1, a2, a3⟩ := lines_drawn hm q4 hF.path
      obtain ⟨s1, s2⟩ := shift_lines rest (δ := fun _ => 0) (p := p0) (q := p0) (by simp)
      exact ⟨_, _, a1, a2, a3, s1, s2⟩
    | @skip _ _ _ _ _ hb hd =>
      have hb' : ∀ i, Draw.round (coord p0 i * e.stepScale i) = (c.channels i).pos := by
        rcases hb with hb | ⟨q, hq, -⟩
        · exact hb
        · simp at hq
      have := (CurvePath.dropped_apart hd (CurvePath.exact_apart rest _ _ (hpath' hb) (hF.apart' hb'))).symm
      subst this
      refine ⟨⟨fun i => 1 / 2 / e.stepScale i, fun i => by have := hs i; positivity, fun i => by
        rw [div_mul_cancel₀ _ (hs i).ne'], ?_⟩, (intended_short q4).trans (by omega)⟩
      obtain ⟨a1, a2, a3⟩ := lines_drawn hm q4 (hpath' hb)
      obtain ⟨s1, s2⟩ := shift_lines rest (δ := fun i => 1 / 2 / e.stepScale i) (p := place e.stepScale fun i => (c.channels i).pos)
        (q := p0) (by
          intro i
          have e1 : coord (place e.stepScale fun i => (c.channels i).pos) i = (c.channels i).pos / e.stepScale i := by
            cases i <;> rfl
          have e2 := round_half (coord p0 i * e.stepScale i)
          rw [hb' i] at e2
          rw [e1, le_div_iff₀ (hs i), ← abs_of_pos (hs i), ← abs_mul, abs_of_pos (hs i), sub_mul, div_mul_cancel₀ _ (hs i).ne']
          exact e2)
      exact ⟨_, _, a1, a2, a3, s1, s2⟩
    | draw h => exact absurd rfl (h p0)
  obtain ⟨⟨δ, hδ0, hδ, A, E, a1, a2, a3, s1, s2⟩, hnN⟩ := main
  refine ⟨c', err, q1, q9, draw_past h q1, ?_, q7, q8, q10, ?_⟩
  · have hr : (n : ℝ) * (1 / 1000000 + 1 / 10 ^ 12) + N * D ≤ N * (1 / 1000000 + 1 / 10 ^ 12) + N * D := by
      have : (n : ℝ) ≤ N := by exact_mod_cast hnN
      linarith
    exact burnt_of (fun i => (hs i).le) (e := exactEnv e) rfl hw hv hr q5 q6 a1 a2 s1 hδ
  · rcases q11 with q11 | ⟨q, hq, hn⟩
    · exact .inl q11
    · rw [a3] at hq
      obtain ⟨q', hq', hc'⟩ := forall2_left s2 q hq
      refine .inr ⟨q', hq', fun i => ?_⟩
      have g1 := mul_le_mul_of_nonneg_right (hc' i) (hs i).le
      rw [← abs_of_pos (hs i), ← abs_mul, abs_of_pos (hs i)] at g1
      have g2 := hδ i
      have g3 := hn i
      have g4 := hρ i
      have g5 := L.one
      rw [abs_le] at g1 g3 ⊢
      constructor <;> nlinarith

/-- Back to the origin. -/
theorem home {aMax vMax : Axis → ℤ} (hM : Machine aMax vMax) {c1 : Ctx} (h : Sync aMax vMax c1)
    (hv : ∀ i, |(c1.channels i).v| ≤ vMax i) (hp : ∀ i, |(c1.channels i).pos| ≤ vMax i * 65535) :
    ∃ c2 c' T, c1.stepGoto 0 0 = some c2 ∧ c2.readEvents = some c' ∧ c2.ticks = some T ∧ c'.ticks = some T ∧
      (c1.channels .x).ticks < T ∧
      (∀ i, ∀ τ < (c1.channels .x).ticks, accAt i c'.events τ = accAt i c1.events τ) ∧
      (∀ w, ∀ τ < (c1.channels .x).ticks, weightAt w c'.events τ = weightAt w c1.events τ) ∧
      (∀ w0 τ, (c1.channels .x).ticks ≤ τ → weightAt w0 c'.events τ = 0) ∧
      (∀ i τ, (c1.channels .x).ticks ≤ τ → |accAt i c'.events τ| ≤ aMax i ∧ |velAt i c'.events (τ + 1)| ≤ vMax i) ∧
      ∀ i τ, T ≤ τ → velAt i c'.events τ = 0 ∧ posAt i c'.events τ = 0 := by
  have far : ∀ i, |0 - (c1.channels i).pos| ≤ vMax i * 65535 := fun i => by rw [zero_sub, abs_neg]; exact hp i
  have L : ∀ i, InLimits (0 - (c1.channels i).pos) (c1.channels i).v 0 (aMax i) (vMax i) := by
    intro i
    have h0 := hM.v2 i
    refine ⟨hM.a1 i, hM.v1 i, by norm_num at *; omega, hv i, by
      simpa using (zero_le_one.trans (hM.v1 i)), (far i).trans ?_⟩
    norm_num at *
    omega
  obtain ⟨c2, e3⟩ := C25_returns_in_time aMax vMax c1 h 0 0 0 0 (L .x) (L .y) hM.a2 hM.v2 hM.r
    (far .x) (far .y)
  obtain ⟨s2, p2⟩ := Raster.goto_past h e3
  obtain ⟨c', e4⟩ := readEvents_ok s2.inv.2.1 s2.inv.2.2
  obtain ⟨A1, -, -, A2, A3⟩ := C25_arrives _ _ _ _ h.reach _ _ _ _ (L .x) (L .y) e3
  replace A2 := A2.2 (by norm_num)
  replace A3 := A3.2 (by norm_num)
  have W := C28_goto_weight _ _ _ _ h.reach _ _ _ _ e3 _ (ticks_of_sync h)
  have Bd := C26_limits_during_goto _ _ _ _ h.reach _ _ _ _ (L .x) (L .y) e3 _ _ (ticks_of_sync h)
    (ticks_of_sync s2)
  have En := fun w0 τ => C28_end_of_events _ _ _ _ s2.reach e4 _ (ticks_of_sync s2) w0 τ
  unfold Ctx.velocity at A1
  unfold Ctx.position at A2 A3
  simp only [Prod.mk.injEq] at A1 A2 A3
  have hmove := (Bd .x).1
  obtain ⟨-, T2, -⟩ := s2.reach.inv
  have acc1 : ∀ i, ∀ τ < (c2.channels .x).ticks, accAt i c'.events τ = accAt i c2.events τ :=
    fun i τ hτ => ((En 0 τ).2.1 hτ).2 i
  have rest0 : ∀ i τ, (c2.channels .x).ticks ≤ τ → accAt i c'.events τ = 0 := by
    intro i τ hτ
    cases i
    · exact ((En 0 τ).1 hτ).2.1
    · exact ((En 0 τ).1 hτ).2.2
  have stop : ∀ i τ, (c2.channels .x).ticks ≤ τ → velAt i c'.events τ = 0 ∧ posAt i c'.events τ = 0 := by
    intro i τ hτ
    obtain ⟨n, rfl⟩ := Nat.exists_eq_add_of_le hτ
    obtain ⟨q1, q2⟩ := Raster.coast (i := i) (es := c'.events) (a := (c2.channels .x).ticks) (n := n)
      (fun τ k1 _ => rest0 i τ k1)
    have e1 := T2.vel i
    have e2 := T2.pos i
    rw [Raster.same_ticks s2] at e1 e2
    rw [q1, q2, Raster.velAt_congr (acc1 i) le_rfl, Raster.posAt_congr (acc1 i) le_rfl, ← e1, ← e2]
    cases i
    · rw [A1.1]; simpa using A2
    · rw [A1.2]; simpa using A3
  refine ⟨c2, c', (c2.channels .x).ticks, e3, e4, ticks_of_sync s2, (En 0 0).2.2.1, hmove, fun i τ hτ => ?_,
    fun w0 τ hτ => ?_, ?_, ?_, stop⟩
  · rw [acc1 i τ (by omega)]
    exact p2.acc i τ (by rw [Raster.same_ticks h]; exact hτ)
  · rw [((En w0 τ).2.1 (by omega)).1]
    exact p2.weight w0 τ hτ
  · intro w0 τ hτ
    by_cases h : τ < (c2.channels .x).ticks
    · rw [((En w0 τ).2.1 h).1]
      exact (W w0 τ).2 hτ
    · exact ((En w0 τ).1 (by omega)).1
  · intro i τ hτ
    by_cases h : τ < (c2.channels .x).ticks
    · rw [acc1 i τ h, Raster.velAt_congr (acc1 i) (by omega)]
      exact (Bd i).2 τ hτ h
    · rw [rest0 i τ (by omega), (stop i (τ + 1) (by omega)).1]
      have := hM.a1 i
      have := hM.v1 i
      simp
      omega

/-- The passes one after the other. -/
theorem passes_burnt {aMax vMax : Axis → ℤ} (hM : Machine aMax vMax) {e : Draw.Env} (hf : Searches (exactEnv e)) (hT : Tables e)
    {v S M D ε κ : ℝ} {N m : ℕ} (L : CurveLimits (exactEnv e) aMax vMax v S M D ε κ N m)
    (hr : ∀ i, M * e.stepScale i ≤ 2 ^ 26)
    {ρ : Axis → ℝ} (hρ : ∀ i, 387 / 100 * S + 1 / 2 + 3 * (N * (1 / 1000000 + 1 / 10 ^ 12) * e.stepScale i) ≤ ρ i)
    {p0 : Vec} {rest : List Seg} (hN : rest.length < N) (n : ℕ) :
    ∀ {c : Ctx}, Sync aMax vMax c → (∀ i, |(c.channels i).v| ≤ vMax i) →
    (∀ i, |((c.channels i).pos : ℝ)| ≤ 2 * M * e.stepScale i + 4 * S + 2) → c.curveWeight ≠ 0 →
    (1 ≤ n → Fits e.stepScale M (m * v) D ε κ (v / 100) ρ p0 rest (fun i => (c.channels i).pos)) →
    (2 ≤ n → ∀ P, AtEnd e.stepScale ρ p0 rest P → Fits e.stepScale M (m * v) D ε κ (v / 100) ρ p0 rest P) →
    ∃ (c' : Ctx) (t : ℕ → ℕ), drawTimes e (.goTo p0 :: rest) v n c = some c' ∧ Sync aMax vMax c' ∧ Past c c' ∧
      (∀ i, |(c'.channels i).v| ≤ vMax i) ∧ (∀ i, |((c'.channels i).pos : ℝ)| ≤ 2 * M * e.stepScale i + 4 * S + 2) ∧
      t 0 = (c.channels .x).ticks ∧ t n = (c'.channels .x).ticks ∧ (∀ k < n, t (k + 1) ≤ t n) ∧
      ∀ k < n, Burnt e.stepScale c.curveWeight aMax vMax c'.events (t k) (t (k + 1)) (linesOf p0 rest)
        (fun i => 1 + e.stepScale i / 1000000)
        (fun i => 386 / 100 * S + 1 / 2 + (N * (1 / 1000000 + 1 / 10 ^ 12) + N * D) * e.stepScale i)
        (fun i => 386 / 100 * S + 1 / 2 + (N * (1 / 1000000 + 1 / 10 ^ 12) + N * D + 13 / 10 * v) * e.stepScale i) := by
  induction n with
  | zero =>
    intro c h1 h2 h3 _ _ _
    exact ⟨c, fun _ => (c.channels .x).ticks, rfl, h1, Past.refl _, h2, h3, rfl, rfl, fun _ h => absurd h (by omega),
      fun _ h => absurd h (by omega)⟩
  | succ n ih =>
    intro c h1 h2 h3 h4 h5 h6
    have hp : ∀ i, |(c.channels i).pos| ≤ 2 ^ 28 := by
      intro i
      have g1 := h3 i
      have g2 := hr i
      have g3 := L.big
      have : |((c.channels i).pos : ℝ)| ≤ 2 ^ 28 := by
        norm_num at g2 ⊢
        linarith
      exact_mod_cast this
    obtain ⟨c1, err, q1, q2, q3, q4, -, q5, q6, q7⟩ := pass_burnt hM hf hT h1 h2 hp h4 L hρ hN (h5 (by omega))
    obtain ⟨c2, t, g1, g2, g3, g4, g5, g6, g7, g8, g9⟩ := ih q2 q5 q6 (by rw [q3.cw]; exact h4) (by
      intro hn
      rcases q7 with q7 | q7
      · have : (fun i => (c1.channels i).pos) = fun i => (c.channels i).pos := funext q7
        rw [this]
        exact h5 (by omega)
      · exact h6 (by omega) _ q7) (fun hn => h6 (by omega))
    refine ⟨c2, fun k => if k = 0 then (c.channels .x).ticks else t (k - 1), ?_, g2,
      Past.trans q3 g3 h1.inv.2.1 q2.inv.2.1, g4, g5, by simp, by simpa using g7, fun k hk => ?_, fun k hk => ?_⟩
    · rw [drawTimes]
      simp only [q1, Option.bind_eq_bind, Option.bind_some, g1]
    · cases k with
      | zero =>
        simp only [Nat.zero_add, one_ne_zero, if_false, Nat.sub_self, Nat.succ_ne_zero, Nat.add_sub_cancel, g6, g7]
        exact g3.ticks
      | succ k => simpa using g8 k (by omega)
    · cases k with
      | zero =>
        simp only [if_true, Nat.zero_add, one_ne_zero, if_false, Nat.sub_self, g6]
        have hx := q2.inv.2.1
        exact burnt_later q4 le_rfl (fun i τ hτ => g3.acc i τ (by cases i; exacts [hτ, by omega]))
          (fun w τ hτ => g3.weight w τ hτ)
      | succ k =>
        have := g9 k (by omega)
        rw [q3.cw] at this
        simpa using this

end StepperPaths.Picture
