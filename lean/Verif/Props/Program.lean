import Verif.Proof.Program
import Verif.Spec.Program
import Verif.Props.Control
import Verif.Proof.Raster

/-! # C85: the program `svg_path` -/

namespace StepperPaths.Props
open Coords Curves Context IntegerCurve Spec Draw Program Config Control

theorem pieces_strokes (l : List (Vec × Concat)) : pieces (curvesOf (strokes l)) = pieces (curvesOf l) := by
  induction l with
  | nil => rfl
  | cons s l ih =>
    obtain ⟨p, k⟩ := s
    cases k with
    | nil => simpa [strokes, curvesOf, pieces, chain] using ih
    | cons a k =>
      have : strokes ((p, a :: k) :: l) = (p, a :: k) :: strokes l := by simp [strokes]
      rw [this]
      simp only [curvesOf, pieces, List.map_cons, List.flatMap_cons] at ih ⊢
      rw [ih]

theorem posAt_same {i : Axis} {es es' : List Event} {t : ℕ} (h : ∀ τ < t, accAt i es' τ = accAt i es τ) :
    ∀ T ≤ t, posAt i es' T = posAt i es T := by
  intro T hT
  unfold posAt
  rw [played_congr (fun τ hτ => h τ (by omega))]

theorem Omit.imp {P Q : Vec → Prop} {l l' : List Seg} (h : Omit P l l') (hPQ : ∀ p, P p → Q p) : Omit Q l l' := by
  induction h with
  | nil => exact .nil
  | keep s _ ih => exact .keep s ih
  | skip h _ ih => exact .skip (hPQ _ h) ih

theorem timeline_later {e : Env} {v : ℝ} {w : ℤ} {aMax vMax : Axis → ℤ} {es es' : List Event} {err : Axis → ℤ}
    {a b : ℕ} {ss : List (Vec × Concat)} (h : Timeline e v w aMax vMax es err a ss b) :
    a ≤ b ∧ ∀ t, b ≤ t → (∀ i, ∀ τ < t, accAt i es' τ = accAt i es τ) →
      (∀ w, ∀ τ < t, weightAt w es' τ = weightAt w es τ) → Timeline e v w aMax vMax es' err a ss b := by
  induction h with
  | nil t => exact ⟨le_rfl, fun _ _ _ _ => .nil t⟩
  | cons S _ ih =>
    refine ⟨by have := S.move; have := S.len; have := ih.1; omega, fun t hle h1 h2 => ?_⟩
    have := ih.1
    exact .cons (Stroke.mono S (fun i τ _ => h1 i τ (by omega)) (fun w τ hτ => h2 w τ (by omega))
      (fun _ => le_rfl)) (ih.2 t hle h1 h2)

theorem pass_later {e : Env} {v : ℝ} {w : ℤ} {aMax vMax : Axis → ℤ} {es es' : List Event}
    {t t' T : ℕ} {path : List Seg} (h : Pass e v w aMax vMax es path t t') (hT : t' ≤ T)
    (h1 : ∀ i, ∀ τ < T, accAt i es' τ = accAt i es τ)
    (h2 : ∀ w, ∀ τ < T, weightAt w es' τ = weightAt w es τ) : Pass e v w aMax vMax es' path t t' := by
  obtain ⟨start, path', drawn, err, q1, q2, q3, q4⟩ := h
  have hle := (timeline_later (es' := es) q4).1
  refine ⟨start, path', drawn, err, ?_, ?_, q3, (timeline_later q4).2 T hT h1 h2⟩
  · intro i
    rw [q1, posAt_same (h1 i) t (by omega)]
  · refine Omit.imp q2 ?_
    rintro p ⟨T1, a, b, c⟩
    exact ⟨T1, a, b, fun i => by rw [← c, posAt_same (h1 i) T1 (by omega)]⟩

/-- One pass: it returns, and the events of its ticks draw the picture. -/
theorem pass_ok {aMax vMax : Axis → ℤ} {e : Env} {v : ℝ} {S : Vec → Prop} {B : Axis → ℝ} {N : ℕ}
    {ℓ : ℝ} {p0 : Vec} {rest : List Seg} {c : Ctx} (hM : Machine aMax vMax) (hR : Reachable vMax e v B N)
    (hb : LengthOK e)
    (hsc : ∀ i, e.stepScale i ≠ 0) (hS : InRegion e S B ℓ (.goTo p0 :: rest)) (hℓ : 0 ≤ ℓ)
    (hl : (Seg.goTo p0 :: rest).length * ℓ ≤ v * N)
    (snap : ∀ q, (∀ i, coord q i * e.stepScale i = Draw.round (coord p0 i * e.stepScale i)) → S q)
    (h : Between aMax vMax B N c) :
    ∃ c' err, drawCurves e c (.goTo p0 :: rest) v = some (c', err) ∧ Between aMax vMax B N c' ∧ Past c c' ∧
      Pass e v c.curveWeight aMax vMax c'.events (.goTo p0 :: rest) (c.channels .x).ticks (c'.channels .x).ticks ∧
      ∀ w τ, (c'.channels .x).ticks ≤ τ → weightAt w c'.events τ = 0 := by
  obtain ⟨s0, segs, h1, h2, h3, h4, h5⟩ := start_ok hM hR hsc hS hℓ hl snap h
  obtain ⟨s, hs, ho⟩ := finish_ok hM hR h2 hℓ h3
  obtain ⟨l, e1, ht, -⟩ := finish_played hM hR h2 hℓ h3 hs
  have hpen : drawPen e c (.goTo p0 :: rest) v = some s := by rw [drawPen_eq, h1, hs]
  have hlater := finish_later (s := Pen.init e c) (segs := .goTo p0 :: rest) h.sync (h1.trans hs)
  obtain ⟨hsy, hl⟩ := hlater
  obtain ⟨c1, hw⟩ : ∃ c1, s.ctx.addWeightChange s.ctx.moveWeight (s.ctx.channels .x).ticks = some c1 := by
    rw [← Option.ne_none_iff_exists', Ne, C29_panics_iff aMax vMax s.ctx hsy _
      (ticks_some.2 ⟨rfl, hsy.inv.2.1.symm⟩)]
    omega
  obtain ⟨q1, q2, q3, q4, q5, q6, q7⟩ := weight_now hsy hw
  have em : s.ctx.moveWeight = 0 := hsy.reach.inv.2.2.2.2
  have hpast : Past c c1 := Past.trans hl.past q3 h.sync.inv.2.1 hsy.inv.2.1
  refine ⟨c1, s.maxErr, ?_, ⟨q1, by rw [q2]; exact ho.vel, by rw [q2]; exact ho.pos⟩, hpast, ?_, ?_⟩
  · unfold drawCurves
    rw [if_neg (by simp)]
    simp only [hpen, Option.bind_eq_bind, Option.bind_some, hw]
    rfl
  · rw [q2]
    refine pass_later (es := s.ctx.events) (T := (s.ctx.channels .x).ticks) ?_ le_rfl (fun i τ _ => q6 i τ)
      (fun w τ hτ => by rw [q7, if_pos hτ])
    obtain ⟨path', m1, m2⟩ := C64_draws aMax vMax e c h.sync hb (.goTo p0 :: rest) v s hpen
    refine ⟨startOf e c, path', strokes s.drawn, s.maxErr, ?_, m1, by rw [pieces_strokes]; exact m2, ?_⟩
    · intro i
      have tr := h.sync.reach.inv.2.1.1 i
      have hx := h.sync.inv.2.1
      have hi : (c.channels i).ticks = (c.channels .x).ticks := by cases i <;> simp [hx]
      rw [posAt_same (t := (c.channels .x).ticks) (fun τ hτ => hl.past.acc i τ (by
        simp only [Pen.init]; rw [hi]; exact hτ)) _ le_rfl]
      simp only [Pen.init]
      rw [← hi, ← tr]
      cases i <;> simp only [startOf, coord, Env.coordFromSteps] <;> exact div_mul_cancel₀ _ (hsc _)
    · rw [e1, strokes_append, h5, List.nil_append]
      rw [h4] at ht
      exact ht
  · intro w τ hτ
    rw [q2] at hτ
    rw [q7, if_neg (by omega), em]

/-- The passes one after the other. -/
theorem drawTimes_ok {aMax vMax : Axis → ℤ} {e : Env} {v : ℝ} {S : Vec → Prop} {B : Axis → ℝ} {N : ℕ}
    {ℓ : ℝ} {p0 : Vec} {rest : List Seg} (hM : Machine aMax vMax) (hR : Reachable vMax e v B N)
    (hb : LengthOK e)
    (hsc : ∀ i, e.stepScale i ≠ 0) (hS : InRegion e S B ℓ (.goTo p0 :: rest)) (hℓ : 0 ≤ ℓ)
    (hl : (Seg.goTo p0 :: rest).length * ℓ ≤ v * N)
    (snap : ∀ q, (∀ i, coord q i * e.stepScale i = Draw.round (coord p0 i * e.stepScale i)) → S q)
    (n : ℕ) {c : Ctx} (h : Between aMax vMax B N c) :
    ∃ (c' : Ctx) (t : ℕ → ℕ), drawTimes e (.goTo p0 :: rest) v n c = some c' ∧ Between aMax vMax B N c' ∧
      Past c c' ∧ t 0 = (c.channels .x).ticks ∧ t n = (c'.channels .x).ticks ∧ (∀ k < n, t k ≤ t (k + 1)) ∧
      (∀ k < n, Pass e v c.curveWeight aMax vMax c'.events (.goTo p0 :: rest) (t k) (t (k + 1))) := by
  induction n generalizing c with
  | zero =>
    exact ⟨c, fun _ => (c.channels .x).ticks, rfl, h, Past.refl _, rfl, rfl, fun _ _ => le_rfl,
      fun k hk => absurd hk (by omega)⟩
  | succ n ih =>
    obtain ⟨c1, err, h1, h2, h3, h4, -⟩ := pass_ok hM hR hb hsc hS hℓ hl snap h
    obtain ⟨c2, t, g1, g2, g3, g4, g5, g6, g7⟩ := ih h2
    refine ⟨c2, fun k => if k = 0 then (c.channels .x).ticks else t (k - 1), ?_, g2,
      Past.trans h3 g3 h.sync.inv.2.1 h2.sync.inv.2.1, by simp, by simpa using g5, fun k hk => ?_, fun k hk => ?_⟩
    · rw [drawTimes]
      simp only [h1, Option.bind_eq_bind, Option.bind_some, g1]
    · cases k with
      | zero => simp only [if_true, Nat.zero_add, one_ne_zero, if_false, Nat.sub_self, g4]; exact h3.ticks
      | succ k => simpa using g6 k (by omega)
    · cases k with
      | zero =>
        simp only [if_true, Nat.zero_add, one_ne_zero, if_false, Nat.sub_self, g4]
        have hx := h2.sync.inv.2.1
        exact pass_later h4 le_rfl (fun i τ hτ => g3.acc i τ (by cases i; exacts [hτ, by omega]))
          (fun w τ hτ => g3.weight w τ hτ)
      | succ k =>
        have := g7 k (by omega)
        rw [h3.cw] at this
        simpa using this

open Raster in
/-- C85: for a picture in reach the program computes its events, and played by the controller they
draw the picture `n` times and then bring the machine home: the laser is off and the limits are
kept on the way back, and from tick `T` on the machine rests exactly at the origin with the laser
off. -/
theorem C85_run (aMax vMax : Axis → ℤ) (hM : Machine aMax vMax) (e : Env) (hb : LengthOK e)
    (hsc : ∀ i, e.stepScale i ≠ 0) (v : ℝ) (S : Vec → Prop) (B : Axis → ℝ) (N : ℕ) (ℓ : ℝ) (p0 : Vec)
    (rest : List Seg) (hR : Reachable vMax e v B N) (hS : InRegion e S B ℓ (.goTo p0 :: rest)) (hℓ : 0 ≤ ℓ)
    (hl : (Seg.goTo p0 :: rest).length * ℓ ≤ v * N)
    (snap : ∀ q, (∀ i, coord q i * e.stepScale i = Draw.round (coord p0 i * e.stepScale i)) → S q)
    (w : ℤ) (n : ℕ) :
    ∃ (c' : Ctx) (t : ℕ → ℕ) (T : ℕ), svgEvents e aMax vMax w (.goTo p0 :: rest) v n = some c' ∧
      c'.ticks = some T ∧ t 0 = 0 ∧ t n < T ∧
      (∀ k < n, Pass e v w aMax vMax c'.events (.goTo p0 :: rest) (t k) (t (k + 1))) ∧
      (∀ w0 τ, t n ≤ τ → weightAt w0 c'.events τ = 0) ∧
      (∀ i τ, t n ≤ τ → |accAt i c'.events τ| ≤ aMax i ∧ |velAt i c'.events (τ + 1)| ≤ vMax i) ∧
      ∀ i τ, T ≤ τ → velAt i c'.events τ = 0 ∧ posAt i c'.events τ = 0 := by
  have hp := hS.move p0 List.mem_cons_self
  have H0 : Between aMax vMax B N ((Ctx.new aMax vMax).setWeight w) := by
    refine ⟨.step (op := .setWeight w) .new trivial rfl, fun i => ?_, fun i => ?_⟩
    · simpa [Ctx.setWeight, Ctx.new] using (zero_le_one.trans (hM.v1 i))
    · have h1 := (near_big hM hR hS.box hp i).1
      have : (1 : ℝ) ≤ vMax i := by exact_mod_cast hM.v1 i
      have : (0 : ℝ) ≤ 2 * vMax i * N := by positivity
      simp only [Ctx.setWeight, Ctx.new, Int.cast_zero, abs_zero]
      linarith
  obtain ⟨c1, t, e1, H1, past1, t0, tn, mono, passes⟩ := drawTimes_ok hM hR hb hsc hS hℓ hl snap n H0
  have cw : ((Ctx.new aMax vMax).setWeight w).curveWeight = w := rfl
  rw [cw] at passes
  have far : ∀ i, |0 - (c1.channels i).pos| ≤ vMax i * 65535 := by
    intro i
    have h1 := H1.pos i
    have h2 := hR.near i
    have h3 := (near_big hM hR hS.box hp i).1
    have : |((0 - (c1.channels i).pos : ℤ) : ℝ)| ≤ ((vMax i * 65535 : ℤ) : ℝ) := by
      push_cast
      rw [zero_sub, abs_neg]
      linarith
    exact_mod_cast this
  have L : ∀ i, InLimits (0 - (c1.channels i).pos) (c1.channels i).v 0 (aMax i) (vMax i) := by
    intro i
    have h0 := hM.v2 i
    refine ⟨hM.a1 i, hM.v1 i, by norm_num at *; omega, H1.vel i, by
      simpa using (zero_le_one.trans (hM.v1 i)), (far i).trans ?_⟩
    norm_num at *
    omega
  obtain ⟨c2, e3⟩ := C25_returns_in_time aMax vMax c1 H1.sync 0 0 0 0 (L .x) (L .y) hM.a2 hM.v2 hM.r
    (far .x) (far .y)
  obtain ⟨s2, p2⟩ := goto_past H1.sync e3
  obtain ⟨c', e4⟩ := readEvents_ok s2.inv.2.1 s2.inv.2.2
  obtain ⟨A1, -, -, A2, A3⟩ := C25_arrives _ _ _ _ H1.sync.reach _ _ _ _ (L .x) (L .y) e3
  replace A2 := A2.2 (by norm_num)
  replace A3 := A3.2 (by norm_num)
  have W := C28_goto_weight _ _ _ _ H1.sync.reach _ _ _ _ e3 _ (ticks_of_sync H1.sync)
  have Bd := C26_limits_during_goto _ _ _ _ H1.sync.reach _ _ _ _ (L .x) (L .y) e3 _ _ (ticks_of_sync H1.sync)
    (ticks_of_sync s2)
  have En := fun w0 τ => C28_end_of_events _ _ _ _ s2.reach e4 _ (ticks_of_sync s2) w0 τ
  unfold Ctx.velocity at A1
  unfold Ctx.position at A2 A3
  simp only [Prod.mk.injEq] at A1 A2 A3
  have hmove := (Bd .x).1
  obtain ⟨-, T2, -⟩ := s2.reach.inv
  have acc1 : ∀ i, ∀ τ < (c2.channels .x).ticks, accAt i c'.events τ = accAt i c2.events τ :=
    fun i τ hτ => ((En 0 τ).2.1 hτ).2 i
  have rest0 : ∀ i τ, (c2.channels .x).ticks ≤ τ → accAt i c'.events τ = 0 := by
    intro i τ hτ
    cases i
    · exact ((En 0 τ).1 hτ).2.1
    · exact ((En 0 τ).1 hτ).2.2
  have stop : ∀ i τ, (c2.channels .x).ticks ≤ τ → velAt i c'.events τ = 0 ∧ posAt i c'.events τ = 0 := by
    intro i τ hτ
    obtain ⟨n, rfl⟩ := Nat.exists_eq_add_of_le hτ
    obtain ⟨q1, q2⟩ := coast (i := i) (es := c'.events) (a := (c2.channels .x).ticks) (n := n)
      (fun τ k1 _ => rest0 i τ k1)
    have e1 := T2.vel i
    have e2 := T2.pos i
    rw [same_ticks s2] at e1 e2
    rw [q1, q2, velAt_congr (acc1 i) le_rfl, posAt_congr (acc1 i) le_rfl, ← e1, ← e2]
    cases i
    · rw [A1.1]; simpa using A2
    · rw [A1.2]; simpa using A3
  refine ⟨c', t, (c2.channels .x).ticks, ?_, (En 0 0).2.2.1, by rw [t0]; rfl, by omega, fun k hk => ?_, ?_, ?_, stop⟩
  · unfold svgEvents Ctx.stepGoto
    simp only [e1, e3, Option.bind_eq_bind, Option.bind_some, ticks_of_sync s2, e4]
  · have hle : t (k + 1) ≤ t n := by
      have : ∀ m, k + 1 + m ≤ n → t (k + 1) ≤ t (k + 1 + m) := by
        intro m
        induction m with
        | zero => intro _; exact le_rfl
        | succ m ih => intro hm; exact (ih (by omega)).trans (mono (k + 1 + m) (by omega))
      have := this (n - (k + 1)) (by omega)
      rwa [show k + 1 + (n - (k + 1)) = n by omega] at this
    refine pass_later (passes k hk) (T := (c1.channels .x).ticks) (by omega) (fun i τ hτ => ?_) (fun w0 τ hτ => ?_)
    · rw [acc1 i τ (by omega)]
      exact p2.acc i τ (by rw [same_ticks H1.sync]; exact hτ)
    · rw [((En w0 τ).2.1 (by omega)).1]
      exact p2.weight w0 τ hτ
  · intro w0 τ hτ
    rw [tn] at hτ
    by_cases h : τ < (c2.channels .x).ticks
    · rw [((En w0 τ).2.1 h).1]
      exact (W w0 τ).2 hτ
    · exact ((En w0 τ).1 (by omega)).1
  · intro i τ hτ
    rw [tn] at hτ
    by_cases h : τ < (c2.channels .x).ticks
    · rw [acc1 i τ h, velAt_congr (acc1 i) (by omega)]
      exact (Bd i).2 τ hτ h
    · rw [rest0 i τ (by omega), (stop i (τ + 1) (by omega)).1]
      have := hM.a1 i
      have := hM.v1 i
      simp
      omega

/-- C85: the weight is between 0 and 254, grows with the number of percent, and is off by less
than one from the exact share of 254. -/
theorem C85_weight (percent : ℤ) (h0 : 0 ≤ percent) (h1 : percent ≤ 100) :
    0 ≤ weightOf percent ∧ weightOf percent ≤ 254 ∧
    100 * weightOf percent ≤ 254 * percent ∧ 254 * percent < 100 * (weightOf percent + 1) ∧
    ∀ more, percent ≤ more → weightOf percent ≤ weightOf more := by
  unfold weightOf
  rw [Int.tdiv_eq_ediv_of_nonneg (by omega)]
  refine ⟨by omega, by omega, by omega, by omega, fun more h => ?_⟩
  rw [Int.tdiv_eq_ediv_of_nonneg (by omega)]
  omega

example : weightOf 0 = 0 ∧ weightOf 5 = 12 ∧ weightOf 100 = 254 := by decide

/-- The square of `Props/Draw.lean`, drawn three times. -/
theorem square_thrice : ∃ (c' : Ctx) (t : ℕ → ℕ) (T : ℕ),
    svgEvents unitEnv (fun _ => 10) (fun _ => 100) (weightOf 100) square 4 3 = some c' ∧
      c'.ticks = some T ∧ t 0 = 0 ∧ t 3 < T ∧
      (∀ k < 3, Pass unitEnv 4 254 (fun _ => 10) (fun _ => 100) c'.events square (t k) (t (k + 1))) ∧
      ∀ i τ, T ≤ τ → velAt i c'.events τ = 0 ∧ posAt i c'.events τ = 0 := by
  obtain ⟨c', t, T, h1, h2, h3, h4, h5, -, -, h6⟩ := C85_run (fun _ => 10) (fun _ => 100)
    ⟨by norm_num, by norm_num, by norm_num, by norm_num, by norm_num⟩ unitEnv (by intro b _; norm_num [unitEnv])
    (by simp [unitEnv]) 4 _ _ 10000 4000 ⟨100, 0⟩
    [.lineTo ⟨900, 0⟩, .lineTo ⟨900, 800⟩, .lineTo ⟨100, 800⟩, .closeTo ⟨100, 0⟩, .lineTo ⟨900, 800⟩]
    ⟨by norm_num, by norm_num [unitEnv, Env.vScale], by norm_num⟩ (lines_region unitEnv (fun _ => rfl) square square_mem) (by norm_num)
    (by norm_num) (by
      intro q hq
      have hx := hq .x
      have hy := hq .y
      have r1 : Draw.round 100 = 100 := by
        unfold Draw.round
        rw [if_pos (by norm_num), Int.floor_eq_iff]
        norm_num
      have r2 : Draw.round 0 = 0 := by
        unfold Draw.round
        rw [if_pos (by norm_num), Int.floor_eq_iff]
        norm_num
      simp only [coord, unitEnv, mul_one, r1, r2] at hx hy
      norm_num [hx, hy]) 254 3
  exact ⟨c', t, T, h1, h2, h3, h4, h5, h6⟩

/-- C85: the program with a device.  It ends with a message, and without a word to the controller,
exactly when the number of repeats or the intensity is out of range; otherwise, when it ends
normally, the controller has accepted exactly the events of `svgEvents`, in order, and with their
times relative to 128 ticks after the time it reported. -/
theorem C85_main (cfg : Xy) (o : Options) (e : Env) (path : List Seg) (port : Port) :
    (svgMain cfg o e path port = some none ↔
      o.repeats.getD 1 < 1 ∨ o.intensity.getD 5 < 0 ∨ o.intensity.getD 5 > 100) ∧
    ∀ port', svgMain cfg o e path port = some (some port') →
      ∃ (c' : Ctx) (r0 : List Char) (t0 : ℤ) (rs : List Round),
        svgEvents { e with stepScale := fun i => (cfg.stepper i).stepsPerMillimeter }
          (svgALimit cfg o.aMax) (vLimit cfg o.vMax) (weightOf (o.intensity.getD 5)) path
          (o.drawSpeed.getD 20 / cfg.ticksPerSecond) (o.repeats.getD 1).toNat = some c' ∧
        readInt r0 = some t0 ∧
        (accepted rs).map decodeLine = (absolute (t0 + 128) c'.events).map some ∧
        port'.log = port.log ++ ((['T'], r0) :: rs).flatMap Round.acts := by
  unfold svgMain
  simp only
  by_cases hn : o.repeats.getD 1 < 1 ∨ o.intensity.getD 5 < 0 ∨ o.intensity.getD 5 > 100
  · rw [if_pos hn]
    exact ⟨by simp [hn], by simp⟩
  · rw [if_neg hn]
    refine ⟨⟨fun h => ?_, fun h => absurd h hn⟩, fun port' h => ?_⟩
    · obtain ⟨c, -, h⟩ := Option.bind_eq_some_iff.1 h
      obtain ⟨-, -, h⟩ := Option.bind_eq_some_iff.1 h
      obtain ⟨⟨r, q⟩, -, h⟩ := Option.bind_eq_some_iff.1 h
      cases r <;> simp at h
    · obtain ⟨c, h1, h⟩ := Option.bind_eq_some_iff.1 h
      obtain ⟨-, -, h⟩ := Option.bind_eq_some_iff.1 h
      obtain ⟨⟨r, q⟩, h2, h⟩ := Option.bind_eq_some_iff.1 h
      cases r with
      | error _ => simp at h
      | ok _ =>
        simp at h
        cases h
        obtain ⟨r0, t0, rs, k1, k2, k3⟩ := C35_accepted _ _ _ h2
        exact ⟨c, r0, t0, rs, h1, k1, k2, k3⟩

/-- C85: when the events can be computed and the controller reports its time and accepts every
event, after any number of queue-full replies, the program ends normally. -/
theorem C85_returns (cfg : Xy) (o : Options) (e : Env) (path : List Seg) (port : Port) (c' : Ctx)
    (htps : cfg.ticksPerSecond ≠ 0) (hn : 1 ≤ o.repeats.getD 1)
    (hi : 0 ≤ o.intensity.getD 5 ∧ o.intensity.getD 5 ≤ 100)
    (hc : svgEvents { e with stepScale := fun i => (cfg.stepper i).stepsPerMillimeter }
      (svgALimit cfg o.aMax) (vLimit cfg o.vMax) (weightOf (o.intensity.getD 5)) path
      (o.drawSpeed.getD 20 / cfg.ticksPerSecond) (o.repeats.getD 1).toNat = some c')
    (r0 : List Char) (t0 : ℤ) (full : List ℕ) (hf : full.length = c'.events.length) (m : ℕ)
    (h0 : '\n' ∉ r0) (ht : readInt r0 = some t0) (hr : i64Min ≤ t0 ∧ t0 ≤ i64Max)
    (h : Delivers port.input port.reads (r0 ++ '\n' :: full.flatMap answers) m)
    (hw : ∀ n, port.writeOk n = true) :
    ∃ port', svgMain cfg o e path port = some (some port') := by
  obtain ⟨p', h1, -⟩ := C35_returns port r0 t0 (c'.events.zip full) m h0 ht hr (by
    rw [← List.flatMap_map Prod.snd, List.map_snd_zip (by omega)]
    exact h) hw
  rw [List.map_fst_zip (by omega)] at h1
  refine ⟨p', ?_⟩
  unfold svgMain
  simp only
  rw [if_neg (by omega)]
  simp only [hc, h1, cassert, htps, ne_eq, not_false_eq_true, if_true, Option.bind_eq_bind, Option.bind_some]

/-- One step per millimeter, one tick per second, 200 mm/s, 20 mm/s². -/
noncomputable def slowXy : Xy := ⟨1, fun _ => ⟨1, 200, 20⟩⟩

/-- The whole program, for the square, three times at full intensity and 4 mm/s, with a controller
that accepts everything. -/
example : ∃ port port', svgMain slowXy ⟨none, none, some 4, some 3, some 100⟩ unitEnv square port =
    some (some port') := by
  obtain ⟨c', -, -, h, -⟩ := square_thrice
  have ra : svgALimit slowXy none = fun _ => 10 := by
    funext i
    have : Draw.round |svgAScale slowXy i * (slowXy.stepper i).maxAcceleration| = 10 := by
      unfold Draw.round svgAScale vScale slowXy
      norm_num
    simp only [svgALimit, this]
    rfl
  have rv : vLimit slowXy none = fun _ => 100 := by
    funext i
    have : Draw.round (|vScale slowXy i| * (slowXy.stepper i).maxVelocity) = 100 := by
      unfold Draw.round vScale slowXy
      norm_num
    simp only [vLimit, this]
    rfl
  refine ⟨quickPort (String.ofList ("17\n".toList ++ (List.replicate c'.events.length 0).flatMap answers)), ?_⟩
  refine C85_returns slowXy ⟨none, none, some 4, some 3, some 100⟩ unitEnv square _ c' (by simp [slowXy])
    (by simp) (by simp) ?_ ['1', '7'] 17 (List.replicate c'.events.length 0) (by simp) _ (by decide) (by decide)
    (by decide) (delivers_quick _ _ 0 ?_) (fun _ => rfl)
  · simp only [Option.getD_some, ra, rv]
    have : (4 : ℝ) / (slowXy.ticksPerSecond : ℝ) = 4 := by simp [slowXy]
    rw [this]
    exact h
  · intro i hi
    simp only [quickPort, String.toList_ofList, Nat.zero_add]
    have : "17\n".toList ++ (List.replicate c'.events.length 0).flatMap answers =
        ['1', '7'] ++ '\n' :: (List.replicate c'.events.length 0).flatMap answers := rfl
    rw [this, List.getElem?_eq_getElem hi]

end StepperPaths.Props
