import Verif.Proof.CurveSmooth
import Verif.Proof.RoundedLines

/-! Paths of lines and curves with rounding: what `draw_curves` does with them. -/

namespace StepperPaths.Rounded.CurvePath
open Coords Curves Context IntegerCurve Spec Props Draw

theorem _root_.StepperPaths.Spec.CurveRun.mono {e : Env} {v S r r' : ℝ} {w : ℤ} {aMax vMax : Axis → ℤ} {es es' : List Event}
    {t a b : ℕ} {l : List (Vec × Shape)} (h : CurveRun e v S r w aMax vMax es t a b l) (hg : ∀ i, 0 ≤ e.stepScale i)
    (hr : r ≤ r') (hacc : ∀ i, ∀ τ < b, accAt i es' τ = accAt i es τ)
    (hw : ∀ w0, ∀ τ < b, weightAt w0 es' τ = weightAt w0 es τ) : CurveRun e v S r' w aMax vMax es' t a b l := by
  have h1 := h.some
  have pos_same : ∀ i, ∀ T ≤ b, posAt i es' T = posAt i es T := by
    intro i T hT
    unfold posAt
    rw [played_congr (fun τ hτ => hacc i τ (by omega))]
  have vel_same : ∀ i, ∀ T ≤ b, velAt i es' T = velAt i es T := by
    intro i T hT
    unfold velAt
    rw [played_congr (fun τ hτ => hacc i τ (by omega))]
  refine ⟨h.ne, h.long, h.smooth, h.move, h.some, h.len, ?_, ?_, ?_, ?_, ?_⟩
  · intro w0 τ q1 q2
    rw [hw w0 τ (by omega)]
    exact h.off w0 τ q1 q2
  · intro w0 τ q1 q2
    rw [hw w0 τ (by omega)]
    exact h.on w0 τ q1 q2
  · intro i τ q1 q2
    rw [hacc i τ q2]
    exact h.acc i τ q1 q2
  · intro i τ q1 q2
    rw [vel_same i _ (by omega)]
    exact h.vel i τ q1 q2
  · intro i k hk
    rw [pos_same i _ (by omega)]
    have := mul_le_mul_of_nonneg_right hr (hg i)
    linarith [h.follows i k hk]

/-- Where the lines end. -/
theorem Run.end_le {fl : ℝ → ℝ} (R : FloatRounding fl) {e : Env} {aMax vMax : Axis → ℤ} {v S M D ε κ : ℝ} {N m : ℕ}
    (L : CurveLimits e aMax vMax v S M D ε κ N m) (hv2 : ∀ i, vMax i < 2 ^ 30) (hf : Searches e) {l : List Piece}
    (h : Run M v D ε κ N l) {start : Vec} (hs : ∀ a, |coord start a| ≤ M) (a : Axis) :
    |floatPos fl e start (concatInfo fl e (glue fl (computed l))) v a
      (approxSteps fl (concatInfo fl e (glue fl (computed l))) v)| ≤ 2 * M * e.stepScale a + S / 8 + 1 / 32 := by
  obtain ⟨-, -, c3, -⟩ := h.tick_count R e
  obtain ⟨j, hj, q1, q2, q3, -, -⟩ := h.tick' R L hv2 hf hs a rfl le_rfl
  have hT := h.total_near R
  set n := approxSteps fl (concatInfo fl e (glue fl (computed l))) v with hn
  have hn0 : (n : ℝ) ≠ 0 := by
    have : n ≠ 0 := by omega
    exact_mod_cast this
  rw [mul_div_cancel₀ _ hn0] at q1 q2 q3
  set T := lenAt fl (computed l) l.length with hTd
  have hv := h.pos
  have hg0 : 0 < e.stepScale a := lt_of_lt_of_le (by norm_num) (L.scale a)
  have htot := h.total
  obtain ⟨t1, t2⟩ := abs_le.1 hT
  have h1 := h.sum_le j hj.le a
  have h2 := (h.smooth_at hj).le a (T - lenTo l j)
  have h3 : |T - lenTo l j| ≤ M - lenTo l j + v / 64 := by
    rw [abs_le]
    have := h.mono hj.le le_rfl
    constructor <;> linarith
  have h4 : |byCurve l j hj a T| ≤ M + v / 64 := by
    unfold byCurve
    refine (abs_add_le _ _).trans ?_
    linarith
  have h5 : |(coord start a + byCurve l j hj a T) * e.stepScale a| ≤ (2 * M + v / 64) * e.stepScale a := by
    rw [abs_mul, abs_of_pos hg0]
    apply mul_le_mul_of_nonneg_right _ hg0.le
    refine (abs_add_le _ _).trans ?_
    linarith [hs a]
  have h6 : v / 64 * e.stepScale a ≤ S / 8 := by
    have h1 := L.slow a
    have hκ := h.bend
    have h2 : 0 ≤ v * e.stepScale a * (11 / (20 * m) + 5 * (κ * v)) := by positivity
    have h3 : v * e.stepScale a * (89 / 1000 + 11 / (20 * m) + 5 * (κ * v)) =
      v * e.stepScale a * (89 / 1000) + v * e.stepScale a * (11 / (20 * m) + 5 * (κ * v)) := by ring
    have := L.one
    linarith
  obtain ⟨x1, x2⟩ := abs_le.1 q3
  obtain ⟨y1, y2⟩ := abs_le.1 h5
  rw [abs_le]; constructor <;> linarith

/-- The speed at the start of a stroke. -/
theorem Run.first_speed {fl : ℝ → ℝ} (R : FloatRounding fl) {e : Env} {aMax vMax : Axis → ℤ} (hM : Machine aMax vMax)
    {v S M D ε κ : ℝ} {N m : ℕ} (L : CurveLimits e aMax vMax v S M D ε κ N m) (hf : Searches e) {l : List Piece}
    (h : Run M v D ε κ N l) (hb : Bending l) (hm : ∀ x ∈ l, m * v ≤ x.shape.len) {start : Vec} (hsM : ∀ a, |coord start a| ≤ M)
    (i : Axis) : |stepV fl e ((concatInfo fl e (glue fl (computed l))).value 0).2 v i| + 1 / 2 ≤ vMax i := by
  have sm := h.smoothed R L hM.v2 hf hb hm hsM
  obtain ⟨c1, c2, c3, c4⟩ := h.tick_count R e
  have hone := L.one
  have e1 : floatVel fl e (concatInfo fl e (glue fl (computed l))) v i 0 =
      stepV fl e ((concatInfo fl e (glue fl (computed l))).value 0).2 v i := by
    unfold floatVel
    rw [Nat.cast_zero, zero_mul, R.zero]
    rfl
  rw [← e1]
  have h1 := (sm i).speed 0 (by omega)
  have h2 := (sm i).turns 0 (by omega)
  obtain ⟨a1, a2⟩ := abs_le.1 h2
  obtain ⟨b1, b2⟩ := abs_le.1 (le_refl |floatVel fl e (concatInfo fl e (glue fl (computed l))) v i (0 + 1)|)
  have : |floatVel fl e (concatInfo fl e (glue fl (computed l))) v i 0| ≤
    |floatVel fl e (concatInfo fl e (glue fl (computed l))) v i (0 + 1)| + S / 4 := by
    rw [abs_le]; constructor <;> linarith
  linarith

/-- Drawing the lines and curves that were collected. -/
theorem flush_pieces {fl : ℝ → ℝ} (R : FloatRounding fl) {e : Env} {aMax vMax : Axis → ℤ} (hM : Machine aMax vMax)
    {v S M D ε κ : ℝ} {N m : ℕ} (L : CurveLimits e aMax vMax v S M D ε κ N m) (hf : Searches e) {s : Pen} {l : List Piece} {r : ℝ}
    (hs : Sync aMax vMax s.ctx) (hv : ∀ i, |(s.ctx.channels i).v| ≤ vMax i)
    (hp : ∀ i, |((s.ctx.channels i).pos : ℝ)| ≤ 2 * M * e.stepScale i + 4 * S + 2)
    (hcur : s.curves = glue fl (computed l)) (h : Run M v D ε κ N l) (hb : Bending l) (hm : ∀ x ∈ l, m * v ≤ x.shape.len)
    (hst : FloatPoint fl M s.start) (ho : Offsets l s.start r)
    (he : ∀ i, (s.maxErr i : ℝ) ≤ 383 / 100 * S + 1) :
    ∃ s1, flush fl e v s = some s1 ∧ (∀ i, |(s1.ctx.channels i).v| ≤ vMax i) ∧
      (∀ i, |((s1.ctx.channels i).pos : ℝ)| ≤ 2 * M * e.stepScale i + 4 * S + 2) ∧
      (∀ i, (s1.maxErr i : ℝ) ≤ 383 / 100 * S + 1) ∧
      ∃ a, CurveRun e v S r s.ctx.curveWeight aMax vMax s1.ctx.events (s.ctx.channels .x).ticks a
        (s1.ctx.channels .x).ticks (l.map Piece.placed) := by
  have hsM : ∀ a, |coord s.start a| ≤ M := fun a => (hst a).1
  have hM0 : 0 < M := by have := h.M_pos; have := h.pos; linarith
  have hN : 1 ≤ N := (List.length_pos_iff.2 h.ne).trans_le h.count
  have hg0 : ∀ i, 0 < e.stepScale i := fun i => lt_of_lt_of_le (by norm_num) (L.scale i)
  have hMg := L.range
  have hone := L.one
  have hbig := L.big
  have hne : s.curves ≠ [] := by
    rw [hcur, Ne, ← List.length_eq_zero_iff, glue_length, computed_length, List.length_eq_zero_iff]
    exact h.ne
  have hsg : ∀ i, |coord s.start i * e.stepScale i| ≤ M * e.stepScale i := by
    intro i
    rw [abs_mul, abs_of_pos (hg0 i)]
    exact mul_le_mul_of_nonneg_right (hsM i) (hg0 i).le
  have hsf : ∀ i, |fl (coord s.start i * e.stepScale i)| ≤ M * e.stepScale i + 1 := by
    intro i
    have h1 := R.rel (x := coord s.start i * e.stepScale i) (M := 2 ^ 39) ((hsg i).trans (hMg i)) (by norm_num)
    obtain ⟨a1, a2⟩ := abs_le.1 h1
    obtain ⟨b1, b2⟩ := abs_le.1 (hsg i)
    norm_num at *
    rw [abs_le]; constructor <;> linarith
  have sm := h.smoothed R L hM.v2 hf hb hm hsM
  obtain ⟨c1, c2, c3, c4⟩ := h.tick_count R e
  have hT := h.total_near R
  have hal := fun a {k} hk => h.along R L hM.v2 hf hb hsM ho a (k := k) rfl hk
  have hend := h.end_le R L hM.v2 hf hsM
  have hz : ∀ i, floatPos fl e s.start (concatInfo fl e (glue fl (computed l))) v i 0 =
      fl (coord s.start i * e.stepScale i) := by
    intro i
    obtain ⟨j, hj, -, -, -, -, q⟩ := h.tick' R L hM.v2 hf hsM i rfl (Nat.zero_le _)
    rw [q rfl, (hst i).2]
  have hd : ∀ i, |stepV fl e ((concatInfo fl e s.curves).value 0).2 v i| + 1 / 2 ≤ vMax i := by
    rw [hcur]
    exact h.first_speed R hM L hf hb hm hsM
  have hs60 : ∀ i, |fl (coord s.start i * e.stepScale i)| ≤ 2 ^ 60 := by
    intro i
    have := hMg i
    exact (hsf i).trans (by norm_num at *; linarith)
  obtain ⟨c', err, hdr⟩ := drawCurve_ok (e := e) (start := s.start) (curve := s.curves) (v := v) hM hs hne hv hs60 hd (by
    intro i
    have h1 := round_near (fl (coord s.start i * e.stepScale i))
    have h2 := L.reach i
    obtain ⟨a1, a2⟩ := abs_le.1 h1
    obtain ⟨b1, b2⟩ := abs_le.1 (hsf i)
    obtain ⟨d1, d2⟩ := abs_le.1 (hp i)
    have h3 : |(Draw.round (fl (coord s.start i * e.stepScale i)) : ℝ) - (s.ctx.channels i).pos| ≤ vMax i * 65535 := by
      rw [abs_le]
      constructor <;> linarith
    exact_mod_cast h3)
  have hp61 : ∀ i, |(s.ctx.channels i).pos| ≤ 2 ^ 61 := by
    intro i
    have h1 : |((s.ctx.channels i).pos : ℝ)| ≤ 2 ^ 61 := by
      have := hMg i
      refine (hp i).trans ?_
      have : 2 * M * e.stepScale i = 2 * (M * e.stepScale i) := by ring
      norm_num at *
      linarith
    exact_mod_cast h1
  obtain ⟨a, hta, St, hv1, hw⟩ := drawCurve_stroke R hs hne hM.a1 hM.v1
    (fun i => by have := hM.v2 i; norm_num at *; omega) hv hp61 hs60 hd hdr
  have hfl : flush fl e v s = some
      { s with ctx := c', maxErr := fun i => accMax (s.maxErr i) (err i), curves := [],
               drawn := s.drawn ++ [(s.start, s.curves)] } := by
    unfold flush
    rw [hdr]
    rfl
  obtain ⟨sy, -⟩ := drawCurve_past hs hdr
  have hlen := St.len
  have hfo := fun i => St.smooth i S (by simp only [hcur]; exact sm i) (by simp only [hcur]; exact hz i)
  simp only [hcur] at hlen hfo
  simp only [hcur] at hw
  set n := approxSteps fl (concatInfo fl e (glue fl (computed l))) v with hn
  refine ⟨_, hfl, hv1, fun i => ?_, fun i => ?_, a, ?_⟩
  · show |((c'.channels i).pos : ℝ)| ≤ _
    have e1 : (c'.channels i).pos = posAt i c'.events (c'.channels i).ticks := sy.reach.inv.2.1.pos i
    have e2 : (c'.channels i).ticks = a + (n - 1 + 1) := by
      cases i
      · omega
      · have := sy.inv.2.1
        omega
    rw [e1, e2]
    have h1 := (hfo i (n - 1) (by omega)).1
    rw [show n - 1 + 1 = n by omega] at h1 ⊢
    have h2 := hend i
    obtain ⟨x1, x2⟩ := abs_le.1 h1
    obtain ⟨y1, y2⟩ := abs_le.1 h2
    rw [abs_le]; constructor <;> linarith
  · show ((accMax (s.maxErr i) (err i) : ℤ) : ℝ) ≤ _
    rw [accMax_eq, Int.cast_max, max_le_iff]
    refine ⟨he i, ?_⟩
    rcases hw i with h0 | ⟨k, hk, hk'⟩
    · rw [h0]
      push_cast
      linarith
    · have h3 := (hfo i k hk).1
      have h4 := Tracking.trunc_near (floatPos fl e s.start (concatInfo fl e (glue fl (computed l))) v i (k + 1))
      rw [← hk']
      push_cast
      obtain ⟨x1, x2⟩ := abs_le.1 h3
      obtain ⟨y1, y2⟩ := abs_le.1 h4
      rw [abs_le]
      constructor <;> linarith
  · have ecast : ((c'.channels .x).ticks : ℝ) - a = n := by
      rw [hlen]; push_cast; ring
    have hvp := h.pos
    refine ⟨by simpa using h.ne, by simpa [Piece.placed] using h.long,
      by simpa [Piece.placed] using fun x hx => ⟨κ, h.smooth x hx⟩, hta, by show a < (c'.channels .x).ticks; omega, ?_, St.off, St.on, ?_, St.vel, ?_⟩
    · show |((c'.channels .x).ticks : ℝ) - a - pathLen (l.map Piece.placed) / v| ≤ _
      rw [ecast, pathLen_eq]
      have h1 : |lenAt fl (computed l) l.length / v - lenTo l l.length / v| ≤ 1 / 512 := by
        rw [← sub_div, abs_div, abs_of_pos hvp, div_le_iff₀ hvp]
        linarith
      obtain ⟨x1, x2⟩ := abs_le.1 c2
      obtain ⟨y1, y2⟩ := abs_le.1 h1
      norm_num at x1 x2 y1 y2
      rw [abs_le]; constructor <;> norm_num <;> linarith
    · intro i τ h3 h4
      show |accAt i c'.events τ| ≤ _
      by_cases h5 : τ < a
      · exact St.acc i τ h3 h5
      · have h4 : τ < (c'.channels .x).ticks := h4
        have h6 := (hfo i (τ - a) (by omega)).2.2
        rw [show a + (τ - a) = τ by omega] at h6
        have := h6.trans (L.acc i)
        exact_mod_cast this
    · intro i k hk
      show |((posAt i c'.events (a + k) : ℤ) : ℝ) - coord (pathAt (l.map Piece.placed) (pathLen (l.map Piece.placed) * (k / (((c'.channels .x).ticks : ℝ) - a)))) i
        * e.stepScale i| ≤ _
      have hk : k ≤ n := by
        have : k ≤ (c'.channels .x).ticks - a := hk
        omega
      rw [ecast]
      obtain ⟨y1, y2⟩ := abs_le.1 (hal i hk)
      have h3 : |(posAt i c'.events (a + k) : ℝ) -
          floatPos fl e s.start (concatInfo fl e (glue fl (computed l))) v i k| ≤ 383 / 100 * S := by
        cases k with
        | zero =>
          rw [hz i]
          have := St.start i
          refine this.trans ?_
          linarith
        | succ k => exact (hfo i k hk).1
      obtain ⟨x1, x2⟩ := abs_le.1 h3
      rw [abs_le]; constructor <;> linarith

theorem CurveRuns.later {e : Env} {v S r r' : ℝ} {w : ℤ} {aMax vMax : Axis → ℤ} {es : List Event} {t T : ℕ}
    {G : List (List (Vec × Shape))} (hg : ∀ i, 0 ≤ e.stepScale i) (hr : r ≤ r')
    (h : CurveRuns e v S r w aMax vMax es t G T) : CurveRuns e v S r' w aMax vMax es t G T := by
  induction h with
  | nil t => exact .nil t
  | cons h1 _ ih => exact .cons (h1.mono hg hr (fun _ _ _ => rfl) (fun _ _ _ => rfl)) ih

/-- The lines and curves that were collected, and where the pen is. -/
structure Pending (fl : ℝ → ℝ) (M d D ε κ w : ℝ) (s : Pen) (l : List Piece) (k : ℕ) : Prop where
  cur : s.curves = glue fl (computed l)
  nodir : l = [] → s.prevDir = none
  dir : ∀ x ∈ l.getLast?, s.prevDir = some (x.curve.value x.curve.length).2
  start : FloatPoint fl M s.start
  here : FloatPoint fl M s.current
  long : ∀ x ∈ l, d ≤ x.shape.len
  smooth : ∀ x ∈ l, x.shape.Smooth κ
  near : ∀ x ∈ l, Near x.curve x.shape D ε w
  bend : Bending l
  off : Offsets l s.start (k * gap + l.length * D)
  ends : ∀ a, |coord s.start a + sumTo l l.length a - coord s.current a| ≤ k * gap + l.length * D

theorem Pending.run {fl : ℝ → ℝ} {e : Env} {aMax vMax : Axis → ℤ} {v S M D ε κ : ℝ} {N m : ℕ}
    (L : CurveLimits e aMax vMax v S M D ε κ N m) {s : Pen} {l : List Piece} {k : ℕ}
    (h : Pending fl M (m * v) D ε κ (v / 100) s l k)
    (hne : l ≠ []) (hN : l.length ≤ N) (hl : lenTo l l.length ≤ M) : Run M v D ε κ N l := by
  refine ⟨hne, hN, L.tiny, fun x hx => ?_, hl, L.ticks, L.tol, L.fine, L.bend, h.smooth, h.near⟩
  refine le_trans (mul_le_mul_of_nonneg_right ?_ (le_trans (by norm_num) L.tiny)) (h.long x hx)
  exact_mod_cast L.two

/-- The end of the path is the end of the last piece. -/
theorem path_end (l : List Piece) (hne : l ≠ []) (h : ∀ x ∈ l, 0 < x.shape.len) (a : Axis) :
    coord (pathAt (l.map Piece.placed) (pathLen (l.map Piece.placed))) a =
      coord (l.getLast hne).start a + coord ((l.getLast hne).shape.pt (l.getLast hne).shape.len) a := by
  induction l with
  | nil => exact absurd rfl hne
  | cons x l ih =>
    cases l with
    | nil =>
      have e1 : pathLen ([x].map Piece.placed) = x.shape.len := by simp [pathLen, Piece.placed]
      rw [e1]
      exact placed_coord x _ a
    | cons y l =>
      have e1 : pathLen ((x :: y :: l).map Piece.placed) = x.shape.len + pathLen ((y :: l).map Piece.placed) := by
        simp only [pathLen, List.map_cons, List.sum_cons, Piece.placed]
      have h1 : 0 < pathLen ((y :: l).map Piece.placed) := by
        unfold pathLen
        rw [List.map_map]
        refine List.sum_pos _ (fun z hz => ?_) (by simp)
        obtain ⟨u, hu, rfl⟩ := List.mem_map.1 hz
        exact h u (List.mem_cons_of_mem _ hu)
      have e2 : pathAt (List.map Piece.placed (x :: y :: l)) (x.shape.len + pathLen ((y :: l).map Piece.placed)) =
          pathAt (List.map Piece.placed (y :: l)) (pathLen ((y :: l).map Piece.placed)) := by
        simp only [List.map_cons, pathAt]
        rw [if_neg (by show ¬ _ ≤ x.shape.len; simp only [List.map_cons] at h1; linarith)]
        congr 1
        show x.shape.len + _ - x.shape.len = _
        ring
      rw [e1, e2, ih (by simp) (fun z hz => h z (List.mem_cons_of_mem _ hz))]
      rfl

/-- The machine is where it was in the beginning or near one of the stops. -/
def Stopped (e : Env) (S : ℝ) (N : ℕ) (P0 : Axis → ℤ) (stops : List Vec) (c : Ctx) : Prop :=
  (∀ i, (c.channels i).pos = P0 i) ∨ ∃ q ∈ stops, ∀ i, |((c.channels i).pos : ℝ) - coord q i * e.stepScale i| ≤
    386 / 100 * S + 1 / 256 + 3 * (N * gap * e.stepScale i)

theorem Stopped.more {e : Env} {S : ℝ} {N : ℕ} {P0 : Axis → ℤ} {stops : List Vec} {c : Ctx} (h : Stopped e S N P0 stops c) (p : Vec) :
    Stopped e S N P0 (p :: stops) c := by
  rcases h with h | ⟨q, hq, h⟩
  · exact .inl h
  · exact .inr ⟨q, List.mem_cons_of_mem _ hq, h⟩

theorem Stopped.mono {e : Env} {S : ℝ} {N : ℕ} {P0 : Axis → ℤ} {stops stops' : List Vec} {c : Ctx} (h : Stopped e S N P0 stops c)
    (hs : ∀ q ∈ stops, q ∈ stops') : Stopped e S N P0 stops' c := by
  rcases h with h | ⟨q, hq, h⟩
  · exact .inl h
  · exact .inr ⟨q, hs q hq, h⟩

/-- Drawing what was collected, if anything. -/
theorem flush_pending {fl : ℝ → ℝ} (R : FloatRounding fl) {e : Env} {aMax vMax : Axis → ℤ} (hM : Machine aMax vMax)
    {v S M D ε κ : ℝ} {N m : ℕ} (L : CurveLimits e aMax vMax v S M D ε κ N m) (hf : Searches e) {s : Pen} {l : List Piece} {k : ℕ}
    (hs : Sync aMax vMax s.ctx) (hv : ∀ i, |(s.ctx.channels i).v| ≤ vMax i)
    (hp : ∀ i, |((s.ctx.channels i).pos : ℝ)| ≤ 2 * M * e.stepScale i + 4 * S + 2)
    (he : ∀ i, (s.maxErr i : ℝ) ≤ 383 / 100 * S + 1) (h : Pending fl M (m * v) D ε κ (v / 100) s l k) (hN : l.length ≤ N)
    (hl : lenTo l l.length ≤ M) {P0 : Axis → ℤ} {stops : List Vec} (hk : k ≤ N) (hst : Stopped e S N P0 stops s.ctx)
    (hcs : l ≠ [] → s.current ∈ stops) :
    ∃ s1 G0, flush fl e v s = some s1 ∧ Stopped e S N P0 stops s1.ctx ∧ (∀ i, |(s1.ctx.channels i).v| ≤ vMax i) ∧
      (∀ i, |((s1.ctx.channels i).pos : ℝ)| ≤ 2 * M * e.stepScale i + 4 * S + 2) ∧
      (∀ i, (s1.maxErr i : ℝ) ≤ 383 / 100 * S + 1) ∧ G0.flatten = l.map Piece.placed ∧
      ∀ {s' : Pen} {n : ℕ} {G : List (List (Vec × Shape))} {T : ℕ}, Later s1 s' → k ≤ n →
        CurveRuns e v S (n * gap + N * D) s.ctx.curveWeight aMax vMax s'.ctx.events (s1.ctx.channels .x).ticks G T →
        CurveRuns e v S (n * gap + N * D) s.ctx.curveWeight aMax vMax s'.ctx.events (s.ctx.channels .x).ticks (G0 ++ G) T := by
  have hS := L.one
  by_cases hne : l = []
  · subst hne
    have hc : s.curves = [] := h.cur
    have hd : drawCurve fl e s.ctx s.start s.curves v = some (s.ctx, fun _ => 0) := by
      unfold drawCurve
      rw [if_pos (by simp [hc])]
    have hfl : flush fl e v s = some
        { s with ctx := s.ctx, maxErr := fun i => accMax (s.maxErr i) 0, curves := [],
                 drawn := s.drawn ++ [(s.start, s.curves)] } := by
      unfold flush
      rw [hd]
      rfl
    refine ⟨_, [], hfl, hst, hv, hp, fun i => ?_, rfl, fun _ _ h => h⟩
    show ((accMax (s.maxErr i) 0 : ℤ) : ℝ) ≤ _
    rw [accMax_eq, Int.cast_max, max_le_iff]
    exact ⟨he i, by push_cast; linarith⟩
  · have hrun := h.run L hne hN hl
    obtain ⟨s1, h1, h2, h3, h4, a, h5⟩ := flush_pieces R hM L hf hs hv hp h.cur hrun h.bend h.long h.start h.off he
    obtain ⟨sy, -⟩ := flush_later hs h1
    have hD0 := hrun.D_pos.le
    have hg : ∀ i, 0 ≤ e.stepScale i := fun i => le_trans (by norm_num) (L.scale i)
    have hgap : (0 : ℝ) ≤ gap := by unfold gap; norm_num
    have hvp := hrun.pos
    have hstop : Stopped e S N P0 stops s1.ctx := by
      refine .inr ⟨s.current, hcs hne, fun i => ?_⟩
      have ab := h5.some
      have hab : ((s1.ctx.channels .x).ticks : ℝ) - a ≠ 0 := by
        have : (a : ℝ) < (s1.ctx.channels .x).ticks := by exact_mod_cast ab
        linarith
      have f1 := h5.follows i ((s1.ctx.channels .x).ticks - a) le_rfl
      have hlen1 : 1 ≤ l.length := List.length_pos_iff.2 hne
      have hl1 : l.length - 1 < l.length := by omega
      rw [show a + ((s1.ctx.channels .x).ticks - a) = (s1.ctx.channels .x).ticks by omega, Nat.cast_sub ab.le, div_self hab,
        mul_one, path_end l hne (fun x hx => by linarith [hrun.long x hx]), List.getLast_eq_getElem] at f1
      have e1 : (s1.ctx.channels i).pos = posAt i s1.ctx.events (s1.ctx.channels .x).ticks := by
        rw [sy.reach.inv.2.1.pos i]
        cases i
        · rfl
        · rw [show (s1.ctx.channels .y).ticks = (s1.ctx.channels .x).ticks from sy.inv.2.1.symm]
      have o1 := h.off (l.length - 1) hl1 i
      have o2 := h.ends i
      have o3 : sumTo l l.length i = sumTo l (l.length - 1) i + coord (l[l.length - 1].shape.pt l[l.length - 1].shape.len) i := by
        have := sumTo_succ l (l.length - 1) hl1 i
        rwa [show l.length - 1 + 1 = l.length by omega] at this
      rw [o3] at o2
      set r : ℝ := k * gap + l.length * D with hr
      have hr3 : r * e.stepScale i ≤ N * gap * e.stepScale i + 1 / 1024 := by
        have h1 : (k : ℝ) * gap ≤ N * gap := mul_le_mul_of_nonneg_right (by exact_mod_cast hk) hgap
        have h2 : (l.length : ℝ) * D ≤ N * D := mul_le_mul_of_nonneg_right (by exact_mod_cast hN) hD0
        have h3 := mul_le_mul_of_nonneg_right (add_le_add h1 h2) (hg i)
        have h4 := L.steps i
        rw [hr]
        linarith
      have o4 : |coord l[l.length - 1].start i + coord (l[l.length - 1].shape.pt l[l.length - 1].shape.len) i -
          coord s.current i| ≤ 2 * r := by
        obtain ⟨x1, x2⟩ := abs_le.1 o1
        obtain ⟨y1, y2⟩ := abs_le.1 o2
        rw [abs_le]; constructor <;> linarith
      have o5 : |(coord l[l.length - 1].start i + coord (l[l.length - 1].shape.pt l[l.length - 1].shape.len) i) * e.stepScale i -
          coord s.current i * e.stepScale i| ≤ 2 * (r * e.stepScale i) := by
        rw [← sub_mul, abs_mul, abs_of_nonneg (hg i), ← mul_assoc]
        exact mul_le_mul_of_nonneg_right o4 (hg i)
      rw [e1]
      obtain ⟨x1, x2⟩ := abs_le.1 f1
      obtain ⟨y1, y2⟩ := abs_le.1 o5
      rw [abs_le]; constructor <;> linarith
    refine ⟨s1, [l.map Piece.placed], h1, hstop, h2, h3, h4, by simp, fun {s' n G T} hlat hkn hG => ?_⟩
    refine .cons (h5.mono (fun i => le_trans (by norm_num) (L.scale i)) ?_ (fun i τ hτ => ?_) (fun w τ hτ => ?_)) hG
    · apply add_le_add
      · apply mul_le_mul_of_nonneg_right
        · exact_mod_cast hkn
        · unfold gap; norm_num
      · apply mul_le_mul_of_nonneg_right _ hrun.D_pos.le
        exact_mod_cast hN
    · refine hlat.past.acc i τ ?_
      cases i
      · exact hτ
      · have := sy.inv.2.1
        omega
    · exact hlat.past.weight w τ hτ

theorem lenTo_append (l : List Piece) (x : Piece) :
    lenTo (l ++ [x]) (l ++ [x]).length = lenTo l l.length + x.shape.len := by
  unfold lenTo
  rw [List.take_length, List.take_length, List.map_append, List.sum_append, List.map_singleton, List.sum_singleton]

theorem sumTo_append (l : List Piece) (x : Piece) (a : Axis) :
    sumTo (l ++ [x]) (l ++ [x]).length a = sumTo l l.length a + coord (x.shape.pt x.shape.len) a := by
  unfold sumTo
  rw [List.take_length, List.take_length, List.map_append, List.sum_append, List.map_singleton, List.sum_singleton]

theorem Pending.len_nonneg {fl : ℝ → ℝ} {M d D ε κ w : ℝ} {s : Pen} {l : List Piece} {k : ℕ}
    (h : Pending fl M d D ε κ w s l k) (hd : 0 ≤ d) : 0 ≤ lenTo l l.length := by
  unfold lenTo
  rw [List.take_length]
  apply List.sum_nonneg
  intro y hy
  obtain ⟨x, hx, rfl⟩ := List.mem_map.1 hy
  exact hd.trans (h.long x hx)

/-- What is known of a piece from `c` to `p`. -/
structure Good (d D ε κ w : ℝ) (x : Piece) (p : Vec) : Prop where
  long : d ≤ x.shape.len
  smooth : x.shape.Smooth κ
  near : Near x.curve x.shape D ε w
  ends : ∀ a, |coord x.start a + coord (x.shape.pt x.shape.len) a - coord p a| ≤ D

/-- One more. -/
theorem Pending.add {fl : ℝ → ℝ} (R : FloatRounding fl) {M d D ε κ w : ℝ} {s s' : Pen}
    {l : List Piece} {k : ℕ} (h : Pending fl M d D ε κ w s l k) {p : Vec} (hp : FloatPoint fl M p) {x : Piece}
    (hx : Good d D ε κ w x p) (hxs : x.start = s.current) (hD : 0 ≤ D) (hDd : D ≤ d) (hDw : D ≤ w) (hε : ε ≤ 1 / 1000000)
    (hκ : 0 ≤ κ) (hκD : κ * D ≤ 1 / 4000)
    (ht : ¬ turns fl s (x.curve.value 0).2)
    (e1 : s'.current = p) (e2 : s'.start = s.start)
    (e3 : s'.prevDir = some (x.curve.value x.curve.length).2)
    (e4 : s'.curves = concatAdd fl s.curves x.curve) :
    Pending fl M d D ε κ w s' (l ++ [x]) k := by
  have hlong : ∀ y ∈ l ++ [x], d ≤ y.shape.len ∧ y.shape.Smooth κ ∧ Near y.curve y.shape D ε w := by
    intro y hy
    rcases List.mem_append.1 hy with hy | hy
    · exact ⟨h.long y hy, h.smooth y hy, h.near y hy⟩
    · rw [List.mem_singleton] at hy
      subst hy
      exact ⟨hx.long, hx.smooth, hx.near⟩
  have e5 : (k : ℝ) * gap + ((l ++ [x]).length : ℝ) * D = k * gap + l.length * D + D := by
    rw [List.length_append, List.length_singleton]
    push_cast
    ring
  refine ⟨?_, by simp, ?_, by rw [e2]; exact h.start, by rw [e1]; exact hp, fun y hy => (hlong y hy).1,
    fun y hy => (hlong y hy).2.1, fun y hy => (hlong y hy).2.2, ?_, ?_, ?_⟩
  · rw [e4, h.cur]
    unfold computed
    rw [List.map_append, List.map_singleton, glue_append]
  · intro y hy
    simp only [List.getLast?_append, List.getLast?_singleton, Option.some_or, Option.mem_def, Option.some.injEq] at hy
    subst hy
    exact e3
  · intro i hi a
    by_cases hil : i + 1 < l.length
    · rw [List.getElem_append_left hil, List.getElem_append_left (by omega)]
      exact h.bend i hil a
    · have hl : i + 1 = l.length := by
        simp at hi
        omega
      have hi' : i < l.length := by omega
      have hd := h.dir l[i] (by
        rw [List.getLast?_eq_getElem?, show l.length - 1 = i by omega, List.getElem?_eq_getElem hi']
        rfl)
      have g1 : (l ++ [x])[i + 1] = x := by simp [hl]
      rw [g1, List.getElem_append_left hi']
      have hm := List.getElem_mem hi'
      exact no_corner R (h.smooth _ hm) hx.smooth (h.near _ hm) hx.near hDw (hDd.trans (h.long _ hm)) (by linarith [hx.long])
        hε hκ hκD (fun hlt => ht ⟨_, hd, hlt⟩) a
  · intro i hi a
    rw [e2, e5]
    by_cases hil : i < l.length
    · have : sumTo (l ++ [x]) i a = sumTo l i a := by
        unfold sumTo
        rw [List.take_append_of_le_length hil.le]
      rw [this, List.getElem_append_left hil]
      exact (h.off i hil a).trans (by linarith)
    · have hl : i = l.length := by
        simp at hi
        omega
      subst hl
      have : sumTo (l ++ [x]) l.length a = sumTo l l.length a := by
        unfold sumTo
        rw [List.take_append_of_le_length le_rfl]
      have g1 : (l ++ [x])[l.length] = x := by simp
      rw [this, g1, hxs]
      exact (h.ends a).trans (by linarith)
  · intro a
    rw [e1, e2, sumTo_append, e5]
    have h1 := hx.ends a
    rw [hxs] at h1
    obtain ⟨a1, a2⟩ := abs_le.1 h1
    obtain ⟨b1, b2⟩ := abs_le.1 (h.ends a)
    rw [abs_le]; constructor <;> linarith

theorem Pending.first {fl : ℝ → ℝ} {M d D ε κ w : ℝ} {s : Pen} (h1 : s.curves = []) (h2 : s.prevDir = none)
    (h3 : s.start = s.current) (h4 : FloatPoint fl M s.current) : Pending fl M d D ε κ w s [] 0 := by
  refine ⟨h1, fun _ => h2, by simp, by rw [h3]; exact h4, h4, by simp, by simp, by simp, fun i hi => ?_, fun i hi => ?_, fun a => ?_⟩
  · simp at hi
  · simp at hi
  · simp [sumTo, h3]

/-- What holds whenever the pen is about to take the next segment. -/
structure Fine (fl : ℝ → ℝ) (e : Env) (aMax vMax : Axis → ℤ) (v S M : ℝ) (s : Pen) : Prop where
  sync : Sync aMax vMax s.ctx
  vel : ∀ i, |(s.ctx.channels i).v| ≤ vMax i
  pos : ∀ i, |((s.ctx.channels i).pos : ℝ)| ≤ 2 * M * e.stepScale i + 4 * S + 2
  err : ∀ i, (s.maxErr i : ℝ) ≤ 383 / 100 * S + 1
  start : FloatPoint fl M s.start
  speed : s.curves ≠ [] → ∀ i, |stepV fl e ((concatInfo fl e s.curves).value 0).2 v i| + 1 / 2 ≤ vMax i

/-- It holds along a path. -/
def Along (fl : ℝ → ℝ) (e : Env) (v : ℝ) (P : Pen → Prop) : List Seg → Pen → Prop
  | [], s => P s
  | seg :: segs, s => P s ∧ ∀ s1, step fl e v s seg = some s1 → Along fl e v P segs s1

theorem Pending.fine {fl : ℝ → ℝ} (R : FloatRounding fl) {e : Env} {aMax vMax : Axis → ℤ} (hM : Machine aMax vMax)
    {v S M D ε κ : ℝ} {N m : ℕ} (L : CurveLimits e aMax vMax v S M D ε κ N m) (hf : Searches e) {s : Pen} {l : List Piece} {k : ℕ}
    (hs : Sync aMax vMax s.ctx) (hv : ∀ i, |(s.ctx.channels i).v| ≤ vMax i)
    (hp : ∀ i, |((s.ctx.channels i).pos : ℝ)| ≤ 2 * M * e.stepScale i + 4 * S + 2)
    (he : ∀ i, (s.maxErr i : ℝ) ≤ 383 / 100 * S + 1) (h : Pending fl M (m * v) D ε κ (v / 100) s l k) (hN : l.length ≤ N)
    (hl : lenTo l l.length ≤ M) : Fine fl e aMax vMax v S M s := by
  refine ⟨hs, hv, hp, he, h.start, fun hne => ?_⟩
  have hl0 : l ≠ [] := by
    rintro rfl
    exact hne h.cur
  have hrun := h.run L hl0 hN hl
  rw [h.cur]
  exact hrun.first_speed R hM L hf h.bend h.long (fun a => (h.start a).1)

theorem Along.step {fl : ℝ → ℝ} {e : Env} {v : ℝ} {P : Pen → Prop} {seg : Seg} {segs : List Seg} {s s1 : Pen} (h : P s)
    (hs : step fl e v s seg = some s1) (h1 : Along fl e v P segs s1) : Along fl e v P (seg :: segs) s := by
  refine ⟨h, fun s2 h2 => ?_⟩
  rw [hs] at h2
  cases h2
  exact h1

/-- What is shown of a path, from a state of the pen on. -/
def Done (fl : ℝ → ℝ) (e : Env) (pic : Vec → Seg → Shape) (aMax vMax : Axis → ℤ) (v S M r : ℝ) (N : ℕ) (ρ : Axis → ℝ)
    (P0 : Axis → ℤ) (stops : List Vec) (t k : ℕ) (s : Pen) (l : List Piece) (segs : List Seg) : Prop :=
  ∃ s' segs' n ll G, finish fl e v segs s = some s' ∧
    Omit (FloatVisited fl e s'.ctx.events t (s'.ctx.channels .x).ticks) segs segs' ∧
    FloatIntended e s.current segs' n ll ∧ G.flatten = l.map Piece.placed ++ ll.map (shapeOf pic) ∧
    CurveRuns e v S ((k + n : ℕ) * gap + r) s.ctx.curveWeight aMax vMax s'.ctx.events (s.ctx.channels .x).ticks G
      (s'.ctx.channels .x).ticks ∧
    (∀ i, (s'.maxErr i : ℝ) ≤ 383 / 100 * S + 1) ∧ (∀ i, |(s'.ctx.channels i).v| ≤ vMax i) ∧
    (∀ i, |((s'.ctx.channels i).pos : ℝ)| ≤ 2 * M * e.stepScale i + 4 * S + 2) ∧
    Stopped e S N P0 (stops ++ endsOf e s.current segs') s'.ctx ∧ Dropped fl e ρ P0 stops s.current segs segs' ∧
    Along fl e v (Fine fl e aMax vMax v S M) segs s

theorem mem_stops {p q : Vec} {a b : List Vec} (h : q ∈ p :: a ++ b) : q ∈ a ++ p :: b := by
  simp only [List.mem_append, List.mem_cons] at h ⊢
  tauto

/-- A move that is left out leads to where the machine is. -/
theorem Stopped.beside {fl : ℝ → ℝ} (R : FloatRounding fl) {e : Env} {S M : ℝ} {N : ℕ} {P0 : Axis → ℤ} {stops : List Vec} {s : Pen} {p : Vec}
    {ρ : Axis → ℝ} (h : Stopped e S N P0 stops s.ctx) (hS : 1 ≤ S) (hg : ∀ i, 0 ≤ e.stepScale i)
    (hρ : ∀ i, 387 / 100 * S + 1 / 2 + 3 * (N * gap * e.stepScale i) ≤ ρ i)
    (hM : ∀ i, M * e.stepScale i ≤ 2 ^ 39) (hp : ∀ i, |coord p i| ≤ M)
    (hb : atMachine fl e s p = some true) : Beside fl e.stepScale ρ P0 stops p := by
  rcases h with h | ⟨q, hq, hq'⟩
  · exact .inl fun i => by rw [← atMachine_true hb i, h i]
  refine .inr ⟨q, hq, fun i => ?_⟩
  have h1 := hq' i
  have h2 : |coord p i * e.stepScale i| ≤ 2 ^ 39 := by
    rw [abs_mul, abs_of_nonneg (hg i)]
    exact (mul_le_mul_of_nonneg_right (hp i) (hg i)).trans (hM i)
  have h3 := R.rel h2 (by norm_num)
  have h4 := round_near (fl (coord p i * e.stepScale i))
  rw [← atMachine_true hb i] at h4
  have h5 := hρ i
  have h7 : |coord p i * e.stepScale i - coord q i * e.stepScale i| ≤ ρ i := by
    obtain ⟨x1, x2⟩ := abs_le.1 h1
    obtain ⟨y1, y2⟩ := abs_le.1 h3
    obtain ⟨z1, z2⟩ := abs_le.1 h4
    norm_num at y1 y2
    rw [abs_le]; constructor <;> linarith
  rwa [← sub_mul, abs_mul, abs_of_nonneg (hg i)] at h7

theorem dropped_apart {fl : ℝ → ℝ} {e : Env} {ρ : Axis → ℝ} {P0 : Axis → ℤ} {stops : List Vec} {pos : Vec} {segs segs' : List Seg}
    (h : Dropped fl e ρ P0 stops pos segs segs') (ha : Apart fl e ρ P0 stops pos segs) : segs' = segs := by
  induction h with
  | nil => rfl
  | move _ ih => rw [ih ha.2]
  | skip hb _ _ => exact absurd hb ha.1
  | @draw _ _ q seg _ _ hs hq _ ih =>
    cases seg with
    | goTo p => exact absurd rfl (hs p)
    | lineTo p => rw [ih (ha q hq)]
    | closeTo p => rw [ih (ha q hq)]
    | curveTo a b c => rw [ih (ha q hq)]
    | arc a b c d f => rw [ih (ha q hq)]

/-- The pen after a curve that ends at `p`. -/
noncomputable def withCurve (fl : ℝ → ℝ) (s : Pen) (start : Vec) (k : Curve) (p : Vec) : Pen :=
  { s with
    current := p, start := start, prevDir := some (k.value k.length).2, curves := concatAdd fl s.curves k }

theorem finish_path {fl : ℝ → ℝ} (R : FloatRounding fl) {e : Env} {pic : Vec → Seg → Shape} {aMax vMax : Axis → ℤ}
    (hM : Machine aMax vMax)
    {v S M D ε κ : ℝ} {N m : ℕ} (L : CurveLimits e aMax vMax v S M D ε κ N m) (hf : Searches e) {segs : List Seg} {s : Pen}
    {l : List Piece} {k t : ℕ} {B : ℝ} (ht : t ≤ (s.ctx.channels .x).ticks)
    (hs : Sync aMax vMax s.ctx) (hv : ∀ i, |(s.ctx.channels i).v| ≤ vMax i)
    (hp : ∀ i, |((s.ctx.channels i).pos : ℝ)| ≤ 2 * M * e.stepScale i + 4 * S + 2)
    (he : ∀ i, (s.maxErr i : ℝ) ≤ 383 / 100 * S + 1) (h : Pending fl M (m * v) D ε κ (v / 100) s l k)
    (hN : l.length + k + segs.length ≤ N) (hB : lenTo l l.length + B ≤ M) (hB0 : 0 ≤ B)
    {ρ : Axis → ℝ} (hρ : ∀ i, 387 / 100 * S + 1 / 2 + 3 * (N * gap * e.stepScale i) ≤ ρ i)
    {P0 : Axis → ℤ} {stops : List Vec} (hst : Stopped e S N P0 stops s.ctx) (hcs : l ≠ [] → s.current ∈ stops)
    (hF : FloatPath fl e pic M (m * v) D ε κ (v / 100) ρ P0 B stops s.current segs) :
    Done fl e pic aMax vMax v S M (N * D) N ρ P0 stops t k s l segs := by
  have hgap : (0 : ℝ) ≤ gap := by unfold gap; norm_num
  have hg : ∀ i, 0 ≤ e.stepScale i := fun i => le_trans (by norm_num) (L.scale i)
  have hvp : 0 < v := lt_of_lt_of_le (by norm_num) L.tiny
  have hm2 : (2 : ℝ) ≤ m := by exact_mod_cast L.two
  have hmv2 : 2 * v ≤ m * v := mul_le_mul_of_nonneg_right hm2 hvp.le
  have hmv : 1 / 2 ^ 40 ≤ m * v := by
    have := L.tiny
    linarith
  have hM0 : 0 ≤ M := (abs_nonneg _).trans (h.here .x).1
  have hD0 : 0 ≤ D := le_trans (by positivity) L.tol
  have cast_le : ∀ {a b : ℕ}, a ≤ b → (a : ℝ) * gap + N * D ≤ b * gap + N * D := fun hab =>
    add_le_add (mul_le_mul_of_nonneg_right (by exact_mod_cast hab) hgap) le_rfl
  induction segs generalizing s l k B stops with
  | nil =>
    rw [List.length_nil] at hN
    have hfine := h.fine R hM L hf hs hv hp he (by omega) (by linarith)
    obtain ⟨s1, G0, h1, h0, h2, h3, h4, h5, h6⟩ := flush_pending R hM L hf hs hv hp he h (by omega) (by linarith) (by omega) hst hcs
    obtain ⟨sy, hl⟩ := flush_later hs h1
    refine ⟨s1, [], 0, [], G0, h1, .nil, .nil _, by simp [h5], ?_, h4, h2, h3, by simpa [endsOf] using h0, .nil _ _, hfine⟩
    have := h6 (s' := s1) (n := k + 0) (G := []) (T := (s1.ctx.channels .x).ticks)
      ⟨Past.refl _, fun _ => le_rfl, [], by simp⟩ le_rfl (.nil _)
    simpa using this
  | cons seg segs ih =>
    have hlen : (seg :: segs).length = segs.length + 1 := rfl
    rw [hlen] at hN
    have hfine := h.fine R hM L hf hs hv hp he (by omega) (by linarith)
    have hl0 := h.len_nonneg (by linarith)
    have hDv : D ≤ v / 1024 := by
      have h1 : (1 : ℝ) ≤ N := by
        have : 1 ≤ N := by omega
        exact_mod_cast this
      have := L.fine
      nlinarith
    have hκD : κ * D ≤ 1 / 4000 := by
      have h1 := mul_le_mul_of_nonneg_left hDv L.bend
      have := L.bend'
      linarith
    -- a line or curve
    have common : ∀ c p x, step fl e v s seg = Rounded.add fl e v s c p → x.curve = c → x.start = s.current →
        FloatDraws s.current seg → FloatEnd e s.current seg p → shapeOf pic (s.current, seg) = x.placed →
        FloatPoint fl M p → Good (m * v) D ε κ (v / 100) x p → x.shape.len ≤ B →
        FloatPath fl e pic M (m * v) D ε κ (v / 100) ρ P0 (B - x.shape.len) (p :: stops) p segs →
        (∀ q, seg ≠ .goTo q) →
        (∀ segs, endsOf e s.current (seg :: segs) = p :: endsOf e p segs) →
        Done fl e pic aMax vMax v S M (N * D) N ρ P0 stops t k s l (seg :: segs) := by
      intro c p x hstep hxc hxs hdraws hend hlo hpp hgood hd2 hF' hap hen
      by_cases htu : turns fl s (c.value 0).2
      · obtain ⟨s1, G0, h1, h0, h2, h3, h4, h5, h6⟩ := flush_pending R hM L hf hs hv hp he h (by omega) (by linarith) (by omega) hst hcs
        obtain ⟨sy, hl⟩ := flush_later hs h1
        obtain ⟨err, -, h7⟩ := flush_eq h1
        have hadd : Rounded.add fl e v s c p = some (withCurve fl s1 s1.current c p) := by
          unfold Rounded.add
          rw [if_pos htu, h1]
          rfl
        have e1 : s1.current = s.current := by rw [h7]
        have e2 : s1.curves = [] := by rw [h7]
        have here : FloatPoint fl M s1.current := by
          rw [e1]
          exact h.here
        have hf0 : Pending fl M (m * v) D ε κ (v / 100) { s1 with start := s1.current, prevDir := none } [] 0 :=
          Pending.first e2 rfl rfl here
        have hP : Pending fl M (m * v) D ε κ (v / 100) (withCurve fl s1 s1.current c p) [x] 0 :=
          hf0.add R (p := p) hpp hgood (hxs.trans e1.symm) hD0 (by linarith) (by linarith) L.dirs' L.bend hκD
            (by rintro ⟨d, hd, -⟩; cases hd)
            (s' := (withCurve fl s1 s1.current c p)) rfl rfl
            (by simp only [withCurve, hxc]) (by simp only [withCurve, hxc])
        obtain ⟨s', segs', n, ll, G, q1, q2, q3, q4, q5, q6, q7, q9, q10, q8, q11⟩ := ih (B := B - x.shape.len)
          (s := withCurve fl s1 s1.current c p) (ht.trans hl.past.ticks) sy h2 h3 h4 hP (by simp; omega) (by
            have := lenTo_append [] x
            rw [List.nil_append] at this
            rw [this]
            have h00 : lenTo ([] : List Piece) ([] : List Piece).length = 0 := rfl
            rw [h00]
            linarith) (by linarith) (Stopped.more h0 p) (fun _ => List.mem_cons_self) hF'
        obtain ⟨-, hlat⟩ := finish_later (s := (withCurve fl s1 s1.current c p)) sy q1
        refine ⟨s', seg :: segs', n, (s.current, seg) :: ll, G0 ++ G, finish_cons.2 ⟨_, hstep.trans hadd, q1⟩, .keep _ q2,
          .draw hdraws hend q3, ?_, ?_, q6, q7, q9, ?_, .draw hap hend q8, .step hfine (hstep.trans hadd) q11⟩
        · simp [h5, q4, hlo]
        · refine h6 (n := k + n) ⟨hlat.past, hlat.err, hlat.drawn⟩ (by omega) ?_
          refine CurveRuns.later hg (cast_le (a := 0 + n) (b := k + n) (by omega)) ?_
          rw [← hl.past.cw]
          exact q5
        · refine q10.mono fun q hq => ?_
          rw [hen]
          exact mem_stops hq
      · have hadd : Rounded.add fl e v s c p = some (withCurve fl s s.start c p) := by
          unfold Rounded.add
          rw [if_neg htu]
          rfl
        have hP := h.add R hpp hgood hxs hD0 (by linarith) (by linarith) L.dirs' L.bend hκD (by rw [hxc]; exact htu)
          (s' := (withCurve fl s s.start c p)) rfl rfl (by simp only [withCurve, hxc]) (by simp only [withCurve, hxc])
        obtain ⟨s', segs', n, ll, G, q1, q2, q3, q4, q5, q6, q7, q9, q10, q8, q11⟩ := ih (B := B - x.shape.len)
          (s := withCurve fl s s.start c p) ht hs hv hp he hP
          (by simp; omega) (by
            rw [lenTo_append]
            linarith) (by linarith) (hst.more p) (fun _ => List.mem_cons_self) hF'
        refine ⟨s', seg :: segs', n, (s.current, seg) :: ll, G, finish_cons.2 ⟨_, hstep.trans hadd, q1⟩, .keep _ q2,
          .draw hdraws hend q3, ?_, q5, q6, q7, q9, ?_, .draw hap hend q8, .step hfine (hstep.trans hadd) q11⟩
        · simp [q4, hlo]
        · refine q10.mono fun q hq => ?_
          rw [hen]
          exact mem_stops hq
    -- a line
    have aLine : ∀ p, step fl e v s seg = Rounded.add fl e v s (line fl (vsub fl p s.current)) p →
        FloatDraws s.current seg → FloatEnd e s.current seg p → shapeOf pic (s.current, seg) = (s.current, lineShape (p - s.current)) →
        FloatPoint fl M p → m * v ≤ (p - s.current).length → (p - s.current).length ≤ B →
        FloatPath fl e pic M (m * v) D ε κ (v / 100) ρ P0 (B - (p - s.current).length) (p :: stops) p segs →
        (∀ q, seg ≠ .goTo q) →
        (∀ segs, endsOf e s.current (seg :: segs) = p :: endsOf e p segs) →
        Done fl e pic aMax vMax v S M (N * D) N ρ P0 stops t k s l (seg :: segs) := by
      intro p hstep hdraws hend hlo hpp hd1 hd2 hF' hap hen
      have hpos : 0 < (p - s.current).length := by linarith
      have htol := L.tol
      refine common _ p ⟨s.current, lineShape (p - s.current), line fl (vsub fl p s.current)⟩ hstep rfl rfl hdraws hend hlo hpp
        ⟨hd1, line_smooth hpos L.bend, line_is_near R (by linarith) (by linarith) (by linarith) L.dirs, fun a => ?_⟩ hd2 hF' hap hen
      show |coord s.current a + coord ((lineShape (p - s.current)).pt (lineShape (p - s.current)).len) a - coord p a| ≤ D
      rw [line_end hpos]
      have : coord (p - s.current) a = coord p a - coord s.current a := by cases a <;> rfl
      rw [this, show coord s.current a + (coord p a - coord s.current a) - coord p a = 0 by ring, abs_zero]
      exact hD0
    -- a curve
    have aCurve : ∀ c p, step fl e v s seg = Rounded.add fl e v s c p →
        FloatDraws s.current seg → FloatEnd e s.current seg p → shapeOf pic (s.current, seg) = (s.current, pic s.current seg) →
        FloatPoint fl M p → (pic s.current seg).Smooth κ → Near c (pic s.current seg) D ε (v / 100) →
        (∀ i, |coord s.current i + coord ((pic s.current seg).pt (pic s.current seg).len) i - coord p i| ≤ D) →
        m * v ≤ (pic s.current seg).len → (pic s.current seg).len ≤ B →
        FloatPath fl e pic M (m * v) D ε κ (v / 100) ρ P0 (B - (pic s.current seg).len) (p :: stops) p segs →
        (∀ q, seg ≠ .goTo q) →
        (∀ segs, endsOf e s.current (seg :: segs) = p :: endsOf e p segs) →
        Done fl e pic aMax vMax v S M (N * D) N ρ P0 stops t k s l (seg :: segs) := by
      intro c p hstep hdraws hend hlo hpp a1 a2 a3 a4 a5 hF' hap hen
      exact common _ p ⟨s.current, pic s.current seg, c⟩ hstep rfl rfl hdraws hend hlo hpp ⟨a4, a1, a2, a3⟩ a5 hF' hap hen
    cases seg with
    | goTo p =>
      obtain ⟨hpp, hF1, hF2⟩ := hF
      obtain ⟨b, hb⟩ := atMachine_some (fl := fl) (e := e) s (p := p) (by
        intro i
        have h1 := L.range i
        have h2 : |coord p i * e.stepScale i| ≤ 2 ^ 39 := by
          rw [abs_mul, abs_of_nonneg (hg i)]
          exact (mul_le_mul_of_nonneg_right (hpp i).1 (hg i)).trans h1
        have h3 := R.rel h2 (by norm_num)
        obtain ⟨a1, a2⟩ := abs_le.1 h2
        obtain ⟨b1, b2⟩ := abs_le.1 h3
        norm_num at *
        rw [abs_le]; constructor <;> linarith)
      cases b with
      | true =>
        have hbes := hst.beside R L.one hg hρ L.range (fun i => (hpp i).1) hb
        have hstep : step fl e v s (.goTo p) = some { s with skipped := s.skipped ++ [(p, s.current)] } := by
          show goTo fl e v s p = _
          unfold goTo
          rw [hb]
          rfl
        have hP : Pending fl M (m * v) D ε κ (v / 100) { s with skipped := s.skipped ++ [(p, s.current)] } l k :=
          ⟨h.cur, h.nodir, h.dir, h.start, h.here, h.long, h.smooth, h.near, h.bend, h.off, h.ends⟩
        obtain ⟨s', segs', n, ll, G, q1, q2, q3, q4, q5, q6, q7, q9, q10, q8, q11⟩ := ih
          (s := { s with skipped := s.skipped ++ [(p, s.current)] }) ht hs hv hp he hP (by omega) hB hB0 hst hcs (hF2 hbes)
        refine ⟨s', segs', n, ll, G, finish_cons.2 ⟨_, hstep, q1⟩, .skip ?_ q2, q3, q4, q5, q6, q7, q9, q10, .skip hbes q8, .step hfine hstep q11⟩
        obtain ⟨-, hl⟩ := finish_later (s := { s with skipped := s.skipped ++ [(p, s.current)] }) hs q1
        refine ⟨_, ht, hl.past.ticks, fun i => ?_⟩
        have e1 : (s.ctx.channels .x).ticks = (s.ctx.channels i).ticks := by
          cases i
          · rfl
          · exact hs.inv.2.1
        rw [← atMachine_true hb i, hs.reach.inv.2.1.pos i, e1]
        unfold posAt
        rw [played_congr (fun τ hτ => hl.past.acc i τ hτ)]
      | false =>
        obtain ⟨s1, G0, h1, h0, h2, h3, h4, h5, h6⟩ := flush_pending R hM L hf hs hv hp he h (by omega) (by linarith) (by omega) hst hcs
        obtain ⟨sy, hl⟩ := flush_later hs h1
        obtain ⟨err, -, h7⟩ := flush_eq h1
        have e2 : s1.curves = [] := by rw [h7]
        have hstep : step fl e v s (.goTo p) = some { s1 with current := p, start := p, prevDir := none } := by
          show goTo fl e v s p = _
          unfold goTo
          rw [hb]
          simp [h1]
        have hP : Pending fl M (m * v) D ε κ (v / 100) { s1 with current := p, start := p, prevDir := none } [] 0 :=
          Pending.first e2 rfl rfl hpp
        obtain ⟨s', segs', n, ll, G, q1, q2, q3, q4, q5, q6, q7, q9, q10, q8, q11⟩ := ih (B := B)
          (s := { s1 with current := p, start := p, prevDir := none })
          (ht.trans hl.past.ticks) sy h2 h3 h4 hP (by simp; omega) (by
            have h00 : lenTo ([] : List Piece) ([] : List Piece).length = 0 := rfl
            rw [h00]
            linarith) hB0 h0 (by simp) hF1
        obtain ⟨-, hlat⟩ := finish_later (s := { s1 with current := p, start := p, prevDir := none }) sy q1
        refine ⟨s', .goTo p :: segs', n, ll, G0 ++ G, finish_cons.2 ⟨_, hstep, q1⟩, .keep _ q2, .move q3, ?_, ?_, q6, q7, q9, q10,
          .move q8, .step hfine hstep q11⟩
        · simp [h5, q4]
        · refine h6 (n := k + n) ⟨hlat.past, hlat.err, hlat.drawn⟩ (by omega) ?_
          refine CurveRuns.later hg (cast_le (a := 0 + n) (b := k + n) (by omega)) ?_
          rw [← hl.past.cw]
          exact q5
    | lineTo p =>
      obtain ⟨a1, a2, a3, a4⟩ := hF
      exact aLine p rfl trivial rfl rfl a1 a2 a3 a4 (by simp) (fun _ => rfl)
    | closeTo p =>
      obtain ⟨a1, ⟨b1, b2⟩ | ⟨b1, b2, b3, b4⟩⟩ := hF
      · have hsh : vlength fl (vsub fl s.current p) < fl (1 / 1000000) := by
          by_contra hc
          exact absurd ((short_cases R s.current p).2 hc) (not_le.2 b1)
        have hstep : step fl e v s (.closeTo p) = some { s with current := p } := by
          simp only [step]
          rw [if_pos hsh]
        have hgap' : (s.current - p).length ≤ gap := (short_cases R s.current p).1 hsh
        have e1 : ((k + 1 : ℕ) : ℝ) * gap + l.length * D = k * gap + l.length * D + gap := by push_cast; ring
        have hP : Pending fl M (m * v) D ε κ (v / 100) { s with current := p } l (k + 1) := by
          refine ⟨h.cur, h.nodir, h.dir, h.start, a1, h.long, h.smooth, h.near, h.bend, fun i hi a => ?_, fun a => ?_⟩
          · refine (h.off i hi a).trans ?_
            rw [e1]
            linarith
          · have h1 := h.ends a
            have h2 := (le_length (s.current - p) a).trans hgap'
            have h3 : coord (s.current - p) a = coord s.current a - coord p a := by cases a <;> rfl
            rw [h3] at h2
            obtain ⟨x1, x2⟩ := abs_le.1 h1
            obtain ⟨y1, y2⟩ := abs_le.1 h2
            show |coord s.start a + sumTo l l.length a - coord p a| ≤ _
            rw [e1, abs_le]
            constructor <;> linarith
        obtain ⟨s', segs', n, ll, G, q1, q2, q3, q4, q5, q6, q7, q9, q10, q8, q11⟩ := ih (s := { s with current := p }) ht hs hv hp he hP
          (by omega) hB hB0 (hst.more p) (fun _ => List.mem_cons_self) b2
        refine ⟨s', .closeTo p :: segs', n + 1, ll, G, finish_cons.2 ⟨_, hstep, q1⟩, .keep _ q2, .short hgap' q3, q4, ?_, q6, q7, q9, ?_,
          .draw (by simp) rfl q8, .step hfine hstep q11⟩
        · rw [show k + (n + 1) = k + 1 + n by omega]
          exact q5
        · refine q10.mono fun q hq => ?_
          exact mem_stops hq
      · have hsh : ¬ vlength fl (vsub fl s.current p) < fl (1 / 1000000) := by
          intro hc
          exact absurd ((short_cases R s.current p).1 hc) (not_le.2 b1)
        have hstep : step fl e v s (.closeTo p) = Rounded.add fl e v s (line fl (vsub fl p s.current)) p := by
          simp only [step]
          rw [if_neg hsh]
          rfl
        exact aLine p hstep ((short_cases R s.current p).2 hsh) rfl rfl a1 b2 b3 b4 (by simp) (fun _ => rfl)
    | curveTo p1 p2 c1 =>
      obtain ⟨c, p, b1, b2, b3, b4, b5, b6, b7, b8⟩ := hF
      refine aCurve c p ?_ trivial ⟨c, b1⟩ rfl b2 b3 b4 b5 b6 b7 b8 (by simp) (fun _ => by simp only [endsOf, b1])
      simp only [step, segInfo, b1]
      rfl
    | arc rx ry a b r =>
      obtain ⟨c, p, b1, b2, b3, b4, b5, b6, b7, b8⟩ := hF
      refine aCurve c p ?_ trivial ⟨c, b1⟩ rfl b2 b3 b4 b5 b6 b7 b8 (by simp) (fun _ => by simp only [endsOf, b1])
      simp only [step, segInfo, b1]
      rfl

end StepperPaths.Rounded.CurvePath
