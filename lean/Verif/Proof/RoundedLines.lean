import Verif.Proof.RoundedAlong

/-! Paths of lines with rounding: what `draw_curves` does with them. -/

namespace StepperPaths.Rounded
open Coords Curves Context IntegerCurve Spec Props Draw

theorem _root_.StepperPaths.Spec.FloatRun.mono {e : Env} {v S r r' : ℝ} {w : ℤ} {aMax vMax : Axis → ℤ} {es es' : List Event}
    {t a b : ℕ} {l : List (Vec × Vec)} (h : FloatRun e v S r w aMax vMax es t a b l) (hg : ∀ i, 0 ≤ e.stepScale i)
    (hr : r ≤ r') (hacc : ∀ i, ∀ τ < b, accAt i es' τ = accAt i es τ)
    (hw : ∀ w0, ∀ τ < b, weightAt w0 es' τ = weightAt w0 es τ) : FloatRun e v S r' w aMax vMax es' t a b l := by
  have h1 := h.some
  have pos_same : ∀ i, ∀ T ≤ b, posAt i es' T = posAt i es T := by
    intro i T hT
    unfold posAt
    rw [played_congr (fun τ hτ => hacc i τ (by omega))]
  have vel_same : ∀ i, ∀ T ≤ b, velAt i es' T = velAt i es T := by
    intro i T hT
    unfold velAt
    rw [played_congr (fun τ hτ => hacc i τ (by omega))]
  refine ⟨h.ne, h.long, h.move, h.some, h.len, ?_, ?_, ?_, ?_, ?_⟩
  · intro w0 τ q1 q2
    rw [hw w0 τ (by omega)]
    exact h.off w0 τ q1 q2
  · intro w0 τ q1 q2
    rw [hw w0 τ (by omega)]
    exact h.on w0 τ q1 q2
  · intro i τ q1 q2
    rw [hacc i τ q2]
    exact h.acc i τ q1 q2
  · intro i τ q1 q2
    rw [vel_same i _ (by omega)]
    exact h.vel i τ q1 q2
  · intro i k hk
    rw [pos_same i _ (by omega)]
    have := mul_le_mul_of_nonneg_right hr (hg i)
    linarith [h.follows i k hk]

/-- Where the lines end. -/
theorem Run.end_le {fl : ℝ → ℝ} (R : FloatRounding fl) {e : Env} {aMax vMax : Axis → ℤ} {v S M : ℝ} {N m : ℕ}
    (L : FloatLimits e aMax vMax v S M N m) (hv2 : ∀ i, vMax i < 2 ^ 30) (hf : Searches e) {l : List (Vec × Vec)}
    (h : Run fl M v N l) {start : Vec} (hs : ∀ a, |coord start a| ≤ M) (a : Axis) :
    |floatPos fl e start (concatInfo fl e (glue fl (asLines fl l))) v a
      (approxSteps fl (concatInfo fl e (glue fl (asLines fl l))) v)| ≤ 2 * M * e.stepScale a + S / 8 + 1 / 64 := by
  obtain ⟨-, -, c3, -⟩ := h.tick_count R e
  obtain ⟨j, hj, q1, q2, q3, -, -⟩ := h.tick' R L hv2 hf hs a rfl le_rfl
  have hT := h.total_near R
  set n := approxSteps fl (concatInfo fl e (glue fl (asLines fl l))) v with hn
  have hn0 : (n : ℝ) ≠ 0 := by
    have : n ≠ 0 := by omega
    exact_mod_cast this
  rw [mul_div_cancel₀ _ hn0] at q1 q2 q3
  set T := lenAt fl (asLines fl l) l.length with hTd
  have hv := h.pos
  have hg0 : 0 < e.stepScale a := lt_of_lt_of_le (by norm_num) (L.scale a)
  have htot := h.total
  obtain ⟨t1, t2⟩ := abs_le.1 hT
  have h1 := sumTo_le l j hj.le a
  have h2 : |dirOf l[j] a * (T - lenTo l j)| ≤ |T - lenTo l j| := by
    rw [abs_mul]
    exact mul_le_of_le_one_left (abs_nonneg _) (dir_le a)
  have h3 : |T - lenTo l j| ≤ M - lenTo l j + v / 64 := by
    rw [abs_le]
    have := lenTo_mono l hj.le le_rfl
    constructor <;> linarith
  have h4 : |by_line l j hj a T| ≤ M + v / 64 := by
    unfold by_line
    refine (abs_add_le _ _).trans ?_
    linarith
  have h5 : |(coord start a + by_line l j hj a T) * e.stepScale a| ≤ (2 * M + v / 64) * e.stepScale a := by
    rw [abs_mul, abs_of_pos hg0]
    apply mul_le_mul_of_nonneg_right _ hg0.le
    refine (abs_add_le _ _).trans ?_
    linarith [hs a]
  have h6 : v / 64 * e.stepScale a ≤ S / 8 := by
    have h1 := L.slow a
    have h2 : 0 ≤ v * e.stepScale a * (11 / (20 * m)) := by positivity
    have h3 : v * e.stepScale a * (88 / 1000 + 11 / (20 * m)) =
      v * e.stepScale a * (88 / 1000) + v * e.stepScale a * (11 / (20 * m)) := by ring
    have := L.one
    linarith
  obtain ⟨x1, x2⟩ := abs_le.1 q3
  obtain ⟨y1, y2⟩ := abs_le.1 h5
  rw [abs_le]; constructor <;> linarith

theorem M_scale {e : Env} {aMax vMax : Axis → ℤ} {v S M : ℝ} {N m : ℕ} (L : FloatLimits e aMax vMax v S M N m)
    (hN : 1 ≤ N) (hM : 0 ≤ M) (i : Axis) : M * e.stepScale i ≤ 2 ^ 39 := by
  have hg0 : 0 < e.stepScale i := lt_of_lt_of_le (by norm_num) (L.scale i)
  refine le_trans ?_ (L.range i)
  apply mul_le_mul_of_nonneg_right _ hg0.le
  have : (1 : ℝ) ≤ N := by exact_mod_cast hN
  exact le_mul_of_one_le_left hM this

/-- Drawing the lines that were collected. -/
theorem flush_lines {fl : ℝ → ℝ} (R : FloatRounding fl) {e : Env} {aMax vMax : Axis → ℤ} (hM : Machine aMax vMax)
    {v S M : ℝ} {N m : ℕ} (L : FloatLimits e aMax vMax v S M N m) (hf : Searches e) {s : Pen} {l : List (Vec × Vec)} {r : ℝ}
    (hs : Sync aMax vMax s.ctx) (hv : ∀ i, |(s.ctx.channels i).v| ≤ vMax i)
    (hp : ∀ i, |((s.ctx.channels i).pos : ℝ)| ≤ 2 * M * e.stepScale i + 4 * S + 2)
    (hcur : s.curves = glue fl (asLines fl l)) (h : Run fl M v N l) (hb : Bending l) (hm : ∀ x ∈ l, m * v ≤ segLen x)
    (hst : FloatPoint fl M s.start) (ho : Offsets l s.start r)
    (he : ∀ i, (s.maxErr i : ℝ) ≤ 383 / 100 * S + 1) :
    ∃ s1, flush fl e v s = some s1 ∧ (∀ i, |(s1.ctx.channels i).v| ≤ vMax i) ∧
      (∀ i, |((s1.ctx.channels i).pos : ℝ)| ≤ 2 * M * e.stepScale i + 4 * S + 2) ∧
      (∀ i, (s1.maxErr i : ℝ) ≤ 383 / 100 * S + 1) ∧
      ∃ a, FloatRun e v S r s.ctx.curveWeight aMax vMax s1.ctx.events (s.ctx.channels .x).ticks a
        (s1.ctx.channels .x).ticks l := by
  have hsM : ∀ a, |coord s.start a| ≤ M := fun a => (hst a).1
  have hM0 : 0 < M := by have := h.M_pos; have := h.pos; linarith
  have hN : 1 ≤ N := (List.length_pos_iff.2 h.ne).trans_le h.count
  have hg0 : ∀ i, 0 < e.stepScale i := fun i => lt_of_lt_of_le (by norm_num) (L.scale i)
  have hMg := M_scale L hN hM0.le
  have hone := L.one
  have hbig := L.big
  have hne : s.curves ≠ [] := by
    rw [hcur, Ne, ← List.length_eq_zero_iff, glue_length, asLines_length, List.length_eq_zero_iff]
    exact h.ne
  have hsg : ∀ i, |coord s.start i * e.stepScale i| ≤ M * e.stepScale i := by
    intro i
    rw [abs_mul, abs_of_pos (hg0 i)]
    exact mul_le_mul_of_nonneg_right (hsM i) (hg0 i).le
  have hsf : ∀ i, |fl (coord s.start i * e.stepScale i)| ≤ M * e.stepScale i + 1 := by
    intro i
    have h1 := R.rel (x := coord s.start i * e.stepScale i) (M := 2 ^ 39) ((hsg i).trans (hMg i)) (by norm_num)
    obtain ⟨a1, a2⟩ := abs_le.1 h1
    obtain ⟨b1, b2⟩ := abs_le.1 (hsg i)
    norm_num at *
    rw [abs_le]; constructor <;> linarith
  have sm := h.smooth R L hM.v2 hf hb hm hsM
  obtain ⟨c1, c2, c3, c4⟩ := h.tick_count R e
  have hT := h.total_near R
  have hal := fun a {k} hk => h.along R L hM.v2 hf hb hsM ho a (k := k) rfl hk
  have hend := h.end_le R L hM.v2 hf hsM
  have hz : ∀ i, floatPos fl e s.start (concatInfo fl e (glue fl (asLines fl l))) v i 0 =
      fl (coord s.start i * e.stepScale i) := by
    intro i
    obtain ⟨j, hj, -, -, -, -, q⟩ := h.tick' R L hM.v2 hf hsM i rfl (Nat.zero_le _)
    rw [q rfl, (hst i).2]
  have hd : ∀ i, |stepV fl e ((concatInfo fl e s.curves).value 0).2 v i| + 1 / 2 ≤ vMax i := by
    intro i
    have e1 : floatVel fl e (concatInfo fl e s.curves) v i 0 =
        stepV fl e ((concatInfo fl e s.curves).value 0).2 v i := by
      unfold floatVel
      rw [Nat.cast_zero, zero_mul, R.zero]
      rfl
    rw [← e1, hcur]
    have h1 := (sm i).speed 0 (by omega)
    have h2 := (sm i).turns 0 (by omega)
    obtain ⟨a1, a2⟩ := abs_le.1 h2
    obtain ⟨b1, b2⟩ := abs_le.1 (le_refl |floatVel fl e (concatInfo fl e (glue fl (asLines fl l))) v i (0 + 1)|)
    have : |floatVel fl e (concatInfo fl e (glue fl (asLines fl l))) v i 0| ≤
      |floatVel fl e (concatInfo fl e (glue fl (asLines fl l))) v i (0 + 1)| + S / 4 := by
      rw [abs_le]; constructor <;> linarith
    linarith
  have hs60 : ∀ i, |fl (coord s.start i * e.stepScale i)| ≤ 2 ^ 60 := by
    intro i
    have := hMg i
    exact (hsf i).trans (by norm_num at *; linarith)
  obtain ⟨c', err, hdr⟩ := drawCurve_ok (e := e) (start := s.start) (curve := s.curves) (v := v) hM hs hne hv hs60 hd (by
    intro i
    have h1 := round_near (fl (coord s.start i * e.stepScale i))
    have h2 := L.reach i
    obtain ⟨a1, a2⟩ := abs_le.1 h1
    obtain ⟨b1, b2⟩ := abs_le.1 (hsf i)
    obtain ⟨d1, d2⟩ := abs_le.1 (hp i)
    have h3 : |(Draw.round (fl (coord s.start i * e.stepScale i)) : ℝ) - (s.ctx.channels i).pos| ≤ vMax i * 65535 := by
      rw [abs_le]
      constructor <;> linarith
    exact_mod_cast h3)
  have hp61 : ∀ i, |(s.ctx.channels i).pos| ≤ 2 ^ 61 := by
    intro i
    have h1 : |((s.ctx.channels i).pos : ℝ)| ≤ 2 ^ 61 := by
      have := hMg i
      refine (hp i).trans ?_
      have : 2 * M * e.stepScale i = 2 * (M * e.stepScale i) := by ring
      norm_num at *
      linarith
    exact_mod_cast h1
  obtain ⟨a, hta, St, hv1, hw⟩ := drawCurve_stroke R hs hne hM.a1 hM.v1
    (fun i => by have := hM.v2 i; norm_num at *; omega) hv hp61 hs60 hd hdr
  have hfl : flush fl e v s = some
      { s with ctx := c', maxErr := fun i => accMax (s.maxErr i) (err i), curves := [],
               drawn := s.drawn ++ [(s.start, s.curves)] } := by
    unfold flush
    rw [hdr]
    rfl
  obtain ⟨sy, -⟩ := drawCurve_past hs hdr
  have hlen := St.len
  have hfo := fun i => St.smooth i S (by simp only [hcur]; exact sm i) (by simp only [hcur]; exact hz i)
  simp only [hcur] at hlen hfo
  simp only [hcur] at hw
  set n := approxSteps fl (concatInfo fl e (glue fl (asLines fl l))) v with hn
  refine ⟨_, hfl, hv1, fun i => ?_, fun i => ?_, a, ?_⟩
  · show |((c'.channels i).pos : ℝ)| ≤ _
    have e1 : (c'.channels i).pos = posAt i c'.events (c'.channels i).ticks := sy.reach.inv.2.1.pos i
    have e2 : (c'.channels i).ticks = a + (n - 1 + 1) := by
      cases i
      · omega
      · have := sy.inv.2.1
        omega
    rw [e1, e2]
    have h1 := (hfo i (n - 1) (by omega)).1
    rw [show n - 1 + 1 = n by omega] at h1 ⊢
    have h2 := hend i
    obtain ⟨x1, x2⟩ := abs_le.1 h1
    obtain ⟨y1, y2⟩ := abs_le.1 h2
    rw [abs_le]; constructor <;> linarith
  · show ((accMax (s.maxErr i) (err i) : ℤ) : ℝ) ≤ _
    rw [accMax_eq, Int.cast_max, max_le_iff]
    refine ⟨he i, ?_⟩
    rcases hw i with h0 | ⟨k, hk, hk'⟩
    · rw [h0]
      push_cast
      linarith
    · have h3 := (hfo i k hk).1
      have h4 := Tracking.trunc_near (floatPos fl e s.start (concatInfo fl e (glue fl (asLines fl l))) v i (k + 1))
      rw [← hk']
      push_cast
      obtain ⟨x1, x2⟩ := abs_le.1 h3
      obtain ⟨y1, y2⟩ := abs_le.1 h4
      rw [abs_le]
      constructor <;> linarith
  · have ecast : ((c'.channels .x).ticks : ℝ) - a = n := by
      rw [hlen]; push_cast; ring
    have hvp := h.pos
    refine ⟨h.ne, h.long, hta, by show a < (c'.channels .x).ticks; omega, ?_, St.off, St.on, ?_, St.vel, ?_⟩
    · show |((c'.channels .x).ticks : ℝ) - a - linesLen l / v| ≤ _
      rw [ecast, linesLen_eq]
      have h1 : |lenAt fl (asLines fl l) l.length / v - lenTo l l.length / v| ≤ 1 / 512 := by
        rw [← sub_div, abs_div, abs_of_pos hvp, div_le_iff₀ hvp]
        linarith
      obtain ⟨x1, x2⟩ := abs_le.1 c2
      obtain ⟨y1, y2⟩ := abs_le.1 h1
      norm_num at x1 x2 y1 y2
      rw [abs_le]; constructor <;> norm_num <;> linarith
    · intro i τ h3 h4
      show |accAt i c'.events τ| ≤ _
      by_cases h5 : τ < a
      · exact St.acc i τ h3 h5
      · have h4 : τ < (c'.channels .x).ticks := h4
        have h6 := (hfo i (τ - a) (by omega)).2.2
        rw [show a + (τ - a) = τ by omega] at h6
        have := h6.trans (L.acc i)
        exact_mod_cast this
    · intro i k hk
      show |((posAt i c'.events (a + k) : ℤ) : ℝ) - coord (alongAt l (linesLen l * (k / (((c'.channels .x).ticks : ℝ) - a)))) i
        * e.stepScale i| ≤ _
      have hk : k ≤ n := by
        have : k ≤ (c'.channels .x).ticks - a := hk
        omega
      rw [ecast]
      obtain ⟨y1, y2⟩ := abs_le.1 (hal i hk)
      have h3 : |(posAt i c'.events (a + k) : ℝ) -
          floatPos fl e s.start (concatInfo fl e (glue fl (asLines fl l))) v i k| ≤ 383 / 100 * S := by
        cases k with
        | zero =>
          rw [hz i]
          have := St.start i
          refine this.trans ?_
          linarith
        | succ k => exact (hfo i k hk).1
      obtain ⟨x1, x2⟩ := abs_le.1 h3
      rw [abs_le]; constructor <;> linarith

theorem FloatRuns.later {e : Env} {v S r r' : ℝ} {w : ℤ} {aMax vMax : Axis → ℤ} {es : List Event} {t T : ℕ}
    {G : List (List (Vec × Vec))} (hg : ∀ i, 0 ≤ e.stepScale i) (hr : r ≤ r')
    (h : FloatRuns e v S r w aMax vMax es t G T) : FloatRuns e v S r' w aMax vMax es t G T := by
  induction h with
  | nil t => exact .nil t
  | cons h1 _ ih => exact .cons (h1.mono hg hr (fun _ _ _ => rfl) (fun _ _ _ => rfl)) ih

/-- The lines that were collected, and where the pen is. -/
structure Pending (fl : ℝ → ℝ) (M d : ℝ) (s : Pen) (l : List (Vec × Vec)) (k : ℕ) : Prop where
  cur : s.curves = glue fl (asLines fl l)
  nodir : l = [] → s.prevDir = none
  dir : ∀ x ∈ l.getLast?, s.prevDir =
    some ((line fl (vsub fl x.2 x.1)).value (line fl (vsub fl x.2 x.1)).length).2
  start : FloatPoint fl M s.start
  here : FloatPoint fl M s.current
  long : ∀ x ∈ l, d ≤ segLen x
  bend : Bending l
  off : Offsets l s.start (k * gap)
  ends : ∀ a, |coord s.start a + sumTo l l.length a - coord s.current a| ≤ k * gap

theorem Pending.run {fl : ℝ → ℝ} {e : Env} {aMax vMax : Axis → ℤ} {v S M : ℝ} {N m : ℕ}
    (L : FloatLimits e aMax vMax v S M N m) {s : Pen} {l : List (Vec × Vec)} {k : ℕ} (h : Pending fl M (m * v) s l k)
    (hne : l ≠ []) (hN : l.length ≤ N) (hl : lenTo l l.length ≤ M) : Run fl M v N l := by
  refine ⟨hne, hN, L.tiny, fun x hx => ?_, hl, L.ticks, L.fine⟩
  refine le_trans (mul_le_mul_of_nonneg_right ?_ (le_trans (by norm_num) L.tiny)) (h.long x hx)
  exact_mod_cast L.two

/-- Drawing what was collected, if anything. -/
theorem flush_pending {fl : ℝ → ℝ} (R : FloatRounding fl) {e : Env} {aMax vMax : Axis → ℤ} (hM : Machine aMax vMax)
    {v S M : ℝ} {N m : ℕ} (L : FloatLimits e aMax vMax v S M N m) (hf : Searches e) {s : Pen} {l : List (Vec × Vec)} {k : ℕ}
    (hs : Sync aMax vMax s.ctx) (hv : ∀ i, |(s.ctx.channels i).v| ≤ vMax i)
    (hp : ∀ i, |((s.ctx.channels i).pos : ℝ)| ≤ 2 * M * e.stepScale i + 4 * S + 2)
    (he : ∀ i, (s.maxErr i : ℝ) ≤ 383 / 100 * S + 1) (h : Pending fl M (m * v) s l k) (hN : l.length ≤ N)
    (hl : lenTo l l.length ≤ M) :
    ∃ s1 G0, flush fl e v s = some s1 ∧ (∀ i, |(s1.ctx.channels i).v| ≤ vMax i) ∧
      (∀ i, |((s1.ctx.channels i).pos : ℝ)| ≤ 2 * M * e.stepScale i + 4 * S + 2) ∧
      (∀ i, (s1.maxErr i : ℝ) ≤ 383 / 100 * S + 1) ∧ G0.flatten = l ∧
      ∀ {s' : Pen} {n : ℕ} {G : List (List (Vec × Vec))} {T : ℕ}, Later s1 s' → k ≤ n →
        FloatRuns e v S (n * gap) s.ctx.curveWeight aMax vMax s'.ctx.events (s1.ctx.channels .x).ticks G T →
        FloatRuns e v S (n * gap) s.ctx.curveWeight aMax vMax s'.ctx.events (s.ctx.channels .x).ticks (G0 ++ G) T := by
  have hS := L.one
  by_cases hne : l = []
  · subst hne
    have hc : s.curves = [] := h.cur
    have hd : drawCurve fl e s.ctx s.start s.curves v = some (s.ctx, fun _ => 0) := by
      unfold drawCurve
      rw [if_pos (by simp [hc])]
    have hfl : flush fl e v s = some
        { s with ctx := s.ctx, maxErr := fun i => accMax (s.maxErr i) 0, curves := [],
                 drawn := s.drawn ++ [(s.start, s.curves)] } := by
      unfold flush
      rw [hd]
      rfl
    refine ⟨_, [], hfl, hv, hp, fun i => ?_, rfl, fun _ _ h => h⟩
    show ((accMax (s.maxErr i) 0 : ℤ) : ℝ) ≤ _
    rw [accMax_eq, Int.cast_max, max_le_iff]
    exact ⟨he i, by push_cast; linarith⟩
  · have hrun := h.run L hne hN hl
    obtain ⟨s1, h1, h2, h3, h4, a, h5⟩ := flush_lines R hM L hf hs hv hp h.cur hrun h.bend h.long h.start h.off he
    obtain ⟨sy, -⟩ := flush_later hs h1
    refine ⟨s1, [l], h1, h2, h3, h4, by simp, fun {s' n G T} hlat hkn hG => ?_⟩
    refine .cons (h5.mono (fun i => le_trans (by norm_num) (L.scale i)) ?_ (fun i τ hτ => ?_) (fun w τ hτ => ?_)) hG
    · apply mul_le_mul_of_nonneg_right
      · exact_mod_cast hkn
      · unfold gap; norm_num
    · refine hlat.past.acc i τ ?_
      cases i
      · exact hτ
      · have := sy.inv.2.1
        omega
    · exact hlat.past.weight w τ hτ

theorem lenTo_append (l : List (Vec × Vec)) (x : Vec × Vec) :
    lenTo (l ++ [x]) (l ++ [x]).length = lenTo l l.length + segLen x := by
  unfold lenTo
  rw [List.take_length, List.take_length, List.map_append, List.sum_append, List.map_singleton, List.sum_singleton]

theorem sumTo_append (l : List (Vec × Vec)) (x : Vec × Vec) (a : Axis) :
    sumTo (l ++ [x]) (l ++ [x]).length a = sumTo l l.length a + coord (x.2 - x.1) a := by
  unfold sumTo
  rw [List.take_length, List.take_length, List.map_append, List.sum_append, List.map_singleton, List.sum_singleton]

/-- One more line. -/
theorem Pending.add {fl : ℝ → ℝ} (R : FloatRounding fl) {M v : ℝ} {m : ℕ} (hm : 1 / 2 ^ 40 ≤ m * v) {s s' : Pen}
    {l : List (Vec × Vec)} {k : ℕ} (h : Pending fl M (m * v) s l k) {p : Vec} (hp : FloatPoint fl M p)
    (hd : m * v ≤ (p - s.current).length)
    (ht : ¬ turns fl s ((line fl (vsub fl p s.current)).value 0).2)
    (e1 : s'.current = p) (e2 : s'.start = s.start)
    (e3 : s'.prevDir = some ((line fl (vsub fl p s.current)).value (line fl (vsub fl p s.current)).length).2)
    (e4 : s'.curves = concatAdd fl s.curves (line fl (vsub fl p s.current))) :
    Pending fl M (m * v) s' (l ++ [(s.current, p)]) k := by
  have hlong : ∀ x ∈ l ++ [(s.current, p)], m * v ≤ segLen x := by
    intro x hx
    rcases List.mem_append.1 hx with hx | hx
    · exact h.long x hx
    · rw [List.mem_singleton] at hx
      subst hx
      exact hd
  refine ⟨?_, by simp, ?_, by rw [e2]; exact h.start, by rw [e1]; exact hp, hlong, ?_, ?_, ?_⟩
  · rw [e4, h.cur]
    unfold asLines
    rw [List.map_append, List.map_singleton, glue_append]
  · intro x hx
    simp only [List.getLast?_append, List.getLast?_singleton, Option.some_or, Option.mem_def, Option.some.injEq] at hx
    subst hx
    exact e3
  · intro i hi a
    by_cases hil : i + 1 < l.length
    · rw [List.getElem_append_left hil, List.getElem_append_left (by omega)]
      exact h.bend i hil a
    · have hl : i + 1 = l.length := by
        simp at hi
        omega
      have hi' : i < l.length := by omega
      have hx := h.dir l[i] (by
        rw [List.getLast?_eq_getElem?, show l.length - 1 = i by omega, List.getElem?_eq_getElem hi']
        rfl)
      have g1 : (l ++ [(s.current, p)])[i + 1] = (s.current, p) := by simp [hl]
      rw [g1, List.getElem_append_left hi']
      exact no_corner R (x := l[i]) (y := (s.current, p)) (hm.trans (h.long _ (List.getElem_mem hi'))) (hm.trans hd)
        (fun hlt => ht ⟨_, hx, hlt⟩) a
  · intro i hi a
    rw [e2]
    by_cases hil : i < l.length
    · have : sumTo (l ++ [(s.current, p)]) i a = sumTo l i a := by
        unfold sumTo
        rw [List.take_append_of_le_length hil.le]
      rw [this, List.getElem_append_left hil]
      exact h.off i hil a
    · have hl : i = l.length := by
        simp at hi
        omega
      subst hl
      have : sumTo (l ++ [(s.current, p)]) l.length a = sumTo l l.length a := by
        unfold sumTo
        rw [List.take_append_of_le_length le_rfl]
      have g1 : (l ++ [(s.current, p)])[l.length] = (s.current, p) := by simp
      rw [this, g1]
      exact h.ends a
  · intro a
    rw [e1, e2, sumTo_append]
    have : coord (p - s.current) a = coord p a - coord s.current a := by cases a <;> rfl
    show |coord s.start a + (sumTo l l.length a + coord (p - s.current) a) - coord p a| ≤ _
    rw [this, show coord s.start a + (sumTo l l.length a + (coord p a - coord s.current a)) - coord p a =
      coord s.start a + sumTo l l.length a - coord s.current a by ring]
    exact h.ends a

theorem Pending.first {fl : ℝ → ℝ} {M d : ℝ} {s : Pen} (h1 : s.curves = []) (h2 : s.prevDir = none)
    (h3 : s.start = s.current) (h4 : FloatPoint fl M s.current) : Pending fl M d s [] 0 := by
  refine ⟨h1, fun _ => h2, by simp, by rw [h3]; exact h4, h4, by simp, fun i hi => ?_, fun i hi => ?_, fun a => ?_⟩
  · simp at hi
  · simp at hi
  · simp [sumTo, h3]

theorem atMachine_some {fl : ℝ → ℝ} {e : Env} (s : Pen) {p : Vec} (h : ∀ i, |fl (coord p i * e.stepScale i)| ≤ 2 ^ 60) :
    ∃ b, atMachine fl e s p = some b := by
  unfold atMachine
  rw [toSteps_ok (x := p.x) (h .x), toSteps_ok (x := p.y) (h .y)]
  simp only [Option.bind_eq_bind, Option.bind_some, Option.pure_def]
  split
  · exact ⟨_, rfl⟩
  · exact ⟨_, rfl⟩

/-- What is shown of a path of lines, from a state of the pen on. -/
def LinesDone (fl : ℝ → ℝ) (e : Env) (aMax vMax : Axis → ℤ) (v S : ℝ) (t k : ℕ) (s : Pen) (l : List (Vec × Vec))
    (segs : List Seg) : Prop :=
  ∃ s' segs' n ll G, finish fl e v segs s = some s' ∧
    Omit (FloatVisited fl e s'.ctx.events t (s'.ctx.channels .x).ticks) segs segs' ∧
    FloatIntended e s.current segs' n ll ∧ G.flatten = l ++ ll.map lineOf ∧
    FloatRuns e v S ((k + n : ℕ) * gap) s.ctx.curveWeight aMax vMax s'.ctx.events (s.ctx.channels .x).ticks G
      (s'.ctx.channels .x).ticks ∧
    (∀ i, (s'.maxErr i : ℝ) ≤ 383 / 100 * S + 1) ∧ ∀ i, |(s'.ctx.channels i).v| ≤ vMax i

/-- The pen after a line from `c` to `p`. -/
noncomputable def withLine (fl : ℝ → ℝ) (s : Pen) (start c p : Vec) : Pen :=
  { s with
    current := p, start := start,
    prevDir := some ((line fl (vsub fl p c)).value (line fl (vsub fl p c)).length).2,
    curves := concatAdd fl s.curves (line fl (vsub fl p c)) }

theorem finish_lines {fl : ℝ → ℝ} (R : FloatRounding fl) {e : Env} {aMax vMax : Axis → ℤ} (hM : Machine aMax vMax)
    {v S M : ℝ} {N m : ℕ} (L : FloatLimits e aMax vMax v S M N m) (hf : Searches e) {segs : List Seg} {s : Pen}
    {l : List (Vec × Vec)} {k t : ℕ} {B : ℝ} (ht : t ≤ (s.ctx.channels .x).ticks)
    (hs : Sync aMax vMax s.ctx) (hv : ∀ i, |(s.ctx.channels i).v| ≤ vMax i)
    (hp : ∀ i, |((s.ctx.channels i).pos : ℝ)| ≤ 2 * M * e.stepScale i + 4 * S + 2)
    (he : ∀ i, (s.maxErr i : ℝ) ≤ 383 / 100 * S + 1) (h : Pending fl M (m * v) s l k)
    (hN : l.length + segs.length ≤ N) (hB : lenTo l l.length + B ≤ M) (hB0 : 0 ≤ B)
    (hF : FloatLines fl M (m * v) B s.current segs) : LinesDone fl e aMax vMax v S t k s l segs := by
  have hgap : (0 : ℝ) ≤ gap := by unfold gap; norm_num
  have hg : ∀ i, 0 ≤ e.stepScale i := fun i => le_trans (by norm_num) (L.scale i)
  have hvp : 0 < v := lt_of_lt_of_le (by norm_num) L.tiny
  have hmv : 1 / 2 ^ 40 ≤ m * v := by
    have : (2 : ℝ) ≤ m := by exact_mod_cast L.two
    have := mul_le_mul_of_nonneg_right this hvp.le
    have := L.tiny
    linarith
  have cast_le : ∀ {a b : ℕ}, a ≤ b → (a : ℝ) * gap ≤ b * gap := fun hab =>
    mul_le_mul_of_nonneg_right (by exact_mod_cast hab) hgap
  induction segs generalizing s l k B with
  | nil =>
    obtain ⟨s1, G0, h1, h2, h3, h4, h5, h6⟩ := flush_pending R hM L hf hs hv hp he h (by simpa using hN) (by linarith)
    obtain ⟨sy, hl⟩ := flush_later hs h1
    refine ⟨s1, [], 0, [], G0, h1, .nil, .nil _, by simp [h5], ?_, h4, h2⟩
    have := h6 (s' := s1) (n := k + 0) (G := []) (T := (s1.ctx.channels .x).ticks)
      ⟨Past.refl _, fun _ => le_rfl, [], by simp⟩ le_rfl (.nil _)
    simpa using this
  | cons seg segs ih =>
    have hlen : (seg :: segs).length = segs.length + 1 := rfl
    rw [hlen] at hN
    -- a line
    have common : ∀ p, step fl e v s seg = add fl e v s (line fl (vsub fl p s.current)) p →
        FloatDraws s.current seg → FloatEnd e s.current seg p → lineOf (s.current, seg) = (s.current, p) →
        FloatPoint fl M p → m * v ≤ (p - s.current).length → (p - s.current).length ≤ B →
        FloatLines fl M (m * v) (B - (p - s.current).length) p segs →
        LinesDone fl e aMax vMax v S t k s l (seg :: segs) := by
      intro p hst hdraws hend hlo hpp hd1 hd2 hF'
      by_cases htu : turns fl s ((line fl (vsub fl p s.current)).value 0).2
      · obtain ⟨s1, G0, h1, h2, h3, h4, h5, h6⟩ := flush_pending R hM L hf hs hv hp he h (by omega) (by linarith)
        obtain ⟨sy, hl⟩ := flush_later hs h1
        obtain ⟨err, -, h7⟩ := flush_eq h1
        have hadd : add fl e v s (line fl (vsub fl p s.current)) p = some
            (withLine fl s1 s1.current s.current p) := by
          unfold add
          rw [if_pos htu, h1]
          rfl
        have e1 : s1.current = s.current := by rw [h7]
        have e2 : s1.curves = [] := by rw [h7]
        have here : FloatPoint fl M s1.current := by
          rw [e1]
          exact h.here
        have hd1' : m * v ≤ (p - s1.current).length := by
          rw [e1]
          exact hd1
        have hf0 : Pending fl M (m * v) { s1 with start := s1.current, prevDir := none } [] 0 :=
          Pending.first e2 rfl rfl here
        have hP := hf0.add R hmv (p := p) hpp hd1' (by rintro ⟨d, hd, -⟩; cases hd)
          (s' := (withLine fl s1 s1.current s.current p)) rfl rfl
          (by simp only [withLine, e1]) (by simp only [withLine, e1])
        have hP' : Pending fl M (m * v) (withLine fl s1 s1.current s.current p) [(s.current, p)] 0 := by
          have : [] ++ [(s1.current, p)] = [(s.current, p)] := by rw [e1]; rfl
          rw [← this]
          exact hP
        obtain ⟨s', segs', n, ll, G, q1, q2, q3, q4, q5, q6, q7⟩ := ih (B := B - (p - s.current).length)
          (s := withLine fl s1 s1.current s.current p) (ht.trans hl.past.ticks) sy h2 h3 h4 hP' (by simp; omega) (by
            have := lenTo_append [] (s.current, p)
            rw [List.nil_append] at this
            rw [this]
            have h0 : lenTo ([] : List (Vec × Vec)) ([] : List (Vec × Vec)).length = 0 := rfl
            have h1 := lenTo_nonneg l le_rfl
            rw [h0]
            show 0 + (p - s.current).length + (B - (p - s.current).length) ≤ M
            linarith) (by linarith) hF'
        obtain ⟨-, hlat⟩ := finish_later (s := (withLine fl s1 s1.current s.current p)) sy q1
        refine ⟨s', seg :: segs', n, (s.current, seg) :: ll, G0 ++ G, finish_cons.2 ⟨_, hst.trans hadd, q1⟩, .keep _ q2,
          .draw hdraws hend q3, ?_, ?_, q6, q7⟩
        · simp [h5, q4, hlo]
        · refine h6 (n := k + n) ⟨hlat.past, hlat.err, hlat.drawn⟩ (by omega) ?_
          refine FloatRuns.later hg (cast_le (a := 0 + n) (b := k + n) (by omega)) ?_
          rw [← hl.past.cw]
          exact q5
      · have hadd : add fl e v s (line fl (vsub fl p s.current)) p = some
            (withLine fl s s.start s.current p) := by
          unfold add
          rw [if_neg htu]
          rfl
        have hP := h.add R hmv hpp hd1 htu
          (s' := (withLine fl s s.start s.current p)) rfl rfl rfl rfl
        obtain ⟨s', segs', n, ll, G, q1, q2, q3, q4, q5, q6, q7⟩ := ih (B := B - (p - s.current).length)
          (s := withLine fl s s.start s.current p) ht hs hv hp he hP
          (by simp; omega) (by
            rw [lenTo_append]
            show lenTo l l.length + (p - s.current).length + (B - (p - s.current).length) ≤ M
            linarith) (by linarith) hF'
        refine ⟨s', seg :: segs', n, (s.current, seg) :: ll, G, finish_cons.2 ⟨_, hst.trans hadd, q1⟩, .keep _ q2,
          .draw hdraws hend q3, ?_, q5, q6, q7⟩
        simp [q4, hlo]
    cases seg with
    | goTo p =>
      obtain ⟨hpp, hF1, hF2⟩ := hF
      have hM0 : 0 ≤ M := (abs_nonneg _).trans (hpp .x).1
      obtain ⟨b, hb⟩ := atMachine_some (fl := fl) (e := e) s (p := p) (by
        intro i
        have h1 := M_scale L (by omega) hM0 i
        have h2 : |coord p i * e.stepScale i| ≤ 2 ^ 39 := by
          rw [abs_mul, abs_of_nonneg (hg i)]
          exact (mul_le_mul_of_nonneg_right (hpp i).1 (hg i)).trans h1
        have h3 := R.rel h2 (by norm_num)
        obtain ⟨a1, a2⟩ := abs_le.1 h2
        obtain ⟨b1, b2⟩ := abs_le.1 h3
        norm_num at *
        rw [abs_le]; constructor <;> linarith)
      cases b with
      | true =>
        have hst : step fl e v s (.goTo p) = some { s with skipped := s.skipped ++ [(p, s.current)] } := by
          show goTo fl e v s p = _
          unfold goTo
          rw [hb]
          rfl
        have hP : Pending fl M (m * v) { s with skipped := s.skipped ++ [(p, s.current)] } l k :=
          ⟨h.cur, h.nodir, h.dir, h.start, h.here, h.long, h.bend, h.off, h.ends⟩
        obtain ⟨s', segs', n, ll, G, q1, q2, q3⟩ := ih (s := { s with skipped := s.skipped ++ [(p, s.current)] }) ht hs hv hp he hP
          (by omega) hB hB0 hF2
        refine ⟨s', segs', n, ll, G, finish_cons.2 ⟨_, hst, q1⟩, .skip ?_ q2, q3⟩
        obtain ⟨-, hl⟩ := finish_later (s := { s with skipped := s.skipped ++ [(p, s.current)] }) hs q1
        refine ⟨_, ht, hl.past.ticks, fun i => ?_⟩
        have e1 : (s.ctx.channels .x).ticks = (s.ctx.channels i).ticks := by
          cases i
          · rfl
          · exact hs.inv.2.1
        rw [← atMachine_true hb i, hs.reach.inv.2.1.pos i, e1]
        unfold posAt
        rw [played_congr (fun τ hτ => hl.past.acc i τ hτ)]
      | false =>
        obtain ⟨s1, G0, h1, h2, h3, h4, h5, h6⟩ := flush_pending R hM L hf hs hv hp he h (by omega) (by linarith)
        obtain ⟨sy, hl⟩ := flush_later hs h1
        obtain ⟨err, -, h7⟩ := flush_eq h1
        have e2 : s1.curves = [] := by rw [h7]
        have hst : step fl e v s (.goTo p) = some { s1 with current := p, start := p, prevDir := none } := by
          show goTo fl e v s p = _
          unfold goTo
          rw [hb]
          simp [h1]
        have hP : Pending fl M (m * v) { s1 with current := p, start := p, prevDir := none } [] 0 :=
          Pending.first e2 rfl rfl hpp
        obtain ⟨s', segs', n, ll, G, q1, q2, q3, q4, q5, q6, q7⟩ := ih (B := B)
          (s := { s1 with current := p, start := p, prevDir := none })
          (ht.trans hl.past.ticks) sy h2 h3 h4 hP (by simp; omega) (by
            have h0 : lenTo ([] : List (Vec × Vec)) ([] : List (Vec × Vec)).length = 0 := rfl
            have := lenTo_nonneg l le_rfl
            rw [h0]
            linarith) hB0 hF1
        obtain ⟨-, hlat⟩ := finish_later (s := { s1 with current := p, start := p, prevDir := none }) sy q1
        refine ⟨s', .goTo p :: segs', n, ll, G0 ++ G, finish_cons.2 ⟨_, hst, q1⟩, .keep _ q2, .move q3, ?_, ?_, q6, q7⟩
        · simp [h5, q4]
        · refine h6 (n := k + n) ⟨hlat.past, hlat.err, hlat.drawn⟩ (by omega) ?_
          refine FloatRuns.later hg (cast_le (a := 0 + n) (b := k + n) (by omega)) ?_
          rw [← hl.past.cw]
          exact q5
    | lineTo p =>
      obtain ⟨a1, a2, a3, a4⟩ := hF
      exact common p rfl trivial rfl rfl a1 a2 a3 a4
    | closeTo p =>
      obtain ⟨a1, ⟨b1, b2⟩ | ⟨b1, b2, b3, b4⟩⟩ := hF
      · have hsh : vlength fl (vsub fl s.current p) < fl (1 / 1000000) := by
          by_contra hc
          exact absurd ((short_cases R s.current p).2 hc) (not_le.2 b1)
        have hst : step fl e v s (.closeTo p) = some { s with current := p } := by
          simp only [step]
          rw [if_pos hsh]
        have hgap' : (s.current - p).length ≤ gap := (short_cases R s.current p).1 hsh
        have e1 : ((k + 1 : ℕ) : ℝ) * gap = k * gap + gap := by push_cast; ring
        have hP : Pending fl M (m * v) { s with current := p } l (k + 1) := by
          refine ⟨h.cur, h.nodir, h.dir, h.start, a1, h.long, h.bend, fun i hi a => ?_, fun a => ?_⟩
          · exact (h.off i hi a).trans (cast_le (Nat.le_succ k))
          · have h1 := h.ends a
            have h2 := (le_length (s.current - p) a).trans hgap'
            have h3 : coord (s.current - p) a = coord s.current a - coord p a := by cases a <;> rfl
            rw [h3] at h2
            obtain ⟨x1, x2⟩ := abs_le.1 h1
            obtain ⟨y1, y2⟩ := abs_le.1 h2
            show |coord s.start a + sumTo l l.length a - coord p a| ≤ _
            rw [e1, abs_le]
            constructor <;> linarith
        obtain ⟨s', segs', n, ll, G, q1, q2, q3, q4, q5, q6, q7⟩ := ih (s := { s with current := p }) ht hs hv hp he hP
          (by omega) hB hB0 b2
        refine ⟨s', .closeTo p :: segs', n + 1, ll, G, finish_cons.2 ⟨_, hst, q1⟩, .keep _ q2, .short hgap' q3, q4, ?_, q6, q7⟩
        rw [show k + (n + 1) = k + 1 + n by omega]
        exact q5
      · have hsh : ¬ vlength fl (vsub fl s.current p) < fl (1 / 1000000) := by
          intro hc
          exact absurd ((short_cases R s.current p).1 hc) (not_le.2 b1)
        have hst : step fl e v s (.closeTo p) = add fl e v s (line fl (vsub fl p s.current)) p := by
          simp only [step]
          rw [if_neg hsh]
          rfl
        exact common p hst ((short_cases R s.current p).2 hsh) rfl rfl a1 b2 b3 b4
    | curveTo p c1 c2 => exact absurd hF (by simp [FloatLines])
    | arc rx ry a b r => exact absurd hF (by simp [FloatLines])

end StepperPaths.Rounded
