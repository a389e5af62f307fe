import Verif.Proof.Double
import Verif.Proof.RoundedReturns

/-! Drawing with rounded arithmetic (C90). -/

namespace StepperPaths.Props
open StepperPaths Coords Curves Context IntegerCurve Draw Spec Rounded

/-! ### FloatRounding -/

/-- C90: rounding to the nearest `f64` is a rounding as it is assumed below. -/
theorem C90_double : FloatRounding double :=
  ⟨double_near, fun n h => by simpa using double_exact (k := n) (j := 0) h (by norm_num), double_idem⟩

/-- The `f64` constant `0.1`. -/
example : double (1 / 10) = 3602879701896397 / 2 ^ 55 := by
  have hl : Int.log 2 |(1 / 10 : ℝ)| = -4 := by
    rw [abs_of_pos (by norm_num)]
    have h1 := (Int.zpow_le_iff_le_log (b := 2) (by norm_num) (x := -4) (r := (1 / 10 : ℝ)) (by norm_num)).1
      (by norm_num)
    have h2 := (Int.lt_zpow_iff_log_lt (b := 2) (by norm_num) (x := -3) (r := (1 / 10 : ℝ)) (by norm_num)).1
      (by norm_num)
    omega
  have hf : ⌊(1 / 10 : ℝ) / 2 ^ ((-4 : ℤ) - 52)⌋ = 7205759403792793 := by
    rw [Int.floor_eq_iff]
    norm_num
  have hf' : ⌊(1 / 10 : ℝ) / 2 ^ ((-4 : ℤ) - 52) + 1 / 2⌋ = 7205759403792794 := by
    rw [Int.floor_eq_iff]
    norm_num
  unfold double nearestEven
  simp only [hl, show max (-4 : ℤ) (-1022) = -4 by norm_num]
  rw [if_neg (by unfold Int.fract; rw [hf]; norm_num), hf']
  norm_num

/-! ### `approx_curve` -/

/-- C90: what C88 says of exact arithmetic also holds with rounding, for the computed points of any
curve: the position stays within `3.83·S` steps, for up to `2^31` ticks, and the acceleration is at
most `3.02·S`. -/
theorem C90_follow (fl : ℝ → ℝ) (R : FloatRounding fl) (aMax vMax : Axis → ℤ) (e : Rounded.Env) (c c' : Ctx)
    (start : Vec) (curve : Curve) (v S : ℝ) (err : Axis → ℤ) (i : Axis) (h : Reach aMax vMax c)
    (hg : FloatSmooth (floatPos fl e start curve v i) (floatVel fl e curve v i) (Rounded.approxSteps fl curve v)
      (aMax i) (vMax i) S)
    (hp0 : |floatPos fl e start curve v i 0 - ((c.channels i).pos : ℝ)| ≤ 3 / 2)
    (hv0 : |floatVel fl e curve v i 0 - ((c.channels i).v : ℝ)| ≤ 1 / 2)
    (hr : Rounded.approxCurve fl e c start curve v = some (c', err)) :
    Spec.FloatFollows (floatPos fl e start curve v i) (floatVel fl e curve v i) (Rounded.approxSteps fl curve v) i
      c'.events (c.channels i).ticks S := by
  have h1 := hg.one
  refine approxCurve_follows R h hg.one hg.big hg.acc hg.small hg.speed (fun k _ hk => hg.moves k hk)
    (fun k _ hk => hg.turns k hk) (fun h0 => ?_) (fun h0 => ?_) hr
  · obtain ⟨a1, a2⟩ := abs_le.1 (hg.moves 0 h0)
    obtain ⟨b1, b2⟩ := abs_le.1 hp0
    obtain ⟨d1, d2⟩ := abs_le.1 hv0
    rw [abs_le]
    constructor <;> linarith
  · obtain ⟨a1, a2⟩ := abs_le.1 (hg.turns 0 h0)
    obtain ⟨d1, d2⟩ := abs_le.1 hv0
    rw [abs_le]
    constructor <;> linarith

/-- Speeding up by a quarter of a half step per tick, with points rounded to multiples of 1/8. -/
example (P : ℕ → ℝ) (hP : ∀ k, |P k - (k : ℝ) ^ 2 / 4| ≤ 1 / 8) :
    FloatSmooth P (fun k => (k : ℝ) / 4) 300 10 100 1 := by
  have hk : ∀ k : ℕ, k < 300 → (k : ℝ) ≤ 299 := by
    intro k hk
    have : k ≤ 299 := by omega
    exact_mod_cast this
  refine ⟨le_rfl, by norm_num, by norm_num, ?_, ?_, ?_, ?_⟩
  · intro k h
    obtain ⟨a1, a2⟩ := abs_le.1 (hP (k + 1))
    push_cast at a1 a2
    have := hk k h
    have h0 : (0 : ℝ) ≤ k := by positivity
    rw [abs_le]
    constructor <;> nlinarith
  · intro k _
    obtain ⟨a1, a2⟩ := abs_le.1 (hP (k + 1))
    obtain ⟨b1, b2⟩ := abs_le.1 (hP k)
    push_cast at a1 a2
    rw [abs_le]
    constructor <;> nlinarith
  · intro k _
    push_cast
    rw [abs_le]
    constructor <;> linarith
  · intro k h
    have := hk k h
    have h0 : (0 : ℝ) ≤ k := by positivity
    push_cast
    rw [abs_of_nonneg (by positivity)]
    linarith

/-! ### `draw_curves` -/

/-- C90: the timeline of C67, with rounding: each stroke is preceded by a move to its start with the
laser off and within the limits, the laser is on during exactly the ticks of the stroke, the speed
limits are kept at every tick, after every tick the machine is as close to the computed point as the
returned error says, which is reached at some tick, and a smooth curve is followed closely.  At the
end the laser is off. -/
theorem C90_timeline (fl : ℝ → ℝ) (R : FloatRounding fl) (aMax vMax : Axis → ℤ) (e : Rounded.Env) (c c' : Ctx)
    (h : Sync aMax vMax c) (ha : ∀ i, 1 ≤ aMax i) (hv : ∀ i, 1 ≤ vMax i ∧ vMax i ≤ 2 ^ 59)
    (hc : ∀ i, |(c.channels i).v| ≤ vMax i) (segs : List Seg) (hne : segs ≠ []) (v : ℝ) (err : Axis → ℤ)
    (hr : Rounded.drawCurves fl e c segs v = some (c', err)) (t t' : ℕ) (ht : c.ticks = some t)
    (ht' : c'.ticks = some t')
    (hp : ∀ i, |(c.channels i).pos| + 2 * vMax i * (t' - t : ℤ) ≤ 2 ^ 61)
    (hst : ∀ s, Rounded.drawPen fl e c segs v = some s → ∀ st ∈ s.drawn, st.2 ≠ [] →
      ∀ i, |fl (coord st.1 i * e.stepScale i)| ≤ 2 ^ 60 ∧
        |floatVel fl e (Rounded.concatInfo fl e st.2) v i 0| + 1 / 2 ≤ vMax i) :
    ∃ s, Rounded.drawPen fl e c segs v = some s ∧
      FloatTimeline fl e v c.curveWeight aMax vMax c'.events err t (strokes s.drawn) t' ∧
      (∀ i, err i = 0 ∨ FloatWorst fl e v c.curveWeight aMax vMax c'.events err t (strokes s.drawn) t' i) ∧
      (∀ w τ, t' ≤ τ → weightAt w c'.events τ = 0) ∧
      (∀ τ < t, (∀ w, weightAt w c'.events τ = weightAt w c.events τ) ∧
        ∀ i, accAt i c'.events τ = accAt i c.events τ) ∧
      Sync aMax vMax c' := by
  unfold Rounded.drawCurves at hr
  rw [if_neg (by simpa using hne)] at hr
  obtain ⟨s, hs, hr⟩ := Option.bind_eq_some_iff.1 hr
  obtain ⟨c1, h1, hr⟩ := Option.bind_eq_some_iff.1 hr
  cases hr
  have hs' : Rounded.finish fl e v segs (Rounded.init fl e c) = some s := hs
  obtain ⟨hsy, hl⟩ := Rounded.finish_later (s := Rounded.init fl e c) h hs'
  obtain ⟨q1, q2, q3, q4, q5, q6, q7⟩ := weight_now hsy h1
  have et : (c.channels .x).ticks = t := (ticks_some.1 ht).1
  have et' : (s.ctx.channels .x).ticks = t' := by rw [← q2]; exact (ticks_some.1 ht').1
  have hd : ∀ st ∈ s.drawn, st.2 ≠ [] →
      ∀ i, |Rounded.stepV fl e ((Rounded.concatInfo fl e st.2).value 0).2 v i| + 1 / 2 ≤ vMax i := by
    intro st hst1 hst2 i
    have := (hst s hs st hst1 hst2 i).2
    unfold floatVel at this
    rw [Nat.cast_zero, zero_mul, R.zero] at this
    exact this
  obtain ⟨l, e1, htl, hwo⟩ := Rounded.finish_timeline R (s := Rounded.init fl e c) h ha (fun i => (hv i).1)
    (fun i => (hv i).2) hc hs' (by simp only [Rounded.init]; rw [et, et']; exact hp)
    (fun st h1 h2 i => (hst s hs st h1 h2 i).1) hd
  have e2 : s.drawn = l := by simpa [Rounded.init] using e1
  rw [← e2] at htl hwo
  simp only [Rounded.init] at htl hwo
  rw [et, et'] at htl hwo
  have em : s.ctx.moveWeight = 0 := hsy.reach.inv.2.2.2.2
  refine ⟨s, hs, ?_, ?_, ?_, ?_, q1⟩
  · -- the last weight change leaves the time before as it is
    have key : ∀ {a b : ℕ} {ss : List (Vec × Concat)},
        FloatTimeline fl e v c.curveWeight aMax vMax s.ctx.events s.maxErr a ss b → a ≤ b ∧
        (b ≤ t' → FloatTimeline fl e v c.curveWeight aMax vMax c'.events s.maxErr a ss b) := by
      intro a b ss hh
      induction hh with
      | nil t => exact ⟨le_rfl, fun _ => .nil t⟩
      | cons S _ ih =>
        refine ⟨by have := S.move; have := S.len; have := ih.1; omega, fun hle => ?_⟩
        have := ih.1
        refine .cons (FloatStroke.mono S (fun i τ _ => q6 i τ) (fun w τ hτ => ?_) (fun _ => le_rfl)) (ih.2 hle)
        rw [q7, if_pos (by omega)]
    exact (key htl).2 le_rfl
  · intro i
    rcases hwo i le_rfl with h0 | ⟨t1, a, b, st, k, w1, w2, w3, w4, w5, w6⟩
    · exact .inl h0
    · refine .inr ⟨t1, a, b, st, k, w1, w2, w3, FloatStroke.mono w4 (fun i τ _ => q6 i τ) (fun w τ hτ => ?_)
        (fun _ => le_rfl), w5, ?_⟩
      · rw [q7, if_pos (by omega)]
      · rw [← w6]
        unfold posAt
        rw [played_congr (fun τ _ => q6 i τ)]
  · intro w τ hτ
    rw [q7, if_neg (by omega), em]
  · intro τ hτ
    constructor
    · intro w
      rw [q7, if_pos (by have := hl.past.ticks; simp only [Rounded.init] at this; omega)]
      exact hl.past.weight w τ (by simp only [Rounded.init]; omega)
    · intro i
      rw [q6]
      refine hl.past.acc i τ ?_
      simp only [Rounded.init]
      cases i
      · omega
      · have := (ticks_some.1 ht).2
        omega

/-- When all strokes are smooth. -/
theorem smooth_timeline {fl : ℝ → ℝ} {e : Rounded.Env} {v : ℝ} {w : ℤ} {aMax vMax : Axis → ℤ} {es : List Event}
    {err : Axis → ℤ} {t t' : ℕ} {ss : List (Vec × Concat)} {i : Axis} {S : ℝ} (hS : 0 ≤ S)
    (htl : FloatTimeline fl e v w aMax vMax es err t ss t')
    (hw : err i = 0 ∨ FloatWorst fl e v w aMax vMax es err t ss t' i)
    (mem : ∀ st ∈ ss, FloatSmooth (floatPos fl e st.1 (Rounded.concatInfo fl e st.2) v i)
        (floatVel fl e (Rounded.concatInfo fl e st.2) v i)
        (Rounded.approxSteps fl (Rounded.concatInfo fl e st.2) v) (aMax i) (vMax i) S ∧
      floatPos fl e st.1 (Rounded.concatInfo fl e st.2) v i 0 = fl (coord st.1 i * e.stepScale i)) :
    (err i : ℝ) ≤ 383 / 100 * S + 1 ∧ ∀ τ, t ≤ τ → τ < t' → |accAt i es τ| ≤ aMax i := by
  constructor
  · rcases hw with h0 | ⟨t1, a, b, st, k, -, -, hm, hstr, hk, hk'⟩
    · rw [h0]
      push_cast
      linarith
    · have h1 := (hstr.smooth i S (mem st hm).1 (mem st hm).2 k hk).1
      have h2 := Tracking.trunc_near (floatPos fl e st.1 (Rounded.concatInfo fl e st.2) v i (k + 1))
      rw [← hk']
      push_cast
      rw [abs_sub_comm] at h2
      have h3 := abs_add_le ((posAt i es (a + (k + 1)) : ℝ) -
        floatPos fl e st.1 (Rounded.concatInfo fl e st.2) v i (k + 1))
        (floatPos fl e st.1 (Rounded.concatInfo fl e st.2) v i (k + 1) -
          trunc (floatPos fl e st.1 (Rounded.concatInfo fl e st.2) v i (k + 1)))
      rw [sub_add_sub_cancel] at h3
      linarith
  · clear hw
    induction htl with
    | nil t =>
      intro τ h1 h2
      omega
    | @cons t a b T st ss hstr _ ih =>
      intro τ h1 h2
      by_cases h3 : τ < a
      · exact hstr.acc i τ h1 h3
      · by_cases h4 : τ < b
        · have hlen := hstr.len
          have hm := mem st (by simp)
          have := (hstr.smooth i S hm.1 hm.2 (τ - a) (by omega)).2.2
          rw [show a + (τ - a) = τ by omega] at this
          have h5 := this.trans hm.1.acc
          exact_mod_cast h5
        · exact ih (fun st hst => mem st (by simp [hst])) τ (by omega) h2

/-- C90: when all strokes are smooth for an axis, the reported error is at most `3.83·S + 1`, and the
axis keeps its acceleration limit at every tick of the drawing. -/
theorem C90_drawing (fl : ℝ → ℝ) (R : FloatRounding fl) (aMax vMax : Axis → ℤ) (e : Rounded.Env) (c c' : Ctx)
    (h : Sync aMax vMax c) (ha : ∀ i, 1 ≤ aMax i) (hv : ∀ i, 1 ≤ vMax i ∧ vMax i ≤ 2 ^ 59)
    (hc : ∀ i, |(c.channels i).v| ≤ vMax i) (segs : List Seg) (hne : segs ≠ []) (v : ℝ) (err : Axis → ℤ)
    (hr : Rounded.drawCurves fl e c segs v = some (c', err)) (t t' : ℕ) (ht : c.ticks = some t)
    (ht' : c'.ticks = some t')
    (hp : ∀ i, |(c.channels i).pos| + 2 * vMax i * (t' - t : ℤ) ≤ 2 ^ 61)
    (hst : ∀ s, Rounded.drawPen fl e c segs v = some s → ∀ st ∈ s.drawn, st.2 ≠ [] →
      ∀ i, |fl (coord st.1 i * e.stepScale i)| ≤ 2 ^ 60 ∧
        |floatVel fl e (Rounded.concatInfo fl e st.2) v i 0| + 1 / 2 ≤ vMax i) (i : Axis) (S : ℝ) (hS : 0 ≤ S)
    (hg : ∀ s, Rounded.drawPen fl e c segs v = some s → ∀ st ∈ s.drawn, st.2 ≠ [] →
      FloatSmooth (floatPos fl e st.1 (Rounded.concatInfo fl e st.2) v i)
        (floatVel fl e (Rounded.concatInfo fl e st.2) v i)
        (Rounded.approxSteps fl (Rounded.concatInfo fl e st.2) v) (aMax i) (vMax i) S ∧
      floatPos fl e st.1 (Rounded.concatInfo fl e st.2) v i 0 = fl (coord st.1 i * e.stepScale i)) :
    (err i : ℝ) ≤ 383 / 100 * S + 1 ∧ ∀ τ, t ≤ τ → τ < t' → |accAt i c'.events τ| ≤ aMax i := by
  obtain ⟨s, hs, htl, hw, -⟩ := C90_timeline fl R aMax vMax e c c' h ha hv hc segs hne v err hr t t' ht ht' hp hst
  refine smooth_timeline hS htl (hw i) (fun st h1 => ?_)
  obtain ⟨h1, h2⟩ := List.mem_filter.1 h1
  exact hg s hs st h1 (by simpa using h2)

/-! ### A line -/

/-- The machine is where the path begins. -/
theorem start_near {fl : ℝ → ℝ} (R : FloatRounding fl) {x : ℤ} {g : ℝ} (hx : |x| ≤ 2 ^ 28) (hg : 0 < g) (hg' : g ≤ 2 ^ 80) :
    |fl (fl x / g) * g - x| ≤ 1 / 2 ^ 22 ∧ |fl (fl (fl x / g) * g) - x| ≤ 1 / 2 ^ 22 := by
  rw [R.int x (hx.trans (by norm_num))]
  have hx' : |(x : ℝ)| ≤ 2 ^ 28 := by exact_mod_cast hx
  have h0 := abs_nonneg (x : ℝ)
  have e1 := R.rel (x := x / g) (M := (|(x : ℝ)| + 1) / g) (by
      rw [abs_div, abs_of_pos hg]
      gcongr
      linarith) (by
      rw [le_div_iff₀ hg]
      refine le_trans (mul_le_mul_of_nonneg_left hg' (by norm_num)) ?_
      refine le_trans ?_ (show 1 ≤ |(x : ℝ)| + 1 by linarith)
      norm_num)
  have e2 : |fl (x / g) * g - x| ≤ (|(x : ℝ)| + 1) / 2 ^ 52 := by
    have := mul_le_mul_of_nonneg_right e1 hg.le
    rw [← abs_of_pos hg, ← abs_mul, abs_of_pos hg, sub_mul, div_mul_cancel₀ _ hg.ne'] at this
    refine this.trans (le_of_eq ?_)
    field_simp
  obtain ⟨a1, a2⟩ := abs_le.1 e2
  obtain ⟨b1, b2⟩ := abs_le.1 (le_refl |(x : ℝ)|)
  have e3 := R.rel (x := fl (x / g) * g) (M := 2 * (|(x : ℝ)| + 1)) (by rw [abs_le]; constructor <;> linarith)
    (le_trans (by norm_num) (show 1 ≤ 2 * (|(x : ℝ)| + 1) by linarith))
  obtain ⟨c1, c2⟩ := abs_le.1 e3
  constructor <;> (rw [abs_le]; constructor <;> linarith)

/-- C90: with rounding, a line is drawn as it should be: `draw_curves` returns, the line takes as
many ticks as its length and the speed say, the laser is on during exactly these ticks, and after
every tick the machine is within `3.84·S` steps of the point that divides the line from the old
position to `p` as the time is divided.  The reported error is at most `3.83·S + 1`, and all
limits are kept at every tick. -/
theorem C90_line (fl : ℝ → ℝ) (R : FloatRounding fl) (aMax vMax : Axis → ℤ) (hM : Machine aMax vMax) (e : Rounded.Env)
    (c : Ctx) (h : Sync aMax vMax c) (hc : ∀ i, |(c.channels i).v| ≤ vMax i)
    (hp : ∀ i, |(c.channels i).pos| ≤ 2 ^ 28) (p : Vec) (v S : ℝ) (t : ℕ) (ht : c.ticks = some t)
    (hl : ∀ i, FloatLine e (floatStart fl e c) p v S i (aMax i) (vMax i)) :
    ∃ c' err a n, Rounded.drawCurves fl e c [.lineTo p] v = some (c', err) ∧ t < a ∧ c'.ticks = some (a + n) ∧
      |(n : ℝ) - (p - floatStart fl e c).length / v| ≤ 1 / 2 + 1 / 2 ^ 18 ∧
      (∀ w0 τ, t ≤ τ → weightAt w0 c'.events τ = if a ≤ τ ∧ τ < a + n then c.curveWeight else 0) ∧
      ∀ i, (∀ k < n, |(posAt i c'.events (a + (k + 1)) : ℝ) - ((c.channels i).pos +
          (coord p i * e.stepScale i - (c.channels i).pos) * ((k + 1 : ℕ) / n))| ≤ 384 / 100 * S) ∧
        (err i : ℝ) ≤ 383 / 100 * S + 1 ∧
        ∀ τ, t ≤ τ → τ < a + n → |accAt i c'.events τ| ≤ aMax i ∧ |velAt i c'.events (τ + 1)| ≤ vMax i := by
  set s := floatStart fl e c with hs
  set K := Rounded.concatAdd fl [] (Rounded.line fl (Rounded.vsub fl p s)) with hK
  have hKne : K ≠ [] := by simp [hK, Rounded.concatAdd]
  have hg : ∀ i, 0 < e.stepScale i ∧ e.stepScale i ≤ 2 ^ 80 := by
    intro i
    have hi := hl i
    have h0 : 0 < e.stepScale i := lt_of_lt_of_le (by norm_num) hi.scale
    refine ⟨h0, ?_⟩
    have h1 : 1 / 2 ^ 40 * e.stepScale i ≤ ((p - s).length + |coord s i|) * e.stepScale i :=
      mul_le_mul_of_nonneg_right (by have := hi.long; have := abs_nonneg (coord s i); linarith) h0.le
    have h2 := h1.trans hi.range
    have h3 : e.stepScale i ≤ 2 ^ 71 := by linarith
    exact h3.trans (by norm_num)
  have hst : ∀ i, |coord s i * e.stepScale i - (c.channels i).pos| ≤ 1 / 2 ^ 22 ∧
      |fl (coord s i * e.stepScale i) - (c.channels i).pos| ≤ 1 / 2 ^ 22 := by
    intro i
    have := start_near R (hp i) (hg i).1 (hg i).2
    cases i <;> exact this
  have hpr : ∀ i, |((c.channels i).pos : ℝ)| ≤ 2 ^ 28 := fun i => by exact_mod_cast hp i
  have hs60 : ∀ i, |fl (coord s i * e.stepScale i)| ≤ 2 ^ 60 := by
    intro i
    obtain ⟨a1, a2⟩ := abs_le.1 (hst i).2
    obtain ⟨b1, b2⟩ := abs_le.1 (hpr i)
    rw [abs_le]
    constructor <;> linarith
  have hsf : ∀ i, fl (coord s i) = coord s i := by
    intro i
    cases i <;> exact R.idem _
  have hLne : Rounded.vlength fl (Rounded.vsub fl p s) ≠ 0 := by
    have h1 := (abs_le.1 (line_near R (hl .x).long).1).1
    have : 0 < (p - s).length := lt_of_lt_of_le (by norm_num) (hl .x).long
    have : 0 < Rounded.vlength fl (Rounded.vsub fl p s) := by linarith
    exact this.ne'
  have hV0 : ∀ i, floatVel fl e (Rounded.concatInfo fl e K) v i 0 =
      Rounded.stepV fl e ((Rounded.concatInfo fl e K).value 0).2 v i := by
    intro i
    unfold floatVel
    rw [Nat.cast_zero, zero_mul, R.zero]
    rfl
  have hP0 : ∀ i, floatPos fl e s (Rounded.concatInfo fl e K) v i 0 = fl (coord s i * e.stepScale i) := by
    intro i
    unfold floatPos
    rw [hK, (Rounded.single_value R e hLne _).2 i, Nat.cast_zero, zero_mul, R.zero, mul_zero, R.zero, zero_add, hsf]
  have sm := fun i => (hl i).smooth R
  have hn0 := ((hl .x).count R).2.2.1
  have hcount := ((hl .x).count R).2.1
  rw [← hK] at hn0 hcount
  set n := Rounded.approxSteps fl (Rounded.concatInfo fl e K) v with hn
  have hd : ∀ i, |Rounded.stepV fl e ((Rounded.concatInfo fl e K).value 0).2 v i| + 1 / 2 ≤ vMax i := by
    intro i
    rw [← hV0]
    have h1 := (sm i).speed 0 hn0
    rw [(((hl i).points R).2 (0 + 1)).1] at h1
    have := (hl i).one
    linarith
  obtain ⟨c1, err, h1⟩ := Rounded.drawCurve_ok (e := e) (start := s) (curve := K) hM h hKne hc hs60 hd (by
    intro i
    have h1 := round_near (fl (coord s i * e.stepScale i))
    have h2 := (hst i).2
    have h3 : |(Draw.round (fl (coord s i * e.stepScale i)) : ℝ) - (c.channels i).pos| ≤ 1 := by
      obtain ⟨a1, a2⟩ := abs_le.1 h1
      obtain ⟨b1, b2⟩ := abs_le.1 h2
      rw [abs_le]
      constructor <;> linarith
    have h4 : |Draw.round (fl (coord s i * e.stepScale i)) - (c.channels i).pos| ≤ 1 := by exact_mod_cast h3
    have := hM.v1 i
    omega)
  obtain ⟨a, hta, St, hv1, hw⟩ := Rounded.drawCurve_stroke R h hKne hM.a1 hM.v1
    (fun i => by have := hM.v2 i; norm_num at *; omega) hc (fun i => (hp i).trans (by norm_num)) hs60 hd h1
  obtain ⟨sy1, -⟩ := Rounded.drawCurve_past h h1
  obtain ⟨c2, h2⟩ : ∃ c2, c1.addWeightChange c1.moveWeight (c1.channels .x).ticks = some c2 := by
    rw [← Option.ne_none_iff_exists', Ne, C29_panics_iff aMax vMax c1 sy1 _
      (ticks_some.2 ⟨rfl, sy1.inv.2.1.symm⟩)]
    omega
  obtain ⟨q1, q2, q3, q4, q5, q6, q7⟩ := weight_now sy1 h2
  have et : (c.channels .x).ticks = t := (ticks_some.1 ht).1
  have em : c1.moveWeight = 0 := sy1.reach.inv.2.2.2.2
  have hlen := St.len
  simp only [← hn] at hlen
  rw [et] at St hta
  have e0 : ∀ i, 0 ≤ err i := by
    intro i
    exact (abs_nonneg _).trans (St.follows i 0 hn0)
  have hdraw : Rounded.drawCurves fl e c [.lineTo p] v = some (c2, err) := by
    have es : Rounded.run fl e v [.lineTo p] (Rounded.init fl e c) =
        some ⟨c, fun _ => 0, p, s, some ((Rounded.line fl (Rounded.vsub fl p s)).value
          (Rounded.line fl (Rounded.vsub fl p s)).length).2, K, [], []⟩ := by
      have : ¬ Rounded.turns fl (Rounded.init fl e c) ((Rounded.line fl (Rounded.vsub fl p s)).value 0).2 := by
        rintro ⟨d, hd, -⟩
        simp [Rounded.init] at hd
      simp only [Rounded.run, Rounded.step, Rounded.segInfo, Option.bind_eq_bind, Option.bind_some]
      simp only [Rounded.add]
      rw [if_neg (show ¬ Rounded.turns fl (Rounded.init fl e c)
        ((Rounded.line fl (Rounded.vsub fl p (Rounded.init fl e c).current)).value 0).2 from this)]
      rfl
    simp only [Rounded.drawCurves, List.isEmpty_cons, Bool.false_eq_true, if_false, Rounded.drawPen, es,
      Option.bind_eq_bind, Option.bind_some, Rounded.flush, h1]
    simp only [accMax_eq]
    have : (fun i => max 0 (err i)) = err := by
      funext i
      exact max_eq_right (e0 i)
    simp [this, h2]
  refine ⟨c2, err, a, n, hdraw, hta, ?_, hcount, ?_, ?_⟩
  · rw [ticks_some]
    have := q1.inv.2.1
    have := congrArg Channel.ticks (congrFun q2 .x)
    exact ⟨by omega, by omega⟩
  · intro w0 τ hτ
    rw [q7, em]
    by_cases h3 : τ < a
    · rw [if_pos (by omega), if_neg (by omega), St.off w0 τ hτ h3]
    · by_cases h4 : τ < a + n
      · rw [if_pos (by omega), if_pos (by omega), St.on w0 τ (by omega) (by omega)]
      · rw [if_neg (by omega), if_neg (by omega)]
  · intro i
    have hfo := St.smooth i S (sm i) (hP0 i)
    have epos : ∀ τ, posAt i c2.events τ = posAt i c1.events τ := by
      intro τ
      unfold posAt
      rw [played_congr (fun τ _ => q6 i τ)]
    have evel : ∀ τ, velAt i c2.events τ = velAt i c1.events τ := by
      intro τ
      unfold velAt
      rw [played_congr (fun τ _ => q6 i τ)]
    have hS := (hl i).one
    refine ⟨fun k hk => ?_, ?_, fun τ h3 h4 => ⟨?_, ?_⟩⟩
    · rw [epos]
      have h3 := (hfo k hk).1
      have h4 := ((hl i).points R).1 (k + 1) hk
      have hn0' : (0 : ℝ) < n := by exact_mod_cast hn0
      have fr0 : (0 : ℝ) ≤ ((k + 1 : ℕ) : ℝ) / n := by positivity
      have fr1 : ((k + 1 : ℕ) : ℝ) / n ≤ 1 := by
        rw [div_le_one hn0']
        exact_mod_cast hk
      have h5 : (coord s i + coord (p - s) i * (((k + 1 : ℕ) : ℝ) / n)) * e.stepScale i -
          ((c.channels i).pos + (coord p i * e.stepScale i - (c.channels i).pos) * (((k + 1 : ℕ) : ℝ) / n)) =
          (coord s i * e.stepScale i - (c.channels i).pos) * (1 - ((k + 1 : ℕ) : ℝ) / n) := by
        have : coord (p - s) i = coord p i - coord s i := by cases i <;> rfl
        rw [this]
        ring
      have h6 : |(coord s i + coord (p - s) i * (((k + 1 : ℕ) : ℝ) / n)) * e.stepScale i -
          ((c.channels i).pos + (coord p i * e.stepScale i - (c.channels i).pos) * (((k + 1 : ℕ) : ℝ) / n))| ≤
          1 / 2 ^ 22 := by
        rw [h5, abs_mul, abs_of_nonneg (a := 1 - ((k + 1 : ℕ) : ℝ) / n) (by linarith)]
        have := mul_le_mul (hst i).1 (show 1 - ((k + 1 : ℕ) : ℝ) / n ≤ 1 by linarith) (by linarith) (by norm_num)
        exact this.trans (by norm_num)
      obtain ⟨x1, x2⟩ := abs_le.1 h3
      obtain ⟨y1, y2⟩ := abs_le.1 h4
      obtain ⟨z1, z2⟩ := abs_le.1 h6
      rw [abs_le]
      constructor <;> linarith
    · rcases hw i with h0 | ⟨k, hk, hk'⟩
      · rw [h0]
        push_cast
        linarith
      · have h3 := (hfo k hk).1
        have h4 := Tracking.trunc_near (floatPos fl e s (Rounded.concatInfo fl e K) v i (k + 1))
        rw [← hk']
        push_cast
        obtain ⟨x1, x2⟩ := abs_le.1 h3
        obtain ⟨y1, y2⟩ := abs_le.1 h4
        rw [abs_le]
        constructor <;> linarith
    · rw [q6]
      by_cases h5 : τ < a
      · exact St.acc i τ h3 h5
      · have h6 := (hfo (τ - a) (show τ - a < n by omega)).2.2
        rw [show a + (τ - a) = τ by omega] at h6
        have := h6.trans (hl i).acc
        exact_mod_cast this
    · rw [evel]
      exact St.vel i τ h3 (by omega)

/-- A line of 500 mm with 80 steps per mm, an eighth of a mm per tick, in `f64` arithmetic. -/
example (e : Rounded.Env) (he : ∀ i, e.stepScale i = 80) :
    ∃ c' err a, Rounded.drawCurves double e (Ctx.new (fun _ => 10) (fun _ => 100)) [.lineTo ⟨300, 400⟩] (1 / 8) =
        some (c', err) ∧ c'.ticks = some (a + 4000) ∧ (∀ i, err i ≤ 4) ∧
      |posAt .x c'.events (a + 4000) - 24000| ≤ 3 ∧ |posAt .y c'.events (a + 4000) - 32000| ≤ 3 ∧
      |posAt .x c'.events (a + 1000) - 6000| ≤ 3 ∧ |posAt .y c'.events (a + 1000) - 8000| ≤ 3 := by
  have R := C90_double
  have hs : floatStart double e (Ctx.new (fun _ => 10) (fun _ => 100)) = ⟨0, 0⟩ := by
    simp [floatStart, Ctx.new, R.zero]
  have hlen : ((⟨300, 400⟩ : Vec) - ⟨0, 0⟩).length = 500 := by
    have : ((⟨300, 400⟩ : Vec) - ⟨0, 0⟩).length = √(500 ^ 2) := by
      unfold Vec.length
      congr 1
      show (300 - 0 : ℝ) * (300 - 0) + (400 - 0) * (400 - 0) = _
      norm_num
    rw [this, Real.sqrt_sq (by norm_num)]
  have ht : (Ctx.new (fun _ => 10) (fun _ => 100)).ticks = some 0 := by
    rw [ticks_some]
    simp [Ctx.new]
  obtain ⟨c', err, a, n, h1, -, h2, h3, -, h4⟩ := C90_line double R (fun _ => 10) (fun _ => 100)
    ⟨by norm_num, by norm_num, by norm_num, by norm_num, by norm_num⟩ e (Ctx.new (fun _ => 10) (fun _ => 100)) .new
    (by simp [Ctx.new]) (by simp [Ctx.new]) ⟨300, 400⟩ (1 / 8) 1 0 ht (by
      intro i
      rw [hs]
      refine ⟨?_, ?_, ?_, ?_, ?_, ?_, ?_, ?_, ?_, ?_, ?_⟩ <;> (try rw [hlen]) <;> (try rw [he])
      any_goals norm_num
      cases i <;> norm_num [coord])
  rw [hs, hlen] at h3
  have hn : n = 4000 := by
    obtain ⟨a1, a2⟩ := abs_le.1 h3
    have b1 : (n : ℝ) < 4001 := by linarith
    have b2 : (3999 : ℝ) < n := by linarith
    have b1' : n < 4001 := by exact_mod_cast b1
    have b2' : 3999 < n := by exact_mod_cast b2
    omega
  subst hn
  have lt4 : ∀ x : ℤ, |(x : ℝ)| ≤ 384 / 100 * 1 → |x| ≤ 3 := by
    intro x hx
    have : |(x : ℝ)| < 4 := by linarith
    have : |x| < 4 := by exact_mod_cast this
    omega
  refine ⟨c', err, a, h1, h2, fun i => ?_, ?_, ?_, ?_, ?_⟩
  · have : (err i : ℝ) < 5 := by linarith [(h4 i).2.1]
    have : err i < 5 := by exact_mod_cast this
    omega
  all_goals apply lt4
  · have := (h4 .x).1 3999 (by norm_num)
    norm_num [Ctx.new, he, coord] at this ⊢
    exact this
  · have := (h4 .y).1 3999 (by norm_num)
    norm_num [Ctx.new, he, coord] at this ⊢
    exact this
  · have := (h4 .x).1 999 (by norm_num)
    norm_num [Ctx.new, he, coord] at this ⊢
    exact this
  · have := (h4 .y).1 999 (by norm_num)
    norm_num [Ctx.new, he, coord] at this ⊢
    exact this

end StepperPaths.Props
