import Verif.Proof.RoundedCurve
import Verif.Props.CurvePath

/-! Bezier curves and paths with them, computed with roundings. -/

namespace StepperPaths.Rounded.Acc
open Spec SqrtPoly Coords Curves Context IntegerCurve Props Draw CurvePath

variable {fl : ℝ → ℝ} {pw : ℝ → ℝ → ℝ} {sn cs : ℝ → ℝ} {b : Bezier} {U V M7 κ R r : ℝ} {a : Axis → Fin 3 → ℝ} {k q : ℕ} {b' : Bezier}
  {len : ℝ} {param : ℝ → ℝ}

/-- The point that is computed for a length. -/
theorem float_at (hf : FloatRounding fl) (hp : FloatPow pw) (hb : BezierFits b U M7 κ) (h : BezierRounds b U V M7 R r a k q)
    (hc : Control R b' b) (hT : FloatTable fl pw b' len param) :
    |len - bezierArc b 1| ≤ tableError k q U r + M7 / 10 ^ 7 / 5040 ∧
    ∀ s, ∃ t' t, 0 ≤ t ∧ t ≤ 1 ∧ |t' - t| ≤ 64 / 2 ^ 52 ∧ (bezierInfoF fl b' len param).value s = bezierValueF fl b' t' ∧
      (|bezierArc b t - s| ≤ curveError k q U M7 r ∨ t = 0 ∧ s ≤ 0 ∨ t = 1 ∧ bezierArc b 1 ≤ s) := by
  obtain ⟨segs, δ, e1, hδ, F, hF, hFb⟩ := table_rows hf hp hb h hc
  obtain ⟨segs', ans0, t1, t2, t3, t4⟩ := hT
  rw [e1, Option.some.injEq] at t1
  subst t1
  obtain ⟨len', l1, l2, l3⟩ := hF.length
  have e2 := l1 ans0 t2
  rw [t3, Option.some.injEq] at e2
  subst e2
  rw [hFb] at l2
  have hU' : 0 ≤ U / 2 ^ 46 := div_nonneg (U_nonneg hb) (by norm_num)
  refine ⟨l2.trans hδ, fun s => ?_⟩
  by_cases c0 : s ≤ 0
  · exact ⟨0, 0, le_rfl, zero_le_one, by norm_num, by simp only [bezierInfoF, if_pos c0], .inr (.inl ⟨rfl, c0⟩)⟩
  by_cases c1 : s ≥ len
  · refine ⟨1, 1, zero_le_one, le_rfl, by norm_num, by simp only [bezierInfoF, if_neg c0, if_pos c1], ?_⟩
    by_cases c2 : bezierArc b 1 ≤ s
    · exact .inr (.inr ⟨rfl, c2⟩)
    · left
      rw [abs_of_nonneg (by linarith), curveError]
      linarith [(abs_le.1 l2).1]
  · push Not at c0 c1
    obtain ⟨ans, a1, a2⟩ := t4 s c0 c1
    obtain ⟨t', t, p1, p2, p3, p4, p5⟩ := hF.param l3 c0 c1 a1
    rw [a2, Option.some.injEq] at p1
    refine ⟨t', t, p2, p3, p4, ?_, .inl ?_⟩
    · simp only [bezierInfoF, if_neg (not_le.2 c0), ge_iff_le, if_neg (not_le.2 c1), p1]
    · rw [hFb] at p5
      rw [curveError]
      linarith

/-- A Bezier curve is computed well. -/
theorem float_near (hf : FloatRounding fl) (hp : FloatPow pw) (hb : BezierFits b U M7 κ) (h : BezierRounds b U V M7 R r a k q)
    (hc : Control R b' b) (hT : FloatTable fl pw b' len param) {D ε w : ℝ} (hD : curveError k q U M7 r + 13000 * R / 2 ^ 52 ≤ D)
    (hε : κ * curveError k q U M7 r + R / (V * 2 ^ 32) ≤ ε) : Near (bezierInfoF fl b' len param) (bezierShape b) D ε w := by
  obtain ⟨hlen, hat⟩ := float_at hf hp hb h hc hT
  have hS := bezier_smooth hb
  have hk := kappa_nonneg hb
  have hU' : 0 ≤ U / 2 ^ 46 := div_nonneg (U_nonneg hb) (by norm_num)
  have hE : 0 ≤ curveError k q U M7 r := by
    have := (abs_nonneg _).trans hlen
    rw [curveError]
    linarith
  have hR0 : 0 ≤ R := le_trans (by norm_num) h.size
  have hR' : 0 ≤ 13000 * R / 2 ^ 52 := by positivity
  have hz : bezierArc b 0 = 0 := by simp [bezierArc]
  have hmono := (param_mono hb).monotone
  have p0 : onwardParam b 0 = 0 := by
    have := param_len hb 0
    rwa [onwardLen_zero] at this
  have p1 : onwardParam b (bezierArc b 1) = 1 := by
    have := param_len hb 1
    rwa [onwardLen_eq zero_le_one le_rfl] at this
  refine ⟨?_, ?_, ?_, ?_⟩
  · refine hlen.trans ?_
    rw [curveError] at hD
    linarith
  · show ((bezierInfoF fl b' len param).value 0).1 = _
    have : (bezierInfoF fl b' len param).value 0 = bezierValueF fl b' 0 := by simp only [bezierInfoF, if_pos le_rfl]
    rw [this, value_zero hf]
  · intro s _ _ i
    obtain ⟨t', t, t0, t1, ht, hv, hcase⟩ := hat s
    have hn := (value_near hf h hc t0 t1 ht i).1
    rw [hv, show coord (bezierValueF fl b' t').1 i - coord ((bezierShape b).pt s) i =
      (coord (bezierValueF fl b' t').1 i - coord (bernstein b.c1 b.c2 b.p2 t) i) +
      (coord ((bezierShape b).pt (bezierArc b t)) i - coord ((bezierShape b).pt s) i) by rw [(shape_pt hb t0 t1).1]; ring]
    refine (abs_add_le _ _).trans ?_
    have hl := hS.lip i s (bezierArc b t)
    rcases hcase with hcase | ⟨rfl, hcase⟩ | ⟨rfl, hcase⟩
    · have : 0 ≤ beyond (bezierShape b).len s := le_max_left _ _
      linarith
    · rw [hz, zero_sub, abs_neg, abs_of_nonpos hcase] at hl
      have : -s ≤ beyond (bezierShape b).len s := (le_max_left _ _).trans (le_max_right _ _)
      rw [hz]
      linarith
    · rw [abs_of_nonpos (by linarith : bezierArc b 1 - s ≤ 0)] at hl
      have : s - bezierArc b 1 ≤ beyond (bezierShape b).len s := (le_max_right _ _).trans (le_max_right _ _)
      linarith
  · intro s _ _ i
    obtain ⟨t', t, t0, t1, ht, hv, hcase⟩ := hat s
    have hn := (value_near hf h hc t0 t1 ht i).2
    rw [hv, show coord (bezierValueF fl b' t').2 i - coord ((bezierShape b).dir s) i =
      (coord (bezierValueF fl b' t').2 i - coord (velocity b.c1 b.c2 b.p2 t).unit i) +
      (coord ((bezierShape b).dir (bezierArc b t)) i - coord ((bezierShape b).dir s) i) by rw [(shape_pt hb t0 t1).2]; ring]
    refine (abs_add_le _ _).trans ?_
    have key : |coord ((bezierShape b).dir (bezierArc b t)) i - coord ((bezierShape b).dir s) i| ≤ κ * curveError k q U M7 r := by
      rcases hcase with hcase | ⟨rfl, hcase⟩ | ⟨rfl, hcase⟩
      · exact (hS.bends i _ _).trans (mul_le_mul_of_nonneg_left hcase hk)
      · have e1 : onward b (onwardParam b s) = onward b (onwardParam b 0) := by
          have := hmono hcase
          rw [p0] at this ⊢
          simp only [onward, max_eq_left (min_le_of_right_le this), min_eq_right (zero_le_one' ℝ), max_self]
        show |coord (onward b (onwardParam b (bezierArc b 0))).unit i - coord (onward b (onwardParam b s)).unit i| ≤ _
        rw [e1, hz, sub_self, abs_zero]
        exact mul_nonneg hk hE
      · have e1 : onward b (onwardParam b s) = onward b (onwardParam b (bezierArc b 1)) := by
          have := hmono hcase
          rw [p1] at this ⊢
          simp only [onward, min_eq_left this, min_self]
        show |coord (onward b (onwardParam b (bezierArc b 1))).unit i - coord (onward b (onwardParam b s)).unit i| ≤ _
        rw [e1, sub_self, abs_zero]
        exact mul_nonneg hk hE
    linarith

/-- There is a table, and the searches find what they look for. -/
theorem float_table (hf : FloatRounding fl) (hp : FloatPow pw) (hb : BezierFits b U M7 κ) (h : BezierRounds b U V M7 R r a k q)
    (hc : Control R b' b) : ∃ len param, FloatTable fl pw b' len param := by
  obtain ⟨segs, δ, e1, hδ, F, hF, hFb⟩ := table_rows hf hp hb h hc
  obtain ⟨len, l1, l2, l3⟩ := hF.length
  obtain ⟨ans0, a0⟩ := found_exists hF.starts_sorted 1
  have key : ∀ pos, ∃ t, 0 < pos → pos < len →
      ∃ ans, Found (segs.map (fun s => s.int.getD 0 0)) pos ans ∧ findParamF fl segs pos ans = some t := by
    intro pos
    by_cases hcase : 0 < pos ∧ pos < len
    · obtain ⟨ans, a1⟩ := found_exists hF.keys_sorted pos
      obtain ⟨t', t, p1, -⟩ := hF.param l3 hcase.1 hcase.2 a1
      exact ⟨t', fun _ _ => ⟨ans, a1, p1⟩⟩
    · exact ⟨0, fun h1 h2 => absurd ⟨h1, h2⟩ hcase⟩
  choose param hparam using key
  exact ⟨len, param, segs, ans0, e1, a0, l1 ans0 a0, hparam⟩

/-- `FloatPath` holds for gentle paths. -/
theorem gentle_path (hf : FloatRounding fl) (odd : ∀ x, fl (-x) = -fl x) (hp : FloatPow pw) (T : FloatTrig sn cs) {e : Rounded.Env}
    (he : FloatCurves fl pw sn cs e) {M d D ε κ w : ℝ} {ρ : Axis → ℝ} {P0 : Axis → ℤ} (hD : 0 ≤ D) :
    ∀ (segs : List Seg) (B : ℝ) (stops : List Vec) (pos : Vec), TractablePath fl e.stepScale M d D ε κ w ρ P0 B stops pos segs →
      FloatPath fl e pictures M d D ε κ w ρ P0 B stops pos segs
  | [], _, _, _, _ => trivial
  | .goTo p :: segs, B, stops, pos, ⟨h1, h2, h3⟩ =>
    ⟨h1, gentle_path hf odd hp T he hD segs B stops p h2, fun hb => gentle_path hf odd hp T he hD segs B stops pos (h3 hb)⟩
  | .lineTo p :: segs, B, stops, pos, ⟨h1, h2, h3, h4⟩ => ⟨h1, h2, h3, gentle_path hf odd hp T he hD segs _ _ p h4⟩
  | .closeTo p :: segs, B, stops, pos, ⟨h1, .inl ⟨h2, h3⟩⟩ => ⟨h1, .inl ⟨h2, gentle_path hf odd hp T he hD segs _ _ p h3⟩⟩
  | .closeTo p :: segs, B, stops, pos, ⟨h1, .inr ⟨h2, h3, h4, h5⟩⟩ =>
    ⟨h1, .inr ⟨h2, h3, h4, gentle_path hf odd hp T he hD segs _ _ p h5⟩⟩
  | .curveTo p c1 c2 :: segs, B, stops, pos, ⟨h1, ⟨U, V, M7, R, r, a, k, q, h2, h2', h3, h4⟩, h5, h6, h7⟩ => by
    obtain ⟨len, param, t1, t2⟩ := he.bezier pos p c1 c2 ⟨U, V, M7, κ, R, r, a, k, q, h2, h2'⟩
    refine ⟨_, p, t2, h1, bezier_smooth h2, float_near hf hp h2 h2' (control_of hf h2') t1 h3 h4, ?_, h5, h6,
      gentle_path hf odd hp T he hD segs _ _ p h7⟩
    intro i
    have e1 : (pictures pos (.curveTo p c1 c2)).pt (pictures pos (.curveTo p c1 c2)).len = p - pos := by
      show (bezierShape (bezierOf pos p c1 c2)).pt (bezierArc (bezierOf pos p c1 c2) 1) = _
      rw [(shape_pt h2 zero_le_one le_rfl).1]
      ext <;> simp [bernstein, bezierOf]
    rw [e1]
    have e2 : coord (p - pos) i = coord p i - coord pos i := by cases i <;> rfl
    rw [e2, show coord pos i + (coord p i - coord pos i) - coord p i = 0 by ring, abs_zero]
    exact hD
  | .arc rx ry a c rot :: segs, B, stops, pos, ⟨⟨A, h1, h2, h3⟩, h4, h5, h6, h7, h8, h9, h10, h11, h12⟩ => by
    have e1 : ∀ i, coord (placedAt (pos, arcShape rx a c) (rx * |c - a|)) i =
        coord pos i + coord ((arcShape rx a c).pt (rx * |c - a|)) i := fun i => by cases i <;> rfl
    refine C93_arc fl hf odd sn cs T e pos rx ry a c rot A (he.arc _ _ _ _ _ _) pictures rfl h1 h4 h5 M d D ε κ w B ρ P0 stops
      h2 h3 h6 h7 h8 (fun i => by rw [← e1]; exact h9 i) h10 h11 segs ?_
    intro p hp1 hp2
    exact gentle_path hf odd hp T he hD segs _ _ p (h12 p hp1 fun i => by rw [e1]; exact hp2 i)

theorem gentle_apart (hf : FloatRounding fl) (T : FloatTrig sn cs) {e : Rounded.Env}
    (he : FloatCurves fl pw sn cs e) {M d D ε κ w : ℝ} {ρ : Axis → ℝ} {P0 : Axis → ℤ} :
    ∀ (segs : List Seg) (B : ℝ) (stops : List Vec) (pos : Vec), TractablePath fl e.stepScale M d D ε κ w ρ P0 B stops pos segs →
      TractableApart fl e.stepScale D ρ P0 stops pos segs → Apart fl e ρ P0 stops pos segs
  | [], _, _, _, _, _ => trivial
  | .goTo p :: segs, B, stops, pos, h, h' => ⟨h'.1, gentle_apart hf T he segs _ _ _ h.2.1 h'.2⟩
  | .lineTo p :: segs, B, stops, pos, h, h' => fun _ hq => by
    cases hq
    exact gentle_apart hf T he segs _ _ _ h.2.2.2 h'
  | .closeTo p :: segs, B, stops, pos, ⟨_, .inl h⟩, h' => fun _ hq => by
    cases hq
    exact gentle_apart hf T he segs _ _ _ h.2 h'
  | .closeTo p :: segs, B, stops, pos, ⟨_, .inr h⟩, h' => fun _ hq => by
    cases hq
    exact gentle_apart hf T he segs _ _ _ h.2.2.2 h'
  | .curveTo p c1 c2 :: segs, B, stops, pos, ⟨h1, ⟨U, V, M7, R, r, a, k, q, h2, h2', h3, h4⟩, h5, h6, h7⟩, h' => by
    obtain ⟨len, param, t1, t2⟩ := he.bezier pos p c1 c2 ⟨U, V, M7, κ, R, r, a, k, q, h2, h2'⟩
    rintro q' ⟨k', hk⟩
    rw [t2] at hk
    cases hk
    exact gentle_apart hf T he segs _ _ _ h7 h'
  | .arc rx ry a c rot :: segs, B, stops, pos, ⟨⟨A, h1, h2, h3⟩, h4, h5, h6, h7, h8, h9, h10, h11, h12⟩, h' => by
    have e1 : ∀ i, coord (placedAt (pos, arcShape rx a c) (rx * |c - a|)) i =
        coord pos i + coord ((arcShape rx a c).pt (rx * |c - a|)) i := fun i => by cases i <;> rfl
    have hend := fun i => (CurvePath.arc_end hf T h1 h8 i).trans h2
    rintro q' ⟨k', hk⟩
    rw [he.arc, arcInfo, if_neg (not_lt.2 h5)] at hk
    cases hk
    have hnear : ∀ i, |coord (placedAt (pos, arcShape rx a c) (rx * |c - a|)) i - coord (vadd fl pos
      (circleValue fl sn cs (circleNew fl sn cs rx a c) (circleLength fl (circleNew fl sn cs rx a c))).1) i| ≤ D :=
      fun i => by rw [e1]; exact hend i
    have hpt : FloatPoint fl M (Rounded.vadd fl pos
        (circleValue fl sn cs (circleNew fl sn cs rx a c) (circleLength fl (circleNew fl sn cs rx a c))).1) := by
      intro i
      refine ⟨?_, ?_⟩
      · have g1 := hnear i
        rw [abs_sub_comm] at g1
        have := CurvePath.abs_of_near g1 le_rfl
        linarith [h9 i]
      · rw [CurvePath.coord_vadd, hf.idem]
    exact gentle_apart hf T he segs _ _ _ (h12 _ hpt hnear) (h' _ hnear)

end StepperPaths.Rounded.Acc
