import Verif.Proof.RoundedNear
import Verif.Props.BezierPath

/-! Paths of lines, arcs and Bezier curves with rounded arithmetic (C97). -/

namespace StepperPaths.Props
open StepperPaths Coords Curves Context IntegerCurve Draw Spec Rounded

/-- C97: with rounding, `Bezier::new` builds a table for every curve that is not extreme, the length and
the parameter of any length in it are found, and `Bezier::value` computes point and direction at a
length, up to the error of the table and the rounding, and stays at the ends beyond these.  It is
compared to the exact curve through the given points; `curve_segment_to_info` rounds its control points. -/
theorem C97_near (fl : ℝ → ℝ) (hf : FloatRounding fl) (pw : ℝ → ℝ → ℝ) (hp : FloatPow pw) (pos p c1 c2 : Vec)
    (U V M7 κ R r : ℝ) (a : Axis → Fin 3 → ℝ) (k q : ℕ) (hb : BezierFits (bezierOf pos p c1 c2) U M7 κ)
    (h : BezierRounds (bezierOf pos p c1 c2) U V M7 R r a k q) :
    (∃ len param, FloatTable fl pw (bezierOfF fl pos p c1 c2) len param) ∧
    ∀ len param, FloatTable fl pw (bezierOfF fl pos p c1 c2) len param → ∀ w,
      Near (bezierInfoF fl (bezierOfF fl pos p c1 c2) len param) (bezierShape (bezierOf pos p c1 c2))
        (curveError k q U M7 r + 13000 * R / 2 ^ 52) (κ * curveError k q U M7 r + R / (V * 2 ^ 32)) w :=
  ⟨Acc.float_table hf hp hb h (Acc.control_of hf h),
    fun _ _ hT _ => Acc.float_near hf hp hb h (Acc.control_of hf h) hT le_rfl le_rfl⟩

/-- C97: `f64` rounding does not change signs. -/
theorem C97_sign (x : ℝ) (h : 0 ≤ x) : 0 ≤ double x := by
  unfold double
  have hp : (0 : ℝ) < 2 ^ (max (Int.log 2 |x|) (-1022) - 52) := by positivity
  refine mul_nonneg ?_ hp.le
  have h1 : 0 ≤ x / 2 ^ (max (Int.log 2 |x|) (-1022) - 52) := by positivity
  have h2 := nearestEven_near (x / 2 ^ (max (Int.log 2 |x|) (-1022) - 52))
  rw [abs_le] at h2
  have h3 : (-1 : ℝ) < nearestEven (x / 2 ^ (max (Int.log 2 |x|) (-1022) - 52)) := by linarith
  have h4 : -1 < nearestEven (x / 2 ^ (max (Int.log 2 |x|) (-1022) - 52)) := by exact_mod_cast h3
  exact_mod_cast (show 0 ≤ nearestEven (x / 2 ^ (max (Int.log 2 |x|) (-1022) - 52)) by omega)

/-- C97: `eval_int` computes the length of the curve up to any parameter, whatever the binary search answers. -/
theorem C97_length (fl : ℝ → ℝ) (hf : FloatRounding fl) (sign : ∀ x, 0 ≤ x → 0 ≤ fl x) (pw : ℝ → ℝ → ℝ) (hp : FloatPow pw)
    (pos p c1 c2 : Vec) (U V M7 κ R r : ℝ) (a : Axis → Fin 3 → ℝ) (k q : ℕ) (hb : BezierFits (bezierOf pos p c1 c2) U M7 κ)
    (h : BezierRounds (bezierOf pos p c1 c2) U V M7 R r a k q) :
    ∃ segs, tableF fl pw (bezierOfF fl pos p c1 c2) = some segs ∧ ∀ t, 0 ≤ t → t ≤ 1 →
      (∃ ans, SqrtPoly.Found (segs.map (·.start)) t ans) ∧ ∀ ans, SqrtPoly.Found (segs.map (·.start)) t ans → ∃ l, evalIntF fl segs t ans = some l ∧
        |l - bezierArc (bezierOf pos p c1 c2) t| ≤ curveError k q U M7 r := by
  obtain ⟨segs, δ, e1, hδ, F, hF, e2⟩ := Acc.table_rows hf hp hb h (Acc.control_of hf h)
  refine ⟨segs, e1, fun t h0 h1 => ⟨SqrtPoly.found_exists hF.starts_sorted t, fun ans ha => ?_⟩⟩
  obtain ⟨l, e3, h3⟩ := hF.eval sign h0 h1 ha
  refine ⟨l, e3, ?_⟩
  rw [← e2]
  unfold curveError
  linarith

/-- C97: so it may be assumed that arcs and Bezier curves are computed as by the program. -/
theorem C97_curves (fl : ℝ → ℝ) (hf : FloatRounding fl) (pw : ℝ → ℝ → ℝ) (hp : FloatPow pw) (sn cs : ℝ → ℝ) (scale : Axis → ℝ) :
    ∃ e : Rounded.Env, e.stepScale = scale ∧ Searches e ∧ FloatCurves fl pw sn cs e := by
  classical
  have H : ∀ pos p c1 c2, Tractable (bezierOf pos p c1 c2) → ∃ len param, FloatTable fl pw (bezierOfF fl pos p c1 c2) len param := by
    rintro pos p c1 c2 ⟨U, V, M7, κ, R, r, a, k, q, hb, h⟩
    exact (C97_near fl hf pw hp pos p c1 c2 U V M7 κ R r a k q hb h).1
  refine ⟨⟨scale, fun K pos => if h : ∃ i, FoundAt K pos i then h.choose else 0, fun pos seg => match seg with
    | .arc rx ry a b _ => Rounded.arcInfo fl sn cs pos rx ry a b
    | .curveTo p c1 c2 => if h : Tractable (bezierOf pos p c1 c2) then
        some (bezierInfoF fl (bezierOfF fl pos p c1 c2) (H pos p c1 c2 h).choose (H pos p c1 c2 h).choose_spec.choose, p)
      else none
    | _ => none⟩, rfl, ?_, ?_, ?_⟩
  · intro K hK pos
    have := C92_search K hK pos
    simp only [dif_pos this]
    exact this.choose_spec
  · intro pos rx ry a b rot
    rfl
  · intro pos p c1 c2 h
    exact ⟨_, _, (H pos p c1 c2 h).choose_spec.choose_spec, by simp only [dif_pos h]⟩

/-- C97: with rounding, a path of lines, arcs and Bezier curves is drawn as it should be (as `C93_path`,
but what is required of the path does not refer to what is computed for its curves). -/
theorem C97_path (fl : ℝ → ℝ) (hR : FloatRounding fl) (odd : ∀ x, fl (-x) = -fl x) (pw : ℝ → ℝ → ℝ) (hpw : FloatPow pw)
    (sn cs : ℝ → ℝ) (T : FloatTrig sn cs) (aMax vMax : Axis → ℤ) (hM : Machine aMax vMax) (e : Rounded.Env)
    (hf : Searches e) (he : FloatCurves fl pw sn cs e) (c : Ctx) (h : Sync aMax vMax c) (hc : ∀ i, |(c.channels i).v| ≤ vMax i)
    (hp : ∀ i, |(c.channels i).pos| ≤ 2 ^ 28) (v S M D ε κ : ℝ) (N m : ℕ) (L : CurveLimits e aMax vMax v S M D ε κ N m)
    (ρ : Axis → ℝ) (hρ : ∀ i, 387 / 100 * S + 1 / 2 + 3 * (N * (1 / 1000000 + 1 / 10 ^ 12) * e.stepScale i) ≤ ρ i)
    (segs : List Seg) (hne : segs ≠ []) (hN : segs.length ≤ N) (hs : ∀ i, |coord (floatStart fl e c) i| ≤ M)
    (hF : TractablePath fl e.stepScale M (m * v) D ε κ (v / 100) ρ (fun i => (c.channels i).pos) M [] (floatStart fl e c) segs)
    (t : ℕ) (ht : c.ticks = some t) :
    ∃ c' err t' segs' n l G, Rounded.drawCurves fl e c segs v = some (c', err) ∧ c'.ticks = some t' ∧
      Omit (FloatVisited fl e c'.events t t') segs segs' ∧
      Dropped fl e ρ (fun i => (c.channels i).pos) [] (floatStart fl e c) segs segs' ∧ FloatIntended e (floatStart fl e c) segs' n l ∧
      G.flatten = l.map (shapeOf pictures) ∧
      CurveRuns e v S (n * (1 / 1000000 + 1 / 10 ^ 12) + N * D) c.curveWeight aMax vMax c'.events t G t' ∧
      (∀ i, (err i : ℝ) ≤ 383 / 100 * S + 1) ∧ (∀ w τ, t' ≤ τ → weightAt w c'.events τ = 0) ∧
      (∀ τ < t, (∀ w, weightAt w c'.events τ = weightAt w c.events τ) ∧
        ∀ i, accAt i c'.events τ = accAt i c.events τ) ∧
      (∀ i, |(c'.channels i).v| ≤ vMax i) ∧ Sync aMax vMax c' ∧
      (∀ i, |((c'.channels i).pos : ℝ)| ≤ 2 * M * e.stepScale i + 4 * S + 2) ∧
      ((∀ i, (c'.channels i).pos = (c.channels i).pos) ∨ ∃ q ∈ endsOf e (floatStart fl e c) segs', ∀ i, |((c'.channels i).pos : ℝ) - coord q i * e.stepScale i| ≤
        386 / 100 * S + 1 / 256 + 3 * (N * (1 / 1000000 + 1 / 10 ^ 12) * e.stepScale i)) :=
  have hM0 : 0 ≤ M := (abs_nonneg _).trans (hs .x)
  C93_path fl hR aMax vMax hM e hf c h hc hp v S M D ε κ N m L pictures ρ hρ segs hne hN hs
    (Acc.gentle_path hR odd hpw T he (le_trans (by positivity) L.tol) segs _ _ _ hF) t ht

/-- C97: when no move leads to where the machine was or to where an earlier line or curve ended, nothing is
left out. -/
theorem C97_all_moves (fl : ℝ → ℝ) (hR : FloatRounding fl) (pw : ℝ → ℝ → ℝ) (sn cs : ℝ → ℝ) (T : FloatTrig sn cs) (e : Rounded.Env)
    (he : FloatCurves fl pw sn cs e) (M d D ε κ w B : ℝ) {ρ : Axis → ℝ} {P0 : Axis → ℤ} {stops : List Vec} {pos : Vec}
    {segs segs' : List Seg} (h : TractablePath fl e.stepScale M d D ε κ w ρ P0 B stops pos segs)
    (ha : TractableApart fl e.stepScale D ρ P0 stops pos segs) (hd : Dropped fl e ρ P0 stops pos segs segs') : segs' = segs :=
  CurvePath.dropped_apart hd (Acc.gentle_apart hR T he segs _ _ _ h ha)

/-- C97: what is burnt: whenever the laser is on, the machine is close to a point of one of the lines
and curves to draw, and close to any point of these it is at the beginning or end of a tick when the
laser is on. -/
theorem C97_traced (fl : ℝ → ℝ) (hR : FloatRounding fl) (odd : ∀ x, fl (-x) = -fl x) (pw : ℝ → ℝ → ℝ) (hpw : FloatPow pw)
    (sn cs : ℝ → ℝ) (T : FloatTrig sn cs) (aMax vMax : Axis → ℤ) (hM : Machine aMax vMax) (e : Rounded.Env)
    (hf : Searches e) (he : FloatCurves fl pw sn cs e) (c : Ctx) (h : Sync aMax vMax c) (hc : ∀ i, |(c.channels i).v| ≤ vMax i)
    (hp : ∀ i, |(c.channels i).pos| ≤ 2 ^ 28) (hw : c.curveWeight ≠ 0) (v S M D ε κ : ℝ) (N m : ℕ)
    (L : CurveLimits e aMax vMax v S M D ε κ N m)
    (ρ : Axis → ℝ) (hρ : ∀ i, 387 / 100 * S + 1 / 2 + 3 * (N * (1 / 1000000 + 1 / 10 ^ 12) * e.stepScale i) ≤ ρ i)
    (segs : List Seg) (hne : segs ≠ []) (hN : segs.length ≤ N) (hs : ∀ i, |coord (floatStart fl e c) i| ≤ M)
    (hF : TractablePath fl e.stepScale M (m * v) D ε κ (v / 100) ρ (fun i => (c.channels i).pos) M [] (floatStart fl e c) segs)
    (t : ℕ) (ht : c.ticks = some t) :
    ∃ c' err t' segs' n l, Rounded.drawCurves fl e c segs v = some (c', err) ∧ c'.ticks = some t' ∧
      Omit (FloatVisited fl e c'.events t t') segs segs' ∧
      Dropped fl e ρ (fun i => (c.channels i).pos) [] (floatStart fl e c) segs segs' ∧ FloatIntended e (floatStart fl e c) segs' n l ∧
      CurveOnly e c.curveWeight c'.events t t' (l.map (shapeOf pictures))
        (fun i => 386 / 100 * S + (n * (1 / 1000000 + 1 / 10 ^ 12) + N * D) * e.stepScale i) ∧
      CurveAll e c.curveWeight c'.events t t' (l.map (shapeOf pictures))
        (fun i => 386 / 100 * S + (n * (1 / 1000000 + 1 / 10 ^ 12) + N * D + 13 / 10 * v) * e.stepScale i) :=
  have hM0 : 0 ≤ M := (abs_nonneg _).trans (hs .x)
  C93_traced fl hR aMax vMax hM e hf c h hc hp hw v S M D ε κ N m L pictures ρ hρ segs hne hN hs
    (Acc.gentle_path hR odd hpw T he (le_trans (by positivity) L.tol) segs _ _ _ hF) t ht

/-- A power that is rounded correctly is as assumed. -/
theorem pow_rounded (fl : ℝ → ℝ) (hf : FloatRounding fl) : FloatPow (fun x y => fl (x ^ y)) := by
  intro x y h1 h2 hy
  have hx : 0 < x := lt_of_lt_of_le (by norm_num) h1
  have hz : 0 < x ^ y := Real.rpow_pos_of_pos hx y
  have h := hf.near (x ^ y)
  rw [abs_of_pos hz] at h
  refine h.trans ?_
  have l2 : 0 < Real.log 2 := Real.log_pos (by norm_num)
  have hlog : |Real.log x| ≤ 100 * Real.log 2 := by
    rw [abs_le]
    constructor
    · have := Real.log_le_log (by norm_num) h1
      rw [one_div, Real.log_inv, Real.log_pow] at this
      push_cast at this
      linarith
    · have := Real.log_le_log hx h2
      rw [Real.log_pow] at this
      exact_mod_cast this
  have hlow : Real.exp (-(800 * Real.log 2)) ≤ x ^ y := by
    rw [Real.rpow_def_of_pos hx]
    apply Real.exp_le_exp.2
    have : |Real.log x * y| ≤ 100 * Real.log 2 * 8 := by
      rw [abs_mul]
      exact mul_le_mul hlog hy (abs_nonneg _) (by linarith)
    linarith [(abs_le.1 this).1]
  have e1 : Real.exp (-(800 * Real.log 2)) = 2⁻¹ ^ 800 := by
    rw [Real.exp_neg, show (800 : ℝ) * Real.log 2 = ((800 : ℕ) : ℝ) * Real.log 2 by norm_num, Real.exp_nat_mul, Real.exp_log (by norm_num), inv_pow]
  rw [e1] at hlow
  have e2 : (2⁻¹ : ℝ) ^ 1075 ≤ 2⁻¹ ^ 53 * 2⁻¹ ^ 800 := by
    rw [← pow_add]
    exact pow_le_pow_of_le_one (by norm_num) (by norm_num) (by norm_num)
  have e3 : (2⁻¹ : ℝ) ^ 53 * 2⁻¹ ^ 800 ≤ 2⁻¹ ^ 53 * x ^ y := mul_le_mul_of_nonneg_left hlow (by positivity)
  have e4 : (2⁻¹ : ℝ) ^ 53 * x ^ y + 2⁻¹ ^ 53 * x ^ y = 1 / 2 ^ 52 * x ^ y := by
    rw [← add_mul]
    norm_num
  generalize (2⁻¹ : ℝ) ^ 1075 = z at *
  generalize (2⁻¹ : ℝ) ^ 53 * 2⁻¹ ^ 800 = z' at *
  linarith

/-- The coefficients of the velocity of `bend`, and 4 where they are zero. -/
def bendTerms : Axis → Fin 3 → ℝ
  | .x => ![30, 4, 30]
  | .y => ![4, 60, 4]

theorem bend_rounds : BezierRounds bend 60 30 0 30 (3 / 20) bendTerms 300 3 := by
  have hs : ∀ t, spread bendTerms t = 916 + 720 * t + 5448 * t ^ 2 + 720 * t ^ 3 + 916 * t ^ 4 := by
    intro t
    simp [spread, bendTerms]
    ring
  refine ⟨by norm_num, ?_, ?_, ?_, ?_, ?_, ?_, ?_, by norm_num, by norm_num, by norm_num, ?_, ?_, by norm_num [tableOps], ?_⟩
  · intro i; cases i <;> norm_num [bend, coord]
  · intro i; cases i <;> norm_num [bend, coord]
  · intro i; cases i <;> norm_num [bend, coord]
  · intro i j; cases i <;> fin_cases j <;> norm_num [velCoeff, bend, coord, bendTerms]
  · intro i j; cases i <;> fin_cases j <;> norm_num [bendTerms]
  · intro i j; cases i <;> fin_cases j <;> norm_num [bendTerms]
  · intro t _ _
    rw [bend_speed]
    nlinarith [sq_nonneg t]
  · intro t h0 h1
    rw [bend_speed, hs]
    push_cast
    have h2 : t ^ 2 ≤ 1 := pow_le_one₀ h0 h1
    have h3 : t ^ 3 ≤ 1 := pow_le_one₀ h0 h1
    have h4 : 0 ≤ t ^ 4 := by positivity
    nlinarith
  · intro t h0 h1
    rw [bend_speed, hs, hs]
    nlinarith [sq_nonneg (30 * t ^ 2 - 229 / 25 * t), sq_nonneg (t - 167 / 250)]
  · norm_num [tableError, tableOps, Finset.sum_range_succ]

/-- A move, a Bezier curve, and a line that goes on in the same direction, with 80 steps per mm
and a 40th of a mm per tick, in `f64` arithmetic.  The middle of the curve is burnt. -/
example (pw : ℝ → ℝ → ℝ) (hpw : FloatPow pw) (sn cs : ℝ → ℝ) (T : FloatTrig sn cs) (e : Rounded.Env) (he : e.stepScale = fun _ => 80)
    (hf : Searches e) (hC : FloatCurves double pw sn cs e) :
    ∃ c' err t', Rounded.drawCurves double e (Ctx.new (fun _ => 10) (fun _ => 100))
        [.goTo ⟨10, 0⟩, .curveTo ⟨30, 30⟩ ⟨10, 0⟩ ⟨0, -20⟩, .lineTo ⟨30, 50⟩] (1 / 40) = some (c', err) ∧
      c'.ticks = some t' ∧ (∀ i, err i ≤ 4) ∧ (∀ w, weightAt w c'.events t' = 0) ∧
      ∃ τ < t', (∀ w, weightAt w c'.events τ = 255) ∧ ∃ τ', (τ' = τ ∨ τ' = τ + 1) ∧
        |posAt .x c'.events τ' - 1900| ≤ 6 ∧ |posAt .y c'.events τ' - 600| ≤ 6 := by
  have R := C90_double
  have hs : floatStart double e (Ctx.new (fun _ => 10) (fun _ => 100)) = ⟨0, 0⟩ := by
    simp [floatStart, Ctx.new, R.zero]
  have ht : (Ctx.new (fun _ => 10) (fun _ => 100)).ticks = some 0 := by
    rw [ticks_some]
    simp [Ctx.new]
  have he' : ∀ i, e.stepScale i = 80 := fun i => by rw [he]
  have hb : bezierOf ⟨10, 0⟩ ⟨30, 30⟩ ⟨10, 0⟩ ⟨0, -20⟩ = bend := by
    simp only [bezierOf, bend, vec_sub, vec_add]
    norm_num
  have hpt : ∀ x y : ℤ, |x| ≤ 100 → |y| ≤ 100 → FloatPoint double 100 ⟨x, y⟩ := by
    intro x y hx hy i
    cases i
    · exact ⟨by show |(x : ℝ)| ≤ 100; exact_mod_cast hx, R.int x (hx.trans (by norm_num))⟩
    · exact ⟨by show |(y : ℝ)| ≤ 100; exact_mod_cast hy, R.int y (hy.trans (by norm_num))⟩
  have p0 : FloatPoint double 100 ⟨0, 0⟩ := by simpa using hpt 0 0 (by norm_num) (by norm_num)
  have p1 : FloatPoint double 100 ⟨10, 0⟩ := by simpa using hpt 10 0 (by norm_num) (by norm_num)
  have p2 : FloatPoint double 100 ⟨30, 30⟩ := by simpa using hpt 30 30 (by norm_num) (by norm_num)
  have p3 : FloatPoint double 100 ⟨30, 50⟩ := by simpa using hpt 30 50 (by norm_num) (by norm_num)
  have L : CurveLimits e (fun _ => 10) (fun _ => 100) (1 / 40) 1 100 (36 / 10 ^ 7) (1 / 10 ^ 6) (1 / 15) 3 8 := by
    refine ⟨by norm_num, by norm_num, by norm_num, by norm_num, by norm_num, by norm_num, by norm_num, by norm_num, by norm_num,
      ?_, ?_, ?_, ?_, by norm_num, by norm_num, by norm_num, ?_, ?_, ?_⟩ <;>
      (intro i; rw [he']; norm_num)
  have l2 : ((⟨30, 50⟩ : Vec) - ⟨30, 30⟩).length = 20 := by
    show √((30 - 30) * (30 - 30) + (50 - 30) * (50 - 30)) = 20
    rw [show ((30 : ℝ) - 30) * (30 - 30) + (50 - 30) * (50 - 30) = 20 ^ 2 by norm_num]
    exact Real.sqrt_sq (by norm_num)
  have far : ¬ Beside double (fun _ => 80) (fun _ => 5) (fun _ => 0) [] ⟨10, 0⟩ := by
    rintro (h | ⟨q, hq, -⟩)
    · have := h .x
      have e1 : Draw.round (double (coord (⟨10, 0⟩ : Vec) .x * 80)) = 800 := by
        rw [show coord (⟨10, 0⟩ : Vec) .x * 80 = ((800 : ℤ) : ℝ) by norm_num [coord], R.int 800 (by norm_num)]
        exact Draw.round_int 800
      exact absurd (e1.symm.trans this) (by norm_num)
    · simp at hq
  have hE : curveError 300 3 60 0 (3 / 20) ≤ 355 / 10 ^ 8 := by
    norm_num [curveError, tableError, tableOps, Finset.sum_range_succ]
  have hF : TractablePath double e.stepScale 100 ((8 : ℕ) * (1 / 40)) (36 / 10 ^ 7) (1 / 10 ^ 6) (1 / 15) (1 / 40 / 100) (fun _ => 5) (fun _ => 0) 100
      [] ⟨0, 0⟩ [.goTo ⟨10, 0⟩, .curveTo ⟨30, 30⟩ ⟨10, 0⟩ ⟨0, -20⟩, .lineTo ⟨30, 50⟩] := by
    rw [he]
    refine ⟨p1, ?_, fun h => absurd h far⟩
    simp only [TractablePath, hb, l2, bend_arc]
    refine ⟨p2, ⟨60, 30, 0, 30, 3 / 20, bendTerms, 300, 3, bend_fits, bend_rounds, by linarith, by linarith⟩, by norm_num, by norm_num, p3,
      by norm_num, by norm_num, trivial⟩
  obtain ⟨c', err, t', segs', n, l, G, q1, q2, q3, q3', q4, q5, q6, q7, q8, -⟩ := C97_path double R C93_double_odd pw hpw sn cs T
    (fun _ => 10) (fun _ => 100)
    ⟨by norm_num, by norm_num, by norm_num, by norm_num, by norm_num⟩ e hf hC (Ctx.new (fun _ => 10) (fun _ => 100)) .new
    (by simp [Ctx.new]) (by simp [Ctx.new]) (1 / 40) 1 100 (36 / 10 ^ 7) (1 / 10 ^ 6) (1 / 15) 3 8 L (fun _ => 5) (fun i => by rw [he]; norm_num)
    [.goTo ⟨10, 0⟩, .curveTo ⟨30, 30⟩ ⟨10, 0⟩ ⟨0, -20⟩, .lineTo ⟨30, 50⟩] (by simp) (by simp)
    (by rw [hs]; exact fun i => (p0 i).1) (by rw [hs]; exact hF) 0 ht
  rw [hs] at q3' q4
  -- the curve is to be drawn
  have hl : n = 0 ∧ (⟨10, 0⟩, .curveTo ⟨30, 30⟩ ⟨10, 0⟩ ⟨0, -20⟩) ∈ l := by
    have := C97_all_moves double R pw sn cs T e hC _ _ _ _ _ _ _ hF (by rw [he]; exact ⟨far, trivial⟩) q3'
    subst this
    obtain ⟨len, param, -, t2⟩ := hC.bezier ⟨10, 0⟩ ⟨30, 30⟩ ⟨10, 0⟩ ⟨0, -20⟩ (by
      rw [hb]
      exact ⟨60, 30, 0, 1 / 15, 30, 3 / 20, bendTerms, 300, 3, bend_fits, bend_rounds⟩)
    cases q4 with
    | draw h0 => exact absurd h0 (by simp [FloatDraws])
    | move q4 =>
    cases q4 with
    | draw _ h1 q4 =>
    obtain ⟨k, hk⟩ := h1
    rw [t2] at hk
    cases hk
    cases q4 with
    | draw _ h1 q4 =>
    cases q4
    exact ⟨rfl, by simp⟩
  obtain ⟨rfl, hl⟩ := hl
  have hA := CurvePath.runs_all q6 (by norm_num) (fun i => by rw [he']; norm_num)
  rw [q5] at hA
  have hm : ((⟨10, 0⟩, bezierShape bend) : Vec × Shape) ∈ l.map (shapeOf pictures) := by
    refine List.mem_map.2 ⟨_, hl, ?_⟩
    show ((⟨10, 0⟩, bezierShape (bezierOf _ _ _ _)) : Vec × Shape) = _
    rw [hb]
  obtain ⟨τ, -, a2, a3, τ', a4, a5⟩ := hA _ hm (bezierArc bend (1 / 2)) (by rw [bend_arc]; norm_num)
    (by show _ ≤ bezierArc bend 1; rw [bend_arc, bend_arc]; norm_num)
  have hpl : placedAt (⟨10, 0⟩, bezierShape bend) (bezierArc bend (1 / 2)) = ⟨95 / 4, 15 / 2⟩ := by
    show (⟨10, 0⟩ : Vec) + (bezierShape bend).pt (bezierArc bend (1 / 2)) = _
    rw [(C94_shape bend _ _ _ bend_fits (1 / 2) (by norm_num) (by norm_num)).1]
    simp only [vec_add, bernstein, bend]
    norm_num
  refine ⟨c', err, t', q1, q2, fun i => ?_, fun w => q8 w t' le_rfl, τ, a2, a3, τ', a4, ?_, ?_⟩
  · have : (err i : ℝ) < 5 := by linarith [q7 i]
    have : err i < 5 := by exact_mod_cast this
    omega
  · have := a5 .x
    rw [hpl, he'] at this
    have h2 : |((posAt .x c'.events τ' - 1900 : ℤ) : ℝ)| < 7 := by
      push_cast
      refine lt_of_le_of_lt (le_of_eq ?_) (lt_of_le_of_lt this ?_)
      · congr 2; show _ = (95 / 4 : ℝ) * 80; norm_num
      · norm_num [he']
    have : |posAt .x c'.events τ' - 1900| < 7 := by exact_mod_cast h2
    omega
  · have := a5 .y
    rw [hpl, he'] at this
    have h2 : |((posAt .y c'.events τ' - 600 : ℤ) : ℝ)| < 7 := by
      push_cast
      refine lt_of_le_of_lt (le_of_eq ?_) (lt_of_le_of_lt this ?_)
      · congr 2; show _ = (15 / 2 : ℝ) * 80; norm_num
      · norm_num [he']
    have : |posAt .y c'.events τ' - 600| < 7 := by exact_mod_cast h2
    omega

end StepperPaths.Props
