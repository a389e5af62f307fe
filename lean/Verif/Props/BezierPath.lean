import Verif.Proof.BezierShape
import Verif.Props.CurvePath

/-! Paths of lines, arcs and Bezier curves in exact arithmetic (C94). -/

namespace StepperPaths.Props
open StepperPaths Coords Curves Context IntegerCurve Draw Spec Rounded

/-- C94: the shape of a Bezier curve is that curve: at the length from the start to the parameter `t`
are the point and the direction at `t`. -/
theorem C94_shape (b : Bezier) (U M7 κ : ℝ) (h : BezierFits b U M7 κ) (t : ℝ) (h0 : 0 ≤ t) (h1 : t ≤ 1) :
    (bezierShape b).pt (bezierArc b t) = bernstein b.c1 b.c2 b.p2 t ∧
    (bezierShape b).dir (bezierArc b t) = (velocity b.c1 b.c2 b.p2 t).unit :=
  CurvePath.shape_pt h h0 h1

/-- C94: it is traversed with unit speed, and turns by at most `κ` per length. -/
theorem C94_smooth (b : Bezier) (U M7 κ : ℝ) (h : BezierFits b U M7 κ) : (bezierShape b).Smooth κ :=
  CurvePath.bezier_smooth h

/-- C94: `Bezier::value` computes point and direction at a length, up to the error of the table, and
stays at the ends beyond these. -/
theorem C94_near (e : Draw.Env) (b : Bezier) (U M7 κ : ℝ) (h : BezierFits b U M7 κ) (hT : FromTable e b) (w : ℝ) :
    Near (e.bezierInfo b) (bezierShape b) (M7 / 10 ^ 7 / 5040 + U / 2 ^ 52) (κ * (M7 / 10 ^ 7 / 5040 + U / 2 ^ 52)) w :=
  CurvePath.bezier_near h hT le_rfl le_rfl

/-- C94: in exact arithmetic, a path of lines, arcs and Bezier curves is drawn as it should be (as
`C93_path`, but what is required of the path does not refer to what is computed for its curves). -/
theorem C94_path (aMax vMax : Axis → ℤ) (hM : Machine aMax vMax) (e : Draw.Env) (hf : Searches (exactEnv e)) (hT : Tables e)
    (c : Ctx) (h : Sync aMax vMax c) (hc : ∀ i, |(c.channels i).v| ≤ vMax i) (hp : ∀ i, |(c.channels i).pos| ≤ 2 ^ 28)
    (v S M D ε κ : ℝ) (N m : ℕ) (L : CurveLimits (exactEnv e) aMax vMax v S M D ε κ N m)
    (ρ : Axis → ℝ) (hρ : ∀ i, 387 / 100 * S + 1 / 2 + 3 * (N * (1 / 1000000 + 1 / 10 ^ 12) * e.stepScale i) ≤ ρ i)
    (segs : List Seg) (hne : segs ≠ []) (hN : segs.length ≤ N)
    (start : Vec) (hst : ∀ i, coord start i = (c.channels i).pos / e.stepScale i) (hs : Bounded M start)
    (hF : ExactPath e.stepScale M (m * v) D ε κ (v / 100) ρ (fun i => (c.channels i).pos) M [] start segs) (t : ℕ) (ht : c.ticks = some t) :
    ∃ c' err t' segs' n l G, Draw.drawCurves e c segs v = some (c', err) ∧ c'.ticks = some t' ∧
      Omit (FloatVisited id (exactEnv e) c'.events t t') segs segs' ∧
      Dropped id (exactEnv e) ρ (fun i => (c.channels i).pos) [] start segs segs' ∧ FloatIntended (exactEnv e) start segs' n l ∧
      G.flatten = l.map (shapeOf pictures) ∧
      CurveRuns (exactEnv e) v S (n * (1 / 1000000 + 1 / 10 ^ 12) + N * D) c.curveWeight aMax vMax c'.events t G t' ∧
      (∀ i, (err i : ℝ) ≤ 383 / 100 * S + 1) ∧ (∀ w τ, t' ≤ τ → weightAt w c'.events τ = 0) ∧
      (∀ τ < t, (∀ w, weightAt w c'.events τ = weightAt w c.events τ) ∧
        ∀ i, accAt i c'.events τ = accAt i c.events τ) ∧
      (∀ i, |(c'.channels i).v| ≤ vMax i) ∧ Sync aMax vMax c' ∧
      (∀ i, |((c'.channels i).pos : ℝ)| ≤ 2 * M * e.stepScale i + 4 * S + 2) ∧
      ((∀ i, (c'.channels i).pos = (c.channels i).pos) ∨ ∃ q ∈ endsOf (exactEnv e) start segs', ∀ i, |((c'.channels i).pos : ℝ) - coord q i * e.stepScale i| ≤
        386 / 100 * S + 1 / 256 + 3 * (N * (1 / 1000000 + 1 / 10 ^ 12) * e.stepScale i)) := by
  have es : floatStart id (exactEnv e) c = start := by
    ext
    · exact (hst .x).symm
    · exact (hst .y).symm
  have hM0 : 0 ≤ M := (abs_nonneg _).trans (hs .x)
  have hD : 0 ≤ D := le_trans (by positivity) L.tol
  obtain ⟨c', err, t', segs', n, l, G, q1, q2, q3, q4, q5⟩ := C93_path id CurvePath.id_rounding aMax vMax hM (exactEnv e) hf c h
    hc hp v S M D ε κ N m L pictures ρ hρ segs hne hN
    (by rw [es]; exact hs) (by rw [es]; exact CurvePath.exact_path hT hD segs M _ start hF) t ht
  rw [drawCurves_id] at q1
  rw [es] at q4 q5
  exact ⟨c', err, t', segs', n, l, G, q1, q2, q3, q4, q5⟩

/-- C94: when no move leads to where the machine was or to where an earlier line or curve ended, nothing is
left out. -/
theorem C94_all_moves (e : Draw.Env) (M d D ε κ w B : ℝ) {ρ : Axis → ℝ} {P0 : Axis → ℤ} {stops : List Vec} {pos : Vec}
    {segs segs' : List Seg} (h : ExactPath e.stepScale M d D ε κ w ρ P0 B stops pos segs)
    (ha : ExactApart e.stepScale ρ P0 stops pos segs) (hd : Dropped id (exactEnv e) ρ P0 stops pos segs segs') : segs' = segs :=
  CurvePath.dropped_apart hd (CurvePath.exact_apart segs _ _ h ha)

/-- C94: what is burnt: whenever the laser is on, the machine is close to a point of one of the lines
and curves to draw, and close to any point of these it is at the beginning or end of a tick when the
laser is on. -/
theorem C94_traced (aMax vMax : Axis → ℤ) (hM : Machine aMax vMax) (e : Draw.Env) (hf : Searches (exactEnv e)) (hT : Tables e)
    (c : Ctx) (h : Sync aMax vMax c) (hc : ∀ i, |(c.channels i).v| ≤ vMax i) (hp : ∀ i, |(c.channels i).pos| ≤ 2 ^ 28)
    (hw : c.curveWeight ≠ 0) (v S M D ε κ : ℝ) (N m : ℕ) (L : CurveLimits (exactEnv e) aMax vMax v S M D ε κ N m)
    (ρ : Axis → ℝ) (hρ : ∀ i, 387 / 100 * S + 1 / 2 + 3 * (N * (1 / 1000000 + 1 / 10 ^ 12) * e.stepScale i) ≤ ρ i)
    (segs : List Seg) (hne : segs ≠ []) (hN : segs.length ≤ N)
    (start : Vec) (hst : ∀ i, coord start i = (c.channels i).pos / e.stepScale i) (hs : Bounded M start)
    (hF : ExactPath e.stepScale M (m * v) D ε κ (v / 100) ρ (fun i => (c.channels i).pos) M [] start segs) (t : ℕ) (ht : c.ticks = some t) :
    ∃ c' err t' segs' n l, Draw.drawCurves e c segs v = some (c', err) ∧ c'.ticks = some t' ∧
      Omit (FloatVisited id (exactEnv e) c'.events t t') segs segs' ∧
      Dropped id (exactEnv e) ρ (fun i => (c.channels i).pos) [] start segs segs' ∧ FloatIntended (exactEnv e) start segs' n l ∧
      CurveOnly (exactEnv e) c.curveWeight c'.events t t' (l.map (shapeOf pictures))
        (fun i => 386 / 100 * S + (n * (1 / 1000000 + 1 / 10 ^ 12) + N * D) * e.stepScale i) ∧
      CurveAll (exactEnv e) c.curveWeight c'.events t t' (l.map (shapeOf pictures))
        (fun i => 386 / 100 * S + (n * (1 / 1000000 + 1 / 10 ^ 12) + N * D + 13 / 10 * v) * e.stepScale i) := by
  obtain ⟨c', err, t', segs', n, l, G, q1, q2, q3, q3', q4, q5, q6, -⟩ :=
    C94_path aMax vMax hM e hf hT c h hc hp v S M D ε κ N m L ρ hρ segs hne hN start hst hs hF t ht
  have hv : 0 < v := lt_of_lt_of_le (by norm_num) L.tiny
  refine ⟨c', err, t', segs', n, l, q1, q2, q3, q3', q4, ?_, ?_⟩
  · rw [← q5]
    exact CurvePath.runs_only q6 hv hw
  · rw [← q5]
    exact CurvePath.runs_all q6 hv (fun i => le_trans (by norm_num) (L.scale i))

/-- C94: there are such tables and searches. -/
theorem C94_tables (scale : Axis → ℝ) : ∃ e : Draw.Env, e.stepScale = scale ∧ Searches (exactEnv e) ∧ Tables e := by
  classical
  have H := CurvePath.tables_exist
  refine ⟨⟨scale, fun b => if h : ∃ U M7 κ, BezierFits b U M7 κ then (H b h).choose else 0,
    fun b => if h : ∃ U M7 κ, BezierFits b U M7 κ then (H b h).choose_spec.choose else fun _ => 0,
    fun K pos => if h : ∃ i, FoundAt K pos i then h.choose else 0⟩, rfl, ?_, ?_⟩
  · intro K hK pos
    have := C92_search K hK pos
    simp only [exactEnv, dif_pos this]
    exact this.choose_spec
  · intro b U M7 κ h
    have hb : ∃ U M7 κ, BezierFits b U M7 κ := ⟨U, M7, κ, h⟩
    have := (H b hb).choose_spec.choose_spec
    simp only [FromTable, dif_pos hb]
    exact this

/-- The curve with the velocity `30·(1 - t², 2t)`. -/
def bend : Bezier := ⟨⟨10, 0⟩, ⟨20, 10⟩, ⟨20, 30⟩⟩

theorem bend_velocity (t : ℝ) : velocity bend.c1 bend.c2 bend.p2 t = ⟨30 - 30 * t ^ 2, 60 * t⟩ := by
  ext <;> simp only [velocity, bend] <;> ring

theorem bend_speed (t : ℝ) : (velocity bend.c1 bend.c2 bend.p2 t).length = 30 + 30 * t ^ 2 := by
  rw [bend_velocity]
  show √((30 - 30 * t ^ 2) * (30 - 30 * t ^ 2) + 60 * t * (60 * t)) = _
  rw [show (30 - 30 * t ^ 2) * (30 - 30 * t ^ 2) + 60 * t * (60 * t) = (30 + 30 * t ^ 2) ^ 2 by ring]
  exact Real.sqrt_sq (by positivity)

theorem bend_arc (t : ℝ) : bezierArc bend t = 30 * t + 10 * t ^ 3 := by
  simp only [bezierArc, bend_speed]
  have hd : ∀ u ∈ Set.uIcc 0 t, HasDerivAt (fun u : ℝ => 30 * u + 10 * u ^ 3) (30 + 30 * u ^ 2) u := by
    intro u _
    have := ((hasDerivAt_id u).const_mul 30).add (((hasDerivAt_id u).pow 3).const_mul 10)
    refine this.congr_deriv ?_
    simp
    ring
  have hcont : Continuous (fun u : ℝ => 30 + 30 * u ^ 2) := by fun_prop
  rw [intervalIntegral.integral_eq_sub_of_hasDerivAt hd (hcont.intervalIntegrable _ _)]
  ring

theorem bend_fits : BezierFits bend 60 0 (1 / 15) := by
  have h7 : iteratedDeriv 7 (fun u => (velocity bend.c1 bend.c2 bend.p2 u).length) = 0 := by
    have e0 : (fun u => (velocity bend.c1 bend.c2 bend.p2 u).length) = fun u : ℝ => 30 + 30 * u ^ 2 := funext bend_speed
    have e1 : deriv (fun u : ℝ => 30 + 30 * u ^ 2) = fun u => 60 * u := by
      funext u
      have := (((hasDerivAt_id u).pow 2).const_mul 30).const_add 30
      refine (this.congr_deriv ?_).deriv
      simp
      ring
    have e2 : deriv (fun u : ℝ => 60 * u) = fun _ => 60 := by
      funext u
      have := (hasDerivAt_id u).const_mul 60
      exact (this.congr_deriv (by ring)).deriv
    rw [e0, iteratedDeriv_succ', e1, iteratedDeriv_succ', e2]
    funext u
    rw [iteratedDeriv_const]
    rfl
  refine ⟨?_, ?_, ?_, ?_, ?_⟩
  · intro t _ _
    rw [bend_speed]
    nlinarith [sq_nonneg t]
  · intro t h0 h1
    rw [bend_speed]
    nlinarith
  · intro t _ _
    rw [h7]
    simp
  · intro t _ _
    rw [bend_speed]
    nlinarith [sq_nonneg t]
  · intro t _ _
    rw [bend_speed, bend_velocity]
    have e1 : acceleration bend.c1 bend.c2 bend.p2 t = ⟨-60 * t, 60⟩ := by
      ext <;> simp only [acceleration, bend] <;> ring
    rw [e1]
    simp only
    rw [show (30 - 30 * t ^ 2) * 60 - 60 * t * (-60 * t) = 1800 * (1 + t ^ 2) by ring, abs_of_pos (by positivity)]
    nlinarith [sq_nonneg t, mul_nonneg (sq_nonneg t) (sq_nonneg t), mul_nonneg (sq_nonneg t) (mul_nonneg (sq_nonneg t) (sq_nonneg t))]

/-- A move, a Bezier curve, and a line that goes on in the same direction, with 80 steps per mm
and a 40th of a mm per tick.  The middle of the curve is burnt. -/
example (e : Draw.Env) (he : e.stepScale = fun _ => 80) (hf : Searches (exactEnv e)) (hT : Tables e) :
    ∃ c' err t', Draw.drawCurves e (Ctx.new (fun _ => 10) (fun _ => 100))
        [.goTo ⟨10, 0⟩, .curveTo ⟨30, 30⟩ ⟨10, 0⟩ ⟨0, -20⟩, .lineTo ⟨30, 50⟩] (1 / 40) = some (c', err) ∧
      c'.ticks = some t' ∧ (∀ i, err i ≤ 4) ∧ (∀ w, weightAt w c'.events t' = 0) ∧
      ∃ τ < t', (∀ w, weightAt w c'.events τ = 255) ∧ ∃ τ', (τ' = τ ∨ τ' = τ + 1) ∧
        |posAt .x c'.events τ' - 1900| ≤ 6 ∧ |posAt .y c'.events τ' - 600| ≤ 6 := by
  have ht : (Ctx.new (fun _ => 10) (fun _ => 100)).ticks = some 0 := by
    rw [ticks_some]
    simp [Ctx.new]
  have he' : ∀ i, (exactEnv e).stepScale i = 80 := fun i => by rw [exactEnv, he]
  have hb : bezierOf ⟨10, 0⟩ ⟨30, 30⟩ ⟨10, 0⟩ ⟨0, -20⟩ = bend := by
    simp only [bezierOf, bend, vec_sub, vec_add]
    norm_num
  have hpt : ∀ x y : ℝ, |x| ≤ 100 → |y| ≤ 100 → Bounded 100 ⟨x, y⟩ := by
    intro x y hx hy i
    cases i
    · exact hx
    · exact hy
  have L : CurveLimits (exactEnv e) (fun _ => 10) (fun _ => 100) (1 / 40) 1 100 (1 / 10 ^ 11) (1 / 10 ^ 6) (1 / 15) 3 8 := by
    refine ⟨by norm_num, by norm_num, by norm_num, by norm_num, by norm_num, by norm_num, by norm_num, by norm_num, by norm_num,
      ?_, ?_, ?_, ?_, by norm_num, by norm_num, by norm_num, ?_, ?_, ?_⟩ <;>
      (intro i; rw [he']; norm_num)
  have l2 : ((⟨30, 50⟩ : Vec) - ⟨30, 30⟩).length = 20 := by
    show √((30 - 30) * (30 - 30) + (50 - 30) * (50 - 30)) = 20
    rw [show ((30 : ℝ) - 30) * (30 - 30) + (50 - 30) * (50 - 30) = 20 ^ 2 by norm_num]
    exact Real.sqrt_sq (by norm_num)
  have far : ¬ Beside id (fun _ => 80) (fun _ => 5) (fun _ => 0) [] ⟨10, 0⟩ := by
    rintro (h | ⟨q, hq, -⟩)
    · have := h .x
      have e1 : Draw.round (id (coord (⟨10, 0⟩ : Vec) .x * 80)) = 800 := by
        rw [show id (coord (⟨10, 0⟩ : Vec) .x * 80) = ((800 : ℤ) : ℝ) by norm_num [coord]]
        exact Draw.round_int 800
      exact absurd (e1.symm.trans this) (by norm_num)
    · simp at hq
  have hF : ExactPath e.stepScale 100 ((8 : ℕ) * (1 / 40)) (1 / 10 ^ 11) (1 / 10 ^ 6) (1 / 15) (1 / 40 / 100) (fun _ => 5) (fun _ => 0) 100
      [] ⟨0, 0⟩ [.goTo ⟨10, 0⟩, .curveTo ⟨30, 30⟩ ⟨10, 0⟩ ⟨0, -20⟩, .lineTo ⟨30, 50⟩] := by
    rw [he]
    refine ⟨hpt _ _ (by norm_num) (by norm_num), ?_, fun h => absurd h far⟩
    simp only [ExactPath, hb, l2, bend_arc]
    refine ⟨hpt _ _ (by norm_num) (by norm_num),
      ⟨60, 0, bend_fits, by norm_num, by norm_num⟩, by norm_num, by norm_num, hpt _ _ (by norm_num) (by norm_num),
      by norm_num, by norm_num, trivial⟩
  obtain ⟨c', err, t', segs', n, l, G, q1, q2, q3, q3', q4, q5, q6, q7, q8, -⟩ := C94_path (fun _ => 10) (fun _ => 100)
    ⟨by norm_num, by norm_num, by norm_num, by norm_num, by norm_num⟩ e hf hT (Ctx.new (fun _ => 10) (fun _ => 100)) .new
    (by simp [Ctx.new]) (by simp [Ctx.new]) (1 / 40) 1 100 (1 / 10 ^ 11) (1 / 10 ^ 6) (1 / 15) 3 8 L (fun _ => 5) (fun i => by rw [he]; norm_num)
    [.goTo ⟨10, 0⟩, .curveTo ⟨30, 30⟩ ⟨10, 0⟩ ⟨0, -20⟩, .lineTo ⟨30, 50⟩] (by simp) (by simp) ⟨0, 0⟩
    (by intro i; cases i <;> simp [Ctx.new, coord]) (hpt _ _ (by norm_num) (by norm_num)) hF 0 ht
  -- the curve is to be drawn
  have hl : n = 0 ∧ (⟨10, 0⟩, .curveTo ⟨30, 30⟩ ⟨10, 0⟩ ⟨0, -20⟩) ∈ l := by
    have := C94_all_moves e _ _ _ _ _ _ _ hF (by rw [he]; exact ⟨far, trivial⟩) q3'
    subst this
    cases q4 with
    | draw h0 => exact absurd h0 (by simp [FloatDraws])
    | move q4 =>
    cases q4 with
    | draw _ h1 q4 =>
    cases q4 with
    | draw _ h1 q4 =>
    cases q4
    exact ⟨rfl, by simp⟩
  obtain ⟨rfl, hl⟩ := hl
  have hA := CurvePath.runs_all q6 (by norm_num) (fun i => by rw [he']; norm_num)
  rw [q5] at hA
  have hm : ((⟨10, 0⟩, bezierShape bend) : Vec × Shape) ∈ l.map (shapeOf pictures) := by
    refine List.mem_map.2 ⟨_, hl, ?_⟩
    show ((⟨10, 0⟩, bezierShape (bezierOf _ _ _ _)) : Vec × Shape) = _
    rw [hb]
  obtain ⟨τ, -, a2, a3, τ', a4, a5⟩ := hA _ hm (bezierArc bend (1 / 2)) (by rw [bend_arc]; norm_num)
    (by show _ ≤ bezierArc bend 1; rw [bend_arc, bend_arc]; norm_num)
  have hpl : placedAt (⟨10, 0⟩, bezierShape bend) (bezierArc bend (1 / 2)) = ⟨95 / 4, 15 / 2⟩ := by
    show (⟨10, 0⟩ : Vec) + (bezierShape bend).pt (bezierArc bend (1 / 2)) = _
    rw [(C94_shape bend _ _ _ bend_fits (1 / 2) (by norm_num) (by norm_num)).1]
    simp only [vec_add, bernstein, bend]
    norm_num
  refine ⟨c', err, t', q1, q2, fun i => ?_, fun w => q8 w t' le_rfl, τ, a2, a3, τ', a4, ?_, ?_⟩
  · have : (err i : ℝ) < 5 := by linarith [q7 i]
    have : err i < 5 := by exact_mod_cast this
    omega
  · have := a5 .x
    rw [hpl, he'] at this
    have h2 : |((posAt .x c'.events τ' - 1900 : ℤ) : ℝ)| < 7 := by
      push_cast
      refine lt_of_le_of_lt (le_of_eq ?_) (lt_of_le_of_lt this ?_)
      · congr 2; show _ = (95 / 4 : ℝ) * 80; norm_num
      · norm_num [he']
    have : |posAt .x c'.events τ' - 1900| < 7 := by exact_mod_cast h2
    omega
  · have := a5 .y
    rw [hpl, he'] at this
    have h2 : |((posAt .y c'.events τ' - 600 : ℤ) : ℝ)| < 7 := by
      push_cast
      refine lt_of_le_of_lt (le_of_eq ?_) (lt_of_le_of_lt this ?_)
      · congr 2; show _ = (15 / 2 : ℝ) * 80; norm_num
      · norm_num [he']
    have : |posAt .y c'.events τ' - 600| < 7 := by exact_mod_cast h2
    omega

end StepperPaths.Props
