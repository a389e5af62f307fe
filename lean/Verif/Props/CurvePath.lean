import Verif.Proof.CurveTrace
import Verif.Proof.RoundedArc
import Verif.Props.Polyline

/-! Paths of lines and curves with rounded arithmetic (C93). -/

namespace StepperPaths.Props
open StepperPaths Coords Curves Context IntegerCurve Draw Spec Rounded

/-- What is shown of a path, from the beginning. -/
theorem path_done {fl : ℝ → ℝ} (R : FloatRounding fl) {aMax vMax : Axis → ℤ} (hM : Machine aMax vMax) {e : Rounded.Env}
    (hf : Searches e) {c : Ctx} (h : Sync aMax vMax c) (hc : ∀ i, |(c.channels i).v| ≤ vMax i)
    (hp : ∀ i, |(c.channels i).pos| ≤ 2 ^ 28) {v S M D ε κ : ℝ} {N m : ℕ} (L : CurveLimits e aMax vMax v S M D ε κ N m)
    {pic : Vec → Seg → Shape}
    {ρ : Axis → ℝ} (hρ : ∀ i, 387 / 100 * S + 1 / 2 + 3 * (N * (1 / 1000000 + 1 / 10 ^ 12) * e.stepScale i) ≤ ρ i)
    {segs : List Seg} (hN : segs.length ≤ N) (hs : ∀ i, |coord (floatStart fl e c) i| ≤ M)
    (hF : FloatPath fl e pic M (m * v) D ε κ (v / 100) ρ (fun i => (c.channels i).pos) M [] (floatStart fl e c) segs) {t : ℕ} (ht : c.ticks = some t) :
    CurvePath.Done fl e pic aMax vMax v S M (N * D) N ρ (fun i => (c.channels i).pos) [] t 0 (Rounded.init fl e c) [] segs := by
  have hM0 : 0 ≤ M := (abs_nonneg _).trans (hs .x)
  have hS := L.one
  have hg : ∀ i, 0 < e.stepScale i ∧ e.stepScale i ≤ 2 ^ 80 := by
    intro i
    have h0 : 0 < e.stepScale i := lt_of_lt_of_le (by norm_num) (L.scale i)
    refine ⟨h0, ?_⟩
    have h1 := L.speed i
    have h2 : (vMax i : ℝ) < 2 ^ 30 := by exact_mod_cast hM.v2 i
    have h3 := mul_le_mul_of_nonneg_right L.tiny h0.le
    have h4 : e.stepScale i ≤ 2 ^ 71 := by linarith
    exact h4.trans (by norm_num)
  have hst : ∀ i, |coord (floatStart fl e c) i * e.stepScale i - (c.channels i).pos| ≤ 1 / 2 ^ 22 := by
    intro i
    have := start_near R (hp i) (hg i).1 (hg i).2
    cases i <;> exact this.1
  have hsf : FloatPoint fl M (floatStart fl e c) := by
    intro i
    refine ⟨hs i, ?_⟩
    cases i <;> exact R.idem _
  have et : (c.channels .x).ticks = t := (ticks_some.1 ht).1
  exact CurvePath.finish_path R hM L hf (s := Rounded.init fl e c)
    (l := []) (k := 0) (t := t) (B := M) (segs := segs) et.ge h hc (by
      intro i
      show |((c.channels i).pos : ℝ)| ≤ _
      have h1 : |coord (floatStart fl e c) i * e.stepScale i| ≤ M * e.stepScale i := by
        rw [abs_mul, abs_of_pos (hg i).1]
        exact mul_le_mul_of_nonneg_right (hs i) (hg i).1.le
      have h2 : 0 ≤ M * e.stepScale i := mul_nonneg hM0 (hg i).1.le
      obtain ⟨a1, a2⟩ := abs_le.1 (hst i)
      obtain ⟨b1, b2⟩ := abs_le.1 h1
      rw [abs_le]; constructor <;> linarith)
    (by intro i; show ((0 : ℤ) : ℝ) ≤ _; push_cast; linarith)
    (CurvePath.Pending.first rfl rfl rfl hsf) (by simpa using hN) (by simp [CurvePath.lenTo]) hM0 hρ (P0 := fun i => (c.channels i).pos) (stops := [])
    (.inl fun _ => rfl) (by simp) hF

/-- C93: with rounding, a path of lines and curves is drawn as it should be, if the curves are computed
well enough.  `draw_curves` returns.  Up to moves to where the machine is already, and up to closing
lines shorter than 0.000001, the path consists of the lines and curves that were asked for, in their
order, grouped into strokes.  Each stroke is preceded by a move with the laser off, the laser is on
during the stroke, which takes as long as the speed says, the limits of speed and acceleration are
kept at every tick, and at each tick the machine is within `3.86·S` steps of the point that divides
the path as the time is divided.  The reported error is at most `3.83·S + 1`.  In the end the laser
is off.  Only moves to where the machine was in the beginning or to within `ρ` steps, about `3.87·S`, of
where an earlier line or curve ended may be left out.  The machine stops close to the end of a line or
curve (or does not move). -/
theorem C93_path (fl : ℝ → ℝ) (R : FloatRounding fl) (aMax vMax : Axis → ℤ) (hM : Machine aMax vMax) (e : Rounded.Env)
    (hf : Searches e) (c : Ctx) (h : Sync aMax vMax c) (hc : ∀ i, |(c.channels i).v| ≤ vMax i)
    (hp : ∀ i, |(c.channels i).pos| ≤ 2 ^ 28) (v S M D ε κ : ℝ) (N m : ℕ) (L : CurveLimits e aMax vMax v S M D ε κ N m)
    (pic : Vec → Seg → Shape)
    (ρ : Axis → ℝ) (hρ : ∀ i, 387 / 100 * S + 1 / 2 + 3 * (N * (1 / 1000000 + 1 / 10 ^ 12) * e.stepScale i) ≤ ρ i)
    (segs : List Seg) (hne : segs ≠ []) (hN : segs.length ≤ N) (hs : ∀ i, |coord (floatStart fl e c) i| ≤ M)
    (hF : FloatPath fl e pic M (m * v) D ε κ (v / 100) ρ (fun i => (c.channels i).pos) M [] (floatStart fl e c) segs) (t : ℕ) (ht : c.ticks = some t) :
    ∃ c' err t' segs' n l G, Rounded.drawCurves fl e c segs v = some (c', err) ∧ c'.ticks = some t' ∧
      Omit (FloatVisited fl e c'.events t t') segs segs' ∧
      Dropped fl e ρ (fun i => (c.channels i).pos) [] (floatStart fl e c) segs segs' ∧ FloatIntended e (floatStart fl e c) segs' n l ∧
      G.flatten = l.map (shapeOf pic) ∧
      CurveRuns e v S (n * (1 / 1000000 + 1 / 10 ^ 12) + N * D) c.curveWeight aMax vMax c'.events t G t' ∧
      (∀ i, (err i : ℝ) ≤ 383 / 100 * S + 1) ∧ (∀ w τ, t' ≤ τ → weightAt w c'.events τ = 0) ∧
      (∀ τ < t, (∀ w, weightAt w c'.events τ = weightAt w c.events τ) ∧
        ∀ i, accAt i c'.events τ = accAt i c.events τ) ∧
      (∀ i, |(c'.channels i).v| ≤ vMax i) ∧ Sync aMax vMax c' ∧
      (∀ i, |((c'.channels i).pos : ℝ)| ≤ 2 * M * e.stepScale i + 4 * S + 2) ∧
      ((∀ i, (c'.channels i).pos = (c.channels i).pos) ∨ ∃ q ∈ endsOf e (floatStart fl e c) segs', ∀ i, |((c'.channels i).pos : ℝ) - coord q i * e.stepScale i| ≤
        386 / 100 * S + 1 / 256 + 3 * (N * (1 / 1000000 + 1 / 10 ^ 12) * e.stepScale i)) := by
  have et : (c.channels .x).ticks = t := (ticks_some.1 ht).1
  obtain ⟨s, segs', n, l, G, q1, q2, q3, q4, q5, q6, q7, q9, q10, q8, -⟩ := path_done R hM hf h hc hp L hρ hN hs hF ht
  obtain ⟨hsy, hl⟩ := Rounded.finish_later (s := Rounded.init fl e c) h q1
  obtain ⟨c2, h2⟩ : ∃ c2, s.ctx.addWeightChange s.ctx.moveWeight (s.ctx.channels .x).ticks = some c2 := by
    rw [← Option.ne_none_iff_exists', Ne, C29_panics_iff aMax vMax s.ctx hsy _
      (ticks_some.2 ⟨rfl, hsy.inv.2.1.symm⟩)]
    omega
  obtain ⟨w1, w2, w3, w4, w5, w6, w7⟩ := weight_now hsy h2
  have em : s.ctx.moveWeight = 0 := hsy.reach.inv.2.2.2.2
  have hle : t ≤ (s.ctx.channels .x).ticks := by
    have := hl.past.ticks
    simp only [Rounded.init] at this
    omega
  have hdraw : Rounded.drawCurves fl e c segs v = some (c2, s.maxErr) := by
    have : Rounded.drawPen fl e c segs v = some s := q1
    simp only [Rounded.drawCurves, List.isEmpty_iff, if_neg hne, this, Option.bind_eq_bind, Option.bind_some, h2]
    rfl
  refine ⟨c2, s.maxErr, (s.ctx.channels .x).ticks, segs', n, l, G, hdraw, ?_, ?_, q8, q3, by simpa using q4, ?_, q6, ?_, ?_, ?_, w1, ?_, ?_⟩
  · rw [ticks_some, w2]
    exact ⟨rfl, hsy.inv.2.1.symm⟩
  · have key : ∀ {a b : List Seg}, Omit (FloatVisited fl e s.ctx.events t (s.ctx.channels .x).ticks) a b →
        Omit (FloatVisited fl e c2.events t (s.ctx.channels .x).ticks) a b := by
      intro a b hh
      induction hh with
      | nil => exact .nil
      | keep x _ ih => exact .keep x ih
      | skip hv _ ih =>
        obtain ⟨T, t1, t2, t3⟩ := hv
        refine .skip ⟨T, t1, t2, fun i => ?_⟩ ih
        rw [← t3 i]
        unfold posAt
        rw [played_congr (fun τ _ => w6 i τ)]
    exact key q2
  · have key : ∀ {a b : ℕ} {ss : List (List (Vec × Shape))},
        CurveRuns e v S ((0 + n : ℕ) * gap + N * D) c.curveWeight aMax vMax s.ctx.events a ss b →
        b ≤ (s.ctx.channels .x).ticks →
        CurveRuns e v S (n * gap + N * D) c.curveWeight aMax vMax c2.events a ss b := by
      intro a b ss hh
      induction hh with
      | nil t => exact fun _ => .nil t
      | cons S1 h2 ih =>
        intro hle
        have := CurvePath.runs_le h2
        refine .cons (S1.mono (fun i => le_trans (by norm_num) (L.scale i)) (by rw [zero_add]) (fun i τ _ => w6 i τ) (fun w τ hτ => ?_)) (ih hle)
        rw [w7, if_pos (by omega)]
    have := key q5 le_rfl
    simp only [Rounded.init] at this
    rw [et] at this
    exact this
  · intro w τ hτ
    rw [w7, if_neg (by omega), em]
  · intro τ hτ
    constructor
    · intro w
      rw [w7, if_pos (by omega)]
      exact hl.past.weight w τ (by simp only [Rounded.init]; omega)
    · intro i
      rw [w6]
      refine hl.past.acc i τ ?_
      simp only [Rounded.init]
      cases i
      · omega
      · have := (ticks_some.1 ht).2
        omega
  · intro i
    rw [w2]
    exact q7 i
  · intro i
    rw [w2]
    exact q9 i
  · rw [w2]
    exact q10

/-- C93: when there are no such moves, nothing is left out. -/
theorem C93_all_moves (fl : ℝ → ℝ) (e : Rounded.Env) (ρ : Axis → ℝ) (P0 : Axis → ℤ) (stops : List Vec) (pos : Vec)
    (segs segs' : List Seg) (h : Dropped fl e ρ P0 stops pos segs segs') (ha : Apart fl e ρ P0 stops pos segs) : segs' = segs :=
  CurvePath.dropped_apart h ha

/-- C93: what is burnt: whenever the laser is on, the machine is close to a point of one of the lines
and curves to draw, and close to any point of these it is at the beginning or end of a tick when the
laser is on. -/
theorem C93_traced (fl : ℝ → ℝ) (R : FloatRounding fl) (aMax vMax : Axis → ℤ) (hM : Machine aMax vMax) (e : Rounded.Env)
    (hf : Searches e) (c : Ctx) (h : Sync aMax vMax c) (hc : ∀ i, |(c.channels i).v| ≤ vMax i)
    (hp : ∀ i, |(c.channels i).pos| ≤ 2 ^ 28) (hw : c.curveWeight ≠ 0) (v S M D ε κ : ℝ) (N m : ℕ)
    (L : CurveLimits e aMax vMax v S M D ε κ N m) (pic : Vec → Seg → Shape)
    (ρ : Axis → ℝ) (hρ : ∀ i, 387 / 100 * S + 1 / 2 + 3 * (N * (1 / 1000000 + 1 / 10 ^ 12) * e.stepScale i) ≤ ρ i)
    (segs : List Seg) (hne : segs ≠ []) (hN : segs.length ≤ N) (hs : ∀ i, |coord (floatStart fl e c) i| ≤ M)
    (hF : FloatPath fl e pic M (m * v) D ε κ (v / 100) ρ (fun i => (c.channels i).pos) M [] (floatStart fl e c) segs) (t : ℕ) (ht : c.ticks = some t) :
    ∃ c' err t' segs' n l, Rounded.drawCurves fl e c segs v = some (c', err) ∧ c'.ticks = some t' ∧
      Omit (FloatVisited fl e c'.events t t') segs segs' ∧
      Dropped fl e ρ (fun i => (c.channels i).pos) [] (floatStart fl e c) segs segs' ∧ FloatIntended e (floatStart fl e c) segs' n l ∧
      CurveOnly e c.curveWeight c'.events t t' (l.map (shapeOf pic))
        (fun i => 386 / 100 * S + (n * (1 / 1000000 + 1 / 10 ^ 12) + N * D) * e.stepScale i) ∧
      CurveAll e c.curveWeight c'.events t t' (l.map (shapeOf pic))
        (fun i => 386 / 100 * S + (n * (1 / 1000000 + 1 / 10 ^ 12) + N * D + 13 / 10 * v) * e.stepScale i) := by
  obtain ⟨c', err, t', segs', n, l, G, q1, q2, q3, q3', q4, q5, q6, -⟩ :=
    C93_path fl R aMax vMax hM e hf c h hc hp v S M D ε κ N m L pic ρ hρ segs hne hN hs hF t ht
  have hv : 0 < v := lt_of_lt_of_le (by norm_num) L.tiny
  refine ⟨c', err, t', segs', n, l, q1, q2, q3, q3', q4, ?_, ?_⟩
  · rw [← q5]
    exact CurvePath.runs_only q6 hv hw
  · rw [← q5]
    exact CurvePath.runs_all q6 hv (fun i => le_trans (by norm_num) (L.scale i))

/-- C93: an arc is computed well enough, if radius and angles are not extreme, so arcs may be among the
curves of such a path: the rest of the path is to start at a point that differs by at most `D` from
the end of the arc.  `odd` and the start of the arc at the current point: the same value is added and
subtracted. -/
theorem C93_arc (fl : ℝ → ℝ) (R : FloatRounding fl) (odd : ∀ x, fl (-x) = -fl x) (sn cs : ℝ → ℝ) (T : FloatTrig sn cs)
    (e : Rounded.Env) (pos : Vec) (rx ry a b rot A : ℝ)
    (he : e.other pos (.arc rx ry a b rot) = Rounded.arcInfo fl sn cs pos rx ry a b)
    (pic : Vec → Seg → Shape) (hpic : pic pos (.arc rx ry a b rot) = arcShape rx a b) (h : ArcFits rx a b A) (ha : fl a = a)
    (hxy : |fl (rx - ry)| ≤ 1 / 2 ^ 52) (M d D ε κ w B : ℝ)
    (ρ : Axis → ℝ) (P0 : Axis → ℤ) (stops : List Vec) (hD : (31 * A * rx + M) / 2 ^ 52 ≤ D) (hε : 13 * A / 2 ^ 52 ≤ ε)
    (hw : w ≤ rx) (hκ : 1 / rx ≤ κ) (hp : ∀ i, |coord pos i| ≤ M)
    (hM : ∀ i, |coord pos i + coord ((arcShape rx a b).pt (rx * |b - a|)) i| + D ≤ M)
    (hd : d ≤ rx * |b - a|) (hB : rx * |b - a| ≤ B) (segs : List Seg)
    (rest : ∀ p, FloatPoint fl M p → (∀ i, |coord pos i + coord ((arcShape rx a b).pt (rx * |b - a|)) i - coord p i| ≤ D) →
      FloatPath fl e pic M d D ε κ w ρ P0 (B - rx * |b - a|) (p :: stops) p segs) :
    FloatPath fl e pic M d D ε κ w ρ P0 B stops pos (.arc rx ry a b rot :: segs) := by
  have hr : 0 < rx := lt_of_lt_of_le (by norm_num) h.big
  have hA : 0 < A := lt_of_lt_of_le one_pos h.one
  have hM0 : 0 ≤ M := (abs_nonneg _).trans (hp .x)
  have hend := fun i => (CurvePath.arc_end R T h hp i).trans hD
  have hAr : 0 < A * rx := by positivity
  have hpt : FloatPoint fl M (Rounded.vadd fl pos
      (circleValue fl sn cs (circleNew fl sn cs rx a b) (circleLength fl (circleNew fl sn cs rx a b))).1) := by
    intro i
    refine ⟨?_, ?_⟩
    · have h1 := hend i
      have h2 : |coord pos i + coord ((arcShape rx a b).pt (arcShape rx a b).len) i| + D ≤ M := hM i
      rw [abs_sub_comm] at h1
      have := CurvePath.abs_of_near h1 le_rfl
      linarith
    · rw [CurvePath.coord_vadd, R.idem]
  refine ⟨circleInfo fl sn cs (circleNew fl sn cs rx a b), _, ?_, hpt, ?_, ?_, ?_, ?_, ?_, ?_⟩
  · rw [he, arcInfo, if_neg (not_lt.2 hxy)]
  · rw [hpic]
    have hs := CurvePath.arc_smooth hr a b
    exact ⟨hs.origin, hs.moves, hs.unit, fun i s s' => (hs.bends i s s').trans (by gcongr)⟩
  · rw [hpic]
    exact CurvePath.arc_near R odd T h ha hw (le_trans (by linarith) hD) hε
  · rw [hpic]
    exact hend
  · rw [hpic]
    exact hd
  · rw [hpic]
    exact hB
  · rw [hpic]
    exact rest _ hpt hend

/-- C93: rounding to the nearest `f64` is the same for both signs. -/
theorem C93_double_odd (x : ℝ) : double (-x) = -double x := double_neg x

/-- What the arcs look like. -/
noncomputable def arcs : Vec → Seg → Shape
  | _, .arc r _ a b _ => arcShape r a b
  | _, _ => lineShape ⟨0, 0⟩

/-- A line, an arc that goes on in the same direction, and another line, with 80 steps per mm and a
40th of a mm per tick, in `f64` arithmetic.  The middle of the arc is burnt. -/
example (e : Rounded.Env) (he : ∀ i, e.stepScale i = 80) (hf : Searches e) (sn cs : ℝ → ℝ) (T : FloatTrig sn cs)
    (ho : ∀ pos rx ry a b rot, e.other pos (.arc rx ry a b rot) = Rounded.arcInfo double sn cs pos rx ry a b) :
    ∃ c' err t', Rounded.drawCurves double e (Ctx.new (fun _ => 10) (fun _ => 100))
        [.lineTo ⟨0, 10⟩, .arc 10 10 0 1 0, .lineTo ⟨-20, 40⟩] (1 / 40) = some (c', err) ∧
      c'.ticks = some t' ∧ (∀ i, err i ≤ 4) ∧ (∀ w, weightAt w c'.events t' = 0) ∧
      ∃ τ < t', (∀ w, weightAt w c'.events τ = 255) ∧ ∃ τ', (τ' = τ ∨ τ' = τ + 1) ∧
        |(posAt .x c'.events τ' : ℝ) - (800 * Real.cos (1 / 2) - 800)| ≤ 7 ∧
        |(posAt .y c'.events τ' : ℝ) - (800 * Real.sin (1 / 2) + 800)| ≤ 7 := by
  have R := C90_double
  have hs : floatStart double e (Ctx.new (fun _ => 10) (fun _ => 100)) = ⟨0, 0⟩ := by
    simp [floatStart, Ctx.new, R.zero]
  have ht : (Ctx.new (fun _ => 10) (fun _ => 100)).ticks = some 0 := by
    rw [ticks_some]
    simp [Ctx.new]
  have hpt : ∀ x y : ℤ, |x| ≤ 100 → |y| ≤ 100 → FloatPoint double 100 ⟨x, y⟩ := by
    intro x y hx hy i
    cases i
    · exact ⟨by show |(x : ℝ)| ≤ 100; exact_mod_cast hx, R.int x (hx.trans (by norm_num))⟩
    · exact ⟨by show |(y : ℝ)| ≤ 100; exact_mod_cast hy, R.int y (hy.trans (by norm_num))⟩
  have sub : ∀ a b c d : ℝ, (⟨a, b⟩ - ⟨c, d⟩ : Vec) = ⟨a - c, b - d⟩ := fun _ _ _ _ => rfl
  have up : ∀ x y : ℝ, (⟨x, y⟩ : Vec).length ≤ |x| + |y| := fun x y => length_le ⟨x, y⟩
  have lo : ∀ x y : ℝ, |x| ≤ (⟨x, y⟩ : Vec).length := fun x y => le_length ⟨x, y⟩ .x
  have lo' : ∀ x y : ℝ, |y| ≤ (⟨x, y⟩ : Vec).length := fun x y => le_length ⟨x, y⟩ .y
  have L : CurveLimits e (fun _ => 10) (fun _ => 100) (1 / 40) 1 100 (1 / 10 ^ 11) (1 / 10 ^ 6) (1 / 10) 3 8 := by
    refine ⟨by norm_num, by norm_num, by norm_num, by norm_num, by norm_num, by norm_num, by norm_num, by norm_num, by norm_num,
      ?_, ?_, ?_, ?_, by norm_num, by norm_num, by norm_num, ?_, ?_, ?_⟩ <;>
      (intro i; rw [he]; norm_num)
  have p1 : FloatPoint double 100 ⟨0, 10⟩ := by simpa using hpt 0 10 (by norm_num) (by norm_num)
  have p3 : FloatPoint double 100 ⟨-20, 40⟩ := by simpa using hpt (-20) 40 (by norm_num) (by norm_num)
  have p4 : FloatPoint double 100 ⟨0, 0⟩ := by simpa using hpt 0 0 (by norm_num) (by norm_num)
  have u1 := up 0 10
  have l1 := lo' 0 10
  norm_num at u1 l1
  -- the end of the arc
  have hx : |10 * (Real.cos 1 - 1)| ≤ 20 := by
    obtain ⟨a1, a2⟩ := abs_le.1 (Real.abs_cos_le_one 1)
    rw [abs_le]; constructor <;> linarith
  have hy : |10 * Real.sin 1| ≤ 10 := by
    obtain ⟨a1, a2⟩ := abs_le.1 (Real.abs_sin_le_one 1)
    rw [abs_le]; constructor <;> linarith
  have hq : (arcShape 10 0 1).pt (10 * |(1 : ℝ) - 0|) = ⟨10 * (Real.cos 1 - 1), 10 * Real.sin 1⟩ := by
    simp [arcShape]
  have hF : FloatPath double e arcs 100 ((8 : ℕ) * (1 / 40)) (1 / 10 ^ 11) (1 / 10 ^ 6) (1 / 10) (1 / 40 / 100) (fun _ => 5) (fun _ => 0) 100
      [] ⟨0, 0⟩ [.lineTo ⟨0, 10⟩, .arc 10 10 0 1 0, .lineTo ⟨-20, 40⟩] := by
    refine ⟨p1, by simp only [sub]; norm_num; linarith, by simp only [sub]; norm_num; linarith, ?_⟩
    have hr10 : ((⟨0, 10⟩ : Vec) - ⟨0, 0⟩).length ≤ 10 := by simp only [sub]; norm_num; linarith
    refine C93_arc double R C93_double_odd sn cs T e ⟨0, 10⟩ 10 10 0 1 0 1 (ho _ _ _ _ _ _) arcs rfl
      ⟨by norm_num, by norm_num, by norm_num, by norm_num, by norm_num, by norm_num⟩ R.zero (by norm_num [R.zero]) 100 _ _ _ _ _ _ _ _ _
      (by norm_num) (by norm_num) (by norm_num) (by norm_num) (fun i => (p1 i).1) ?_ (by norm_num) (by norm_num; linarith) _ ?_
    · intro i
      rw [hq]
      cases i
      · show |0 + 10 * (Real.cos 1 - 1)| + _ ≤ _
        rw [zero_add]; linarith
      · show |10 + 10 * Real.sin 1| + _ ≤ _
        have := abs_add_le 10 (10 * Real.sin 1)
        rw [abs_of_pos (by norm_num : (0 : ℝ) < 10)] at this
        linarith
    · intro p _ hp
      rw [hq] at hp
      have hpx : |0 + 10 * (Real.cos 1 - 1) - p.x| ≤ 1 / 10 ^ 11 := hp .x
      have hpy : |10 + 10 * Real.sin 1 - p.y| ≤ 1 / 10 ^ 11 := hp .y
      obtain ⟨a1, a2⟩ := abs_le.1 hpx
      obtain ⟨b1, b2⟩ := abs_le.1 hpy
      obtain ⟨c1, c2⟩ := abs_le.1 hx
      obtain ⟨d1, d2⟩ := abs_le.1 hy
      have g1 := up (-20 - p.x) (40 - p.y)
      have g2 := lo' (-20 - p.x) (40 - p.y)
      have c3 : 10 * (Real.cos 1 - 1) ≤ 0 := by linarith [Real.cos_le_one 1]
      have g3 : |-20 - p.x| ≤ 21 := by rw [abs_le]; constructor <;> linarith
      have g4 : |40 - p.y| ≤ 41 := by rw [abs_le]; constructor <;> linarith
      have g5 := le_abs_self (40 - p.y)
      have e1 : (⟨-20, 40⟩ : Vec) - p = ⟨-20 - p.x, 40 - p.y⟩ := rfl
      refine ⟨p3, ?_, ?_, trivial⟩
      · rw [e1]; norm_num; linarith
      · rw [e1]; norm_num; linarith
  have hs1 : ∀ i, |coord (⟨0, 0⟩ : Vec) i| ≤ 100 := fun i => (p4 i).1
  obtain ⟨c', err, t', segs', n, l, G, q1, q2, q3, -, q4, q5, q6, q7, q8, -⟩ := C93_path double R (fun _ => 10) (fun _ => 100)
    ⟨by norm_num, by norm_num, by norm_num, by norm_num, by norm_num⟩ e hf (Ctx.new (fun _ => 10) (fun _ => 100)) .new
    (by simp [Ctx.new]) (by simp [Ctx.new]) (1 / 40) 1 100 (1 / 10 ^ 11) (1 / 10 ^ 6) (1 / 10) 3 8 L arcs (fun _ => 5) (fun i => by rw [he]; norm_num)
    [.lineTo ⟨0, 10⟩, .arc 10 10 0 1 0, .lineTo ⟨-20, 40⟩] (by simp) (by simp) (by rw [hs]; exact hs1)
    (by rw [hs]; exact hF) 0 ht
  rw [hs] at q4
  -- the arc is to be drawn
  have hl : n = 0 ∧ (⟨0, 10⟩, .arc 10 10 0 1 0) ∈ l := by
    cases q3 with
    | keep _ q3 =>
    cases q3 with
    | keep _ q3 =>
    cases q3 with
    | keep _ q3 =>
    cases q3
    cases q4 with
    | draw _ h1 q4 =>
    cases h1
    cases q4 with
    | draw _ h1 q4 =>
    cases q4 with
    | draw _ h1 q4 =>
    cases q4
    exact ⟨rfl, by simp⟩
  obtain ⟨rfl, hl⟩ := hl
  have hA := CurvePath.runs_all q6 (by norm_num) (fun i => by rw [he]; norm_num)
  rw [q5] at hA
  obtain ⟨τ, -, a2, a3, τ', a4, a5⟩ := hA (⟨0, 10⟩, arcShape 10 0 1) (List.mem_map.2 ⟨_, hl, rfl⟩) 5 (by norm_num)
    (by show (5 : ℝ) ≤ 10 * |1 - 0|; norm_num)
  refine ⟨c', err, t', q1, q2, fun i => ?_, fun w => q8 w t' le_rfl, τ, a2, a3, τ', a4, ?_, ?_⟩
  · have : (err i : ℝ) < 5 := by linarith [q7 i]
    have : err i < 5 := by exact_mod_cast this
    omega
  · have := a5 .x
    rw [he] at this
    have e1 : coord (placedAt (⟨0, 10⟩, arcShape 10 0 1) 5) .x = 10 * (Real.cos (1 / 2) - 1) := by
      show 0 + 10 * (Real.cos (0 + (if (0 : ℝ) ≤ 1 then (1 : ℝ) else -1) * 5 / 10) - Real.cos 0) = _
      rw [if_pos (by norm_num), Real.cos_zero]
      norm_num
    rw [e1] at this
    rw [show 800 * Real.cos (1 / 2) - 800 = 10 * (Real.cos (1 / 2) - 1) * 80 by ring]
    refine this.trans ?_
    norm_num [he]
  · have := a5 .y
    rw [he] at this
    have e1 : coord (placedAt (⟨0, 10⟩, arcShape 10 0 1) 5) .y = 10 + 10 * Real.sin (1 / 2) := by
      show 10 + 10 * (Real.sin (0 + (if (0 : ℝ) ≤ 1 then (1 : ℝ) else -1) * 5 / 10) - Real.sin 0) = _
      rw [if_pos (by norm_num), Real.sin_zero]
      norm_num
    rw [e1] at this
    rw [show 800 * Real.sin (1 / 2) + 800 = (10 + 10 * Real.sin (1 / 2)) * 80 by ring]
    refine this.trans ?_
    norm_num [he]

/-- Sine and cosine that are rounded correctly. -/
example : FloatTrig (fun x => double (Real.sin x)) (fun x => double (Real.cos x)) := by
  have : ∀ y : ℝ, |y| ≤ 1 → |double y - y| ≤ 1 / 2 ^ 52 := fun y hy => C90_double.le hy le_rfl
  exact ⟨fun x => this _ (Real.abs_sin_le_one x), fun x => this _ (Real.abs_cos_le_one x)⟩

/-- C93: a path with an elliptic arc is not drawn: `draw_curves` returns an error (or stops earlier). -/
theorem C93_ellipse (fl sn cs : ℝ → ℝ) (e : Rounded.Env)
    (he : ∀ pos rx ry a b rot, e.other pos (.arc rx ry a b rot) = Rounded.arcInfo fl sn cs pos rx ry a b)
    (c : Ctx) (v rx ry a b rot : ℝ) (h : 1 / 2 ^ 52 < |fl (rx - ry)|) (segs : List Seg) (hs : .arc rx ry a b rot ∈ segs) :
    Rounded.drawCurves fl e c segs v = none := by
  have hrun : ∀ segs s, .arc rx ry a b rot ∈ segs → Rounded.run fl e v segs s = none := by
    intro segs
    induction segs with
    | nil => intro s h; cases h
    | cons seg segs ih =>
      intro s h1
      rw [Rounded.run]
      rcases List.mem_cons.1 h1 with rfl | h1
      · have : Rounded.step fl e v s (.arc rx ry a b rot) = none := by
          have h0 : Rounded.arcInfo fl sn cs s.current rx ry a b = none := if_pos h
          simp [Rounded.step, Rounded.segInfo, he, h0]
        rw [this]
        rfl
      · cases hq : Rounded.step fl e v s seg with
        | none => rfl
        | some s' => exact ih s' h1
  have hne : segs.isEmpty = false := by
    cases segs
    · cases hs
    · rfl
  rw [Rounded.drawCurves, hne]
  simp [Rounded.drawPen, hrun segs _ hs]

/-- The radii 10 and 10.5. -/
example : 1 / 2 ^ 52 < |double (10 - 21 / 2)| := by
  have := double_exact (k := -1) (j := -1) (by norm_num) (by norm_num)
  norm_num at this ⊢
  rw [show (-(1 / 2) : ℝ) = -1 / 2 by norm_num] at *
  simp [this]
  norm_num [abs_of_pos]

end StepperPaths.Props
