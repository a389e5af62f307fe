import Verif.Proof.RoundedTrace
import Verif.Props.Rounded

/-! Paths of lines with rounded arithmetic (C92). -/

namespace StepperPaths.Props
open StepperPaths Coords Curves Context IntegerCurve Draw Spec Rounded

/-- C92: with rounding, a path of lines is drawn as it should be.  `draw_curves` returns.  Up to
moves to where the machine is already, and up to closing lines shorter than 0.000001, the path
consists of the lines that were asked for, in their order, grouped into strokes.  Each
stroke is preceded by a move with the laser off, the laser is on during the stroke, which takes as
long as the speed says, the limits of speed and acceleration are kept at every tick, and at each
tick the machine is within `3.86·S` steps of the point that divides the lines as the time is
divided.  The reported error is at most `3.83·S + 1`.  In the end the laser is off. -/
theorem C92_lines (fl : ℝ → ℝ) (R : FloatRounding fl) (aMax vMax : Axis → ℤ) (hM : Machine aMax vMax) (e : Rounded.Env)
    (hf : Searches e) (c : Ctx) (h : Sync aMax vMax c) (hc : ∀ i, |(c.channels i).v| ≤ vMax i)
    (hp : ∀ i, |(c.channels i).pos| ≤ 2 ^ 28) (v S M : ℝ) (N m : ℕ) (L : FloatLimits e aMax vMax v S M N m)
    (segs : List Seg) (hne : segs ≠ []) (hN : segs.length ≤ N) (hs : ∀ i, |coord (floatStart fl e c) i| ≤ M)
    (hF : FloatLines fl M (m * v) M (floatStart fl e c) segs) (t : ℕ) (ht : c.ticks = some t) :
    ∃ c' err t' segs' n l G, Rounded.drawCurves fl e c segs v = some (c', err) ∧ c'.ticks = some t' ∧
      Omit (FloatVisited fl e c'.events t t') segs segs' ∧ FloatIntended e (floatStart fl e c) segs' n l ∧
      G.flatten = l.map lineOf ∧
      FloatRuns e v S (n * (1 / 1000000 + 1 / 10 ^ 12)) c.curveWeight aMax vMax c'.events t G t' ∧
      (∀ i, (err i : ℝ) ≤ 383 / 100 * S + 1) ∧ (∀ w τ, t' ≤ τ → weightAt w c'.events τ = 0) ∧
      (∀ τ < t, (∀ w, weightAt w c'.events τ = weightAt w c.events τ) ∧
        ∀ i, accAt i c'.events τ = accAt i c.events τ) ∧
      (∀ i, |(c'.channels i).v| ≤ vMax i) ∧ Sync aMax vMax c' := by
  have hM0 : 0 ≤ M := (abs_nonneg _).trans (hs .x)
  have hN1 : 1 ≤ N := (List.length_pos_iff.2 hne).trans_le hN
  have hS := L.one
  have hg : ∀ i, 0 < e.stepScale i ∧ e.stepScale i ≤ 2 ^ 80 := by
    intro i
    have h0 : 0 < e.stepScale i := lt_of_lt_of_le (by norm_num) (L.scale i)
    refine ⟨h0, ?_⟩
    have h1 := L.speed i
    have h2 : (vMax i : ℝ) < 2 ^ 30 := by exact_mod_cast hM.v2 i
    have h3 := mul_le_mul_of_nonneg_right L.tiny h0.le
    have h4 : e.stepScale i ≤ 2 ^ 71 := by linarith
    exact h4.trans (by norm_num)
  have hst : ∀ i, |coord (floatStart fl e c) i * e.stepScale i - (c.channels i).pos| ≤ 1 / 2 ^ 22 := by
    intro i
    have := start_near R (hp i) (hg i).1 (hg i).2
    cases i <;> exact this.1
  have hsf : FloatPoint fl M (floatStart fl e c) := by
    intro i
    refine ⟨hs i, ?_⟩
    cases i <;> exact R.idem _
  have et : (c.channels .x).ticks = t := (ticks_some.1 ht).1
  obtain ⟨s, segs', n, l, G, q1, q2, q3, q4, q5, q6, q7⟩ := finish_lines R hM L hf (s := Rounded.init fl e c)
    (l := []) (k := 0) (t := t) (B := M) (segs := segs) et.ge h hc (by
      intro i
      show |((c.channels i).pos : ℝ)| ≤ _
      have h1 : |coord (floatStart fl e c) i * e.stepScale i| ≤ M * e.stepScale i := by
        rw [abs_mul, abs_of_pos (hg i).1]
        exact mul_le_mul_of_nonneg_right (hs i) (hg i).1.le
      have h2 : 0 ≤ M * e.stepScale i := mul_nonneg hM0 (hg i).1.le
      obtain ⟨a1, a2⟩ := abs_le.1 (hst i)
      obtain ⟨b1, b2⟩ := abs_le.1 h1
      rw [abs_le]; constructor <;> linarith)
    (by intro i; show ((0 : ℤ) : ℝ) ≤ _; push_cast; linarith)
    (Pending.first rfl rfl rfl hsf) (by simpa using hN) (by simp [lenTo]) hM0 hF
  obtain ⟨hsy, hl⟩ := Rounded.finish_later (s := Rounded.init fl e c) h q1
  obtain ⟨c2, h2⟩ : ∃ c2, s.ctx.addWeightChange s.ctx.moveWeight (s.ctx.channels .x).ticks = some c2 := by
    rw [← Option.ne_none_iff_exists', Ne, C29_panics_iff aMax vMax s.ctx hsy _
      (ticks_some.2 ⟨rfl, hsy.inv.2.1.symm⟩)]
    omega
  obtain ⟨w1, w2, w3, w4, w5, w6, w7⟩ := weight_now hsy h2
  have em : s.ctx.moveWeight = 0 := hsy.reach.inv.2.2.2.2
  have hle : t ≤ (s.ctx.channels .x).ticks := by
    have := hl.past.ticks
    simp only [Rounded.init] at this
    omega
  have hdraw : Rounded.drawCurves fl e c segs v = some (c2, s.maxErr) := by
    have : Rounded.drawPen fl e c segs v = some s := q1
    simp only [Rounded.drawCurves, List.isEmpty_iff, if_neg hne, this, Option.bind_eq_bind, Option.bind_some, h2]
    rfl
  refine ⟨c2, s.maxErr, (s.ctx.channels .x).ticks, segs', n, l, G, hdraw, ?_, ?_, q3, by simpa using q4, ?_, q6, ?_, ?_, ?_, w1⟩
  · rw [ticks_some, w2]
    exact ⟨rfl, hsy.inv.2.1.symm⟩
  · have key : ∀ {a b : List Seg}, Omit (FloatVisited fl e s.ctx.events t (s.ctx.channels .x).ticks) a b →
        Omit (FloatVisited fl e c2.events t (s.ctx.channels .x).ticks) a b := by
      intro a b hh
      induction hh with
      | nil => exact .nil
      | keep x _ ih => exact .keep x ih
      | skip hv _ ih =>
        obtain ⟨T, t1, t2, t3⟩ := hv
        refine .skip ⟨T, t1, t2, fun i => ?_⟩ ih
        rw [← t3 i]
        unfold posAt
        rw [played_congr (fun τ _ => w6 i τ)]
    exact key q2
  · have key : ∀ {a b : ℕ} {ss : List (List (Vec × Vec))},
        FloatRuns e v S ((0 + n : ℕ) * gap) c.curveWeight aMax vMax s.ctx.events a ss b →
        b ≤ (s.ctx.channels .x).ticks →
        FloatRuns e v S (n * gap) c.curveWeight aMax vMax c2.events a ss b := by
      intro a b ss hh
      induction hh with
      | nil t => exact fun _ => .nil t
      | cons S1 h2 ih =>
        intro hle
        have := runs_le h2
        refine .cons (S1.mono (fun i => (hg i).1.le) (by rw [zero_add]) (fun i τ _ => w6 i τ) (fun w τ hτ => ?_)) (ih hle)
        rw [w7, if_pos (by omega)]
    have := key q5 le_rfl
    simp only [Rounded.init] at this
    rw [et] at this
    exact this
  · intro w τ hτ
    rw [w7, if_neg (by omega), em]
  · intro τ hτ
    constructor
    · intro w
      rw [w7, if_pos (by omega)]
      exact hl.past.weight w τ (by simp only [Rounded.init]; omega)
    · intro i
      rw [w6]
      refine hl.past.acc i τ ?_
      simp only [Rounded.init]
      cases i
      · omega
      · have := (ticks_some.1 ht).2
        omega
  · intro i
    rw [w2]
    exact q7 i

/-- C92: what is burnt: whenever the laser is on, the machine is close to a point of one of the lines
to draw, and close to any point of these lines it is at the beginning or end of a tick when the
laser is on. -/
theorem C92_traced (fl : ℝ → ℝ) (R : FloatRounding fl) (aMax vMax : Axis → ℤ) (hM : Machine aMax vMax) (e : Rounded.Env)
    (hf : Searches e) (c : Ctx) (h : Sync aMax vMax c) (hc : ∀ i, |(c.channels i).v| ≤ vMax i)
    (hp : ∀ i, |(c.channels i).pos| ≤ 2 ^ 28) (hw : c.curveWeight ≠ 0) (v S M : ℝ) (N m : ℕ)
    (L : FloatLimits e aMax vMax v S M N m)
    (segs : List Seg) (hne : segs ≠ []) (hN : segs.length ≤ N) (hs : ∀ i, |coord (floatStart fl e c) i| ≤ M)
    (hF : FloatLines fl M (m * v) M (floatStart fl e c) segs) (t : ℕ) (ht : c.ticks = some t) :
    ∃ c' err t' segs' n l, Rounded.drawCurves fl e c segs v = some (c', err) ∧ c'.ticks = some t' ∧
      Omit (FloatVisited fl e c'.events t t') segs segs' ∧ FloatIntended e (floatStart fl e c) segs' n l ∧
      FloatOnly e c.curveWeight c'.events t t' (l.map lineOf)
        (fun i => 386 / 100 * S + n * (1 / 1000000 + 1 / 10 ^ 12) * e.stepScale i) ∧
      FloatAll e c.curveWeight c'.events t t' (l.map lineOf)
        (fun i => 386 / 100 * S + (n * (1 / 1000000 + 1 / 10 ^ 12) + 13 / 10 * v) * e.stepScale i) := by
  obtain ⟨c', err, t', segs', n, l, G, q1, q2, q3, q4, q5, q6, -⟩ :=
    C92_lines fl R aMax vMax hM e hf c h hc hp v S M N m L segs hne hN hs hF t ht
  refine ⟨c', err, t', segs', n, l, q1, q2, q3, q4, ?_, ?_⟩
  · rw [← q5]
    exact runs_only q6 hw
  · rw [← q5]
    exact runs_all q6 (lt_of_lt_of_le (by norm_num) L.tiny) (fun i => le_trans (by norm_num) (L.scale i))

/-- There is such a search. -/
theorem C92_search (K : Concat) (hK : List.IsChain (fun a b => a.endLen < b.endLen) K) (pos : ℝ) :
    ∃ i, FoundAt K pos i := by
  classical
  have hP : List.Pairwise (fun a b : Part => a.endLen < b.endLen) K := by
    have : IsTrans Part (fun a b => a.endLen < b.endLen) := ⟨fun _ _ _ => lt_trans⟩
    exact List.isChain_iff_pairwise.1 hK
  by_cases hex : ∃ i : ℕ, ∃ s : Part, K[i]? = some s ∧ pos ≤ s.endLen
  · have hmin := Nat.find_spec hex
    obtain ⟨s, h1, h2⟩ := hmin
    rcases h2.lt_or_eq with h2 | h2
    · refine ⟨Nat.find hex, .inr ⟨?_, ?_, ?_⟩⟩
      · obtain ⟨h3, -⟩ := List.getElem?_eq_some_iff.1 h1
        exact h3.le
      · intro j x hj hx
        by_contra hc
        exact Nat.find_min hex hj ⟨x, hx, not_lt.1 hc⟩
      · intro j x hj hx
        rcases hj.eq_or_lt with rfl | hj
        · rw [h1] at hx
          cases hx
          exact h2
        · obtain ⟨h3, rfl⟩ := List.getElem?_eq_some_iff.1 h1
          obtain ⟨h4, rfl⟩ := List.getElem?_eq_some_iff.1 hx
          exact h2.trans (List.pairwise_iff_getElem.1 hP _ _ h3 h4 hj)
    · exact ⟨Nat.find hex, .inl ⟨s, h1, h2.symm⟩⟩
  · refine ⟨K.length, .inr ⟨le_rfl, ?_, ?_⟩⟩
    · intro j x _ hx
      by_contra hc
      exact hex ⟨j, x, hx, not_lt.1 hc⟩
    · intro j x hj hx
      obtain ⟨h3, -⟩ := List.getElem?_eq_some_iff.1 hx
      omega

example : ∃ e : Rounded.Env, (∀ i, e.stepScale i = 80) ∧ Searches e := by
  classical
  refine ⟨⟨fun _ => 80, fun K pos => if h : ∃ i, FoundAt K pos i then h.choose else 0, fun _ _ => none⟩, fun _ => rfl, ?_⟩
  intro K hK pos
  have := C92_search K hK pos
  simp only [dif_pos this]
  exact this.choose_spec

/-- A path with 80 steps per mm and a 40th of a mm per tick, in `f64` arithmetic.  The first two lines
make an angle of less than three degrees. -/
example (e : Rounded.Env) (he : ∀ i, e.stepScale i = 80) (hf : Searches e) :
    ∃ c' err t', Rounded.drawCurves double e (Ctx.new (fun _ => 10) (fun _ => 100))
        [.lineTo ⟨10, 0⟩, .lineTo ⟨30, 1⟩, .lineTo ⟨30, 31⟩, .closeTo ⟨0, 0⟩] (1 / 40) = some (c', err) ∧
      c'.ticks = some t' ∧ (∀ i, err i ≤ 4) ∧ (∀ w, weightAt w c'.events t' = 0) ∧
      ∃ τ < t', (∀ w, weightAt w c'.events τ = 255) ∧ ∃ τ', (τ' = τ ∨ τ' = τ + 1) ∧
        |posAt .x c'.events τ' - 2400| ≤ 6 ∧ |posAt .y c'.events τ' - 2480| ≤ 6 := by
  have R := C90_double
  have hs : floatStart double e (Ctx.new (fun _ => 10) (fun _ => 100)) = ⟨0, 0⟩ := by
    simp [floatStart, Ctx.new, R.zero]
  have ht : (Ctx.new (fun _ => 10) (fun _ => 100)).ticks = some 0 := by
    rw [ticks_some]
    simp [Ctx.new]
  have hpt : ∀ x y : ℤ, |x| ≤ 1000 → |y| ≤ 1000 → FloatPoint double 1000 ⟨x, y⟩ := by
    intro x y hx hy i
    cases i
    · exact ⟨by show |(x : ℝ)| ≤ 1000; exact_mod_cast hx, R.int x (hx.trans (by norm_num))⟩
    · exact ⟨by show |(y : ℝ)| ≤ 1000; exact_mod_cast hy, R.int y (hy.trans (by norm_num))⟩
  have sub : ∀ a b c d : ℝ, (⟨a, b⟩ - ⟨c, d⟩ : Vec) = ⟨a - c, b - d⟩ := fun _ _ _ _ => rfl
  have up : ∀ x y : ℝ, (⟨x, y⟩ : Vec).length ≤ |x| + |y| := fun x y => length_le ⟨x, y⟩
  have lo : ∀ x y : ℝ, |x| ≤ (⟨x, y⟩ : Vec).length := fun x y => le_length ⟨x, y⟩ .x
  have lo' : ∀ x y : ℝ, |y| ≤ (⟨x, y⟩ : Vec).length := fun x y => le_length ⟨x, y⟩ .y
  have u1 := up 10 0
  have u2 := up 20 1
  have u3 := up 0 30
  have u4 := up (-30) (-31)
  have l1 := lo 10 0
  have l2 := lo 20 1
  have l3 := lo' 0 30
  have l4 := lo (-30) (-31)
  have l5 := lo 30 31
  norm_num at u1 u2 u3 u4 l1 l2 l3 l4 l5
  have L : FloatLimits e (fun _ => 10) (fun _ => 100) (1 / 40) 1 1000 4 4 := by
    refine ⟨by norm_num, by norm_num, by norm_num, by norm_num, ?_, ?_, by norm_num, by norm_num, by norm_num, ?_, ?_, ?_⟩ <;>
      (intro i; rw [he]; norm_num)
  have p1 : FloatPoint double 1000 ⟨10, 0⟩ := by simpa using hpt 10 0 (by norm_num) (by norm_num)
  have p2 : FloatPoint double 1000 ⟨30, 1⟩ := by simpa using hpt 30 1 (by norm_num) (by norm_num)
  have p3 : FloatPoint double 1000 ⟨30, 31⟩ := by simpa using hpt 30 31 (by norm_num) (by norm_num)
  have p4 : FloatPoint double 1000 ⟨0, 0⟩ := by simpa using hpt 0 0 (by norm_num) (by norm_num)
  have hF : FloatLines double 1000 ((4 : ℕ) * (1 / 40)) 1000 ⟨0, 0⟩
      [.lineTo ⟨10, 0⟩, .lineTo ⟨30, 1⟩, .lineTo ⟨30, 31⟩, .closeTo ⟨0, 0⟩] := by
    simp only [FloatLines, sub]
    norm_num
    exact ⟨p1, by linarith, by linarith, p2, by linarith, by linarith, p3, by linarith, by linarith, p4,
      .inr ⟨by linarith, by linarith, by linarith⟩⟩
  have hs1 : ∀ i, |coord (⟨0, 0⟩ : Vec) i| ≤ 1000 := fun i => (p4 i).1
  obtain ⟨c', err, t', segs', n, l, G, q1, q2, q3, q4, q5, q6, q7, q8, -⟩ := C92_lines double R (fun _ => 10) (fun _ => 100)
    ⟨by norm_num, by norm_num, by norm_num, by norm_num, by norm_num⟩ e hf (Ctx.new (fun _ => 10) (fun _ => 100)) .new
    (by simp [Ctx.new]) (by simp [Ctx.new]) (1 / 40) 1 1000 4 4 L
    [.lineTo ⟨10, 0⟩, .lineTo ⟨30, 1⟩, .lineTo ⟨30, 31⟩, .closeTo ⟨0, 0⟩] (by simp) (by simp) (by rw [hs]; exact hs1)
    (by rw [hs]; exact hF) 0 ht
  rw [hs] at q4
  -- all lines are to be drawn
  have hl : n = 0 ∧ l = [(⟨0, 0⟩, .lineTo ⟨10, 0⟩), (⟨10, 0⟩, .lineTo ⟨30, 1⟩), (⟨30, 1⟩, .lineTo ⟨30, 31⟩),
      (⟨30, 31⟩, .closeTo ⟨0, 0⟩)] := by
    cases q3 with
    | keep _ q3 =>
    cases q3 with
    | keep _ q3 =>
    cases q3 with
    | keep _ q3 =>
    cases q3 with
    | keep _ q3 =>
    cases q3
    cases q4 with
    | draw _ h1 q4 =>
    cases h1
    cases q4 with
    | draw _ h1 q4 =>
    cases h1
    cases q4 with
    | draw _ h1 q4 =>
    cases h1
    cases q4 with
    | short h1 _ =>
      rw [sub] at h1
      norm_num at h1
      linarith
    | draw _ h1 q4 =>
    cases h1
    cases q4
    exact ⟨rfl, rfl⟩
  obtain ⟨rfl, rfl⟩ := hl
  have hA := runs_all q6 (by norm_num) (fun i => by rw [he]; norm_num)
  rw [q5] at hA
  obtain ⟨τ, -, a2, a3, τ', a4, a5⟩ := hA (⟨30, 31⟩, ⟨0, 0⟩) (by simp [lineOf]) 0 le_rfl (Real.sqrt_nonneg _)
  have lt7 : ∀ x : ℤ, |(x : ℝ)| ≤ 646 / 100 → |x| ≤ 6 := by
    intro x hx
    have : |(x : ℝ)| < 7 := by linarith
    have : |x| < 7 := by exact_mod_cast this
    omega
  refine ⟨c', err, t', q1, q2, fun i => ?_, fun w => q8 w t' le_rfl, τ, a2, a3, τ', a4, ?_, ?_⟩
  · have : (err i : ℝ) < 5 := by linarith [q7 i]
    have : err i < 5 := by exact_mod_cast this
    omega
  · apply lt7
    have := a5 .x
    norm_num [lineAt, coord, he] at this ⊢
    exact this
  · apply lt7
    have := a5 .y
    norm_num [lineAt, coord, he] at this ⊢
    exact this

end StepperPaths.Props
