import Verif.Proof.DrawReturns

/-! Properties of `goto` and `draw_curves` (C63-C69). -/

namespace StepperPaths.Props
open StepperPaths Coords Curves Context IntegerCurve Draw Spec

/-! ### C63 -/

/-- C63: `goto` ends at rest, at most one and a half steps from the given coordinates. -/
theorem C63_goto (aMax vMax : Axis → ℤ) (e : Env) (c c' : Ctx) (h : Reach aMax vMax c) (p : Vec)
    (ha : ∀ i, 1 ≤ aMax i) (hv : ∀ i, 1 ≤ vMax i ∧ vMax i ≤ 2 ^ 59)
    (hc : ∀ i, |(c.channels i).v| ≤ vMax i) (hp : ∀ i, |(c.channels i).pos| ≤ 2 ^ 61)
    (hs : ∀ i, |coord p i * e.stepScale i| ≤ 2 ^ 60) (hr : goto e c p.x p.y = some c') :
    c'.velocity = (0, 0) ∧ |(c'.position.1 : ℝ) - p.x * e.stepScale .x| ≤ 3 / 2 ∧
      |(c'.position.2 : ℝ) - p.y * e.stepScale .y| ≤ 3 / 2 := by
  unfold Draw.goto at hr
  obtain ⟨x, hx, hr⟩ := Option.bind_eq_some_iff.1 hr
  obtain ⟨y, hy, hr⟩ := Option.bind_eq_some_iff.1 hr
  rw [toSteps_eq hx, toSteps_eq hy] at hr
  have near : ∀ x : ℝ, |x| ≤ 2 ^ 60 → |Draw.round x| ≤ 2 ^ 61 := by
    intro x hx
    have := round_near x
    rw [abs_le] at this hx ⊢
    constructor
    · have : (-2 ^ 61 : ℝ) ≤ Draw.round x := by norm_num at *; linarith
      exact_mod_cast this
    · have : (Draw.round x : ℝ) ≤ 2 ^ 61 := by norm_num at *; linarith
      exact_mod_cast this
  have lim : ∀ i, InLimits (Draw.round (coord p i * e.stepScale i) - (c.channels i).pos) (c.channels i).v
      0 (aMax i) (vMax i) := by
    intro i
    refine ⟨ha i, (hv i).1, (hv i).2, hc i, by rw [abs_zero]; have := (hv i).1; omega, ?_⟩
    have := near _ (hs i)
    have := hp i
    rw [abs_le] at *
    norm_num at *
    omega
  obtain ⟨g1, g2, g3, -⟩ := C25_arrives aMax vMax c c' h _ _ _ _ (lim .x) (lim .y) hr
  have close : ∀ (n : ℤ) (x : ℝ), |n - Draw.round x| ≤ 1 → |(n : ℝ) - x| ≤ 3 / 2 := by
    intro n x hn
    have h1 := round_near x
    have h2 : |((n - Draw.round x : ℤ) : ℝ)| ≤ 1 := by exact_mod_cast hn
    push_cast at h2
    rw [abs_le] at *
    constructor <;> linarith [h1.1, h1.2, h2.1, h2.2]
  exact ⟨g1, close _ _ g2, close _ _ g3⟩

/-- Ten steps to the unit: (1.26, -2) is at step 13, -20. -/
example : ∃ c', goto ⟨fun _ => 10, fun _ => 0, fun _ _ => 0, fun _ _ => 0⟩
    (Ctx.new (fun _ => 2) (fun _ => 100)) (126 / 100) (-2) = some c' := by
  obtain ⟨c', h⟩ := C25_returns_in_time (fun _ => 2) (fun _ => 100) (Ctx.new (fun _ => 2) (fun _ => 100))
    .new 13 (-20) 0 0
    ⟨by norm_num, by norm_num, by norm_num, by simp [Ctx.new], by norm_num, by simp [Ctx.new]⟩
    ⟨by norm_num, by norm_num, by norm_num, by simp [Ctx.new], by norm_num, by simp [Ctx.new]⟩
    (by norm_num) (by norm_num) (by norm_num) (by simp [Ctx.new]) (by simp [Ctx.new])
  have hx : Draw.round (126 / 100 * 10) = 13 := by
    unfold Draw.round
    rw [if_pos (by norm_num), Int.floor_eq_iff]
    norm_num
  have hy : Draw.round (-2 * 10) = -20 := by
    have := Draw.round_int (-20)
    push_cast at this
    rw [← this]
    norm_num
  refine ⟨c', ?_⟩
  unfold Draw.goto Env.toSteps
  simp only [hx, hy]
  exact h

/-! ### C64 -/

/-- The path position at the start of `draw_curves`. -/
noncomputable def startOf (e : Env) (c : Ctx) : Vec :=
  ⟨e.coordFromSteps (c.channels .x).pos .x, e.coordFromSteps (c.channels .y).pos .y⟩

theorem drawPen_eq (e : Env) (c : Ctx) (segs : List Seg) (v : ℝ) :
    drawPen e c segs v = (Pen.init e c).finish e v segs := rfl

/-- C64: `draw_curves` draws exactly the given segments, each in its own shape and from where
the one before ended.  The start points are exact up to 0.000001 for each closing line that
was too short to be drawn.  Moves may be left out, but only when the machine is at
their target. -/
theorem C64_draws (aMax vMax : Axis → ℤ) (e : Env) (c : Ctx) (h : Sync aMax vMax c) (hb : LengthOK e)
    (segs : List Seg) (v : ℝ) (s : Pen) (hr : drawPen e c segs v = some s) :
    ∃ segs', Omit (Visited e s.ctx.events (c.channels .x).ticks (s.ctx.channels .x).ticks) segs segs' ∧
      List.Forall₂ (fun a b => Within (shortCloses (startOf e c) segs' * (1 / 1000000)) a.1 b.1 ∧
          ∃ next, e.segInfo a.1 a.2 = some (b.2, next))
        (intended (startOf e c) segs') (pieces (curvesOf s.drawn)) := by
  rw [drawPen_eq] at hr
  obtain ⟨segs', l, h1, h2, h3⟩ := finish_pieces (k := 0) hb (s := Pen.init e c) h le_rfl hr
    (within_refl (by simp) _)
  refine ⟨segs', h1, ?_⟩
  rw [h2]
  simp only [Nat.zero_add] at h3
  exact h3

theorem omit_none {P : Vec → Prop} {l l' : List Seg} (h : Omit P l l') (hg : ∀ p, Seg.goTo p ∉ l) : l' = l := by
  induction h with
  | nil => rfl
  | keep s _ ih => rw [ih (fun p hp => hg p (List.mem_cons_of_mem _ hp))]
  | skip _ _ _ => exact absurd List.mem_cons_self (hg _)

/-- C64: without moves in the list nothing is left out. -/
theorem C64_draws_all (aMax vMax : Axis → ℤ) (e : Env) (c : Ctx) (h : Sync aMax vMax c) (hb : LengthOK e)
    (segs : List Seg) (hg : ∀ p, Seg.goTo p ∉ segs) (v : ℝ) (s : Pen)
    (hr : drawPen e c segs v = some s) :
    List.Forall₂ (fun a b => Within (shortCloses (startOf e c) segs * (1 / 1000000)) a.1 b.1 ∧
        ∃ next, e.segInfo a.1 a.2 = some (b.2, next))
      (intended (startOf e c) segs) (pieces (curvesOf s.drawn)) := by
  obtain ⟨segs', h1, h2⟩ := C64_draws aMax vMax e c h hb segs v s hr
  rw [omit_none h1 hg] at h2
  exact h2

theorem chain_get (p : Vec) (cs : List Curve) (k : ℕ) (hk : k < cs.length) :
    (p + (⟨endX cs k, endY cs k⟩ : Vec), cs[k]) ∈ chain p cs := by
  induction cs generalizing p k with
  | nil => simp at hk
  | cons a cs ih =>
    cases k with
    | zero =>
      have : p + (⟨endX (a :: cs) 0, endY (a :: cs) 0⟩ : Vec) = p := by ext <;> simp [endX, endY]
      simp [chain, this]
    | succ k =>
      have := ih (p + (a.value a.length).1) k (by simpa using hk)
      refine List.mem_cons_of_mem _ ?_
      have e1 : p + (⟨endX (a :: cs) (k + 1), endY (a :: cs) (k + 1)⟩ : Vec) =
          p + (a.value a.length).1 + (⟨endX cs k, endY cs k⟩ : Vec) := by
        ext <;> simp [endX, endY, add_assoc]
      simp only [List.getElem_cons_succ, e1]
      exact this

/-- C64: `approx_curve` follows these curves: at every length the point and the direction of a stroke
are those of one of its curves (for any answer of the binary search that is in accordance with
its documentation). -/
theorem C64_stroke_points (e : Env) (c : Ctx) (segs : List Seg) (v : ℝ) (s : Pen)
    (hr : drawPen e c segs v = some s) (st : Vec × Concat) (hst : st ∈ s.drawn) (hne : st.2 ≠ [])
    (hp : ∀ k ∈ st.2.map Part.curve, 0 ≤ k.length) (pos : ℝ) (hf : FoundAt st.2 pos (e.find st.2 pos))
    (h0 : 0 ≤ pos) (h1 : pos ≤ (e.concatInfo st.2).length) :
    (e.concatInfo st.2).length = ((st.2.map Part.curve).map Curve.length).sum ∧
    ∃ q k x, (q, k) ∈ chain st.1 (st.2.map Part.curve) ∧ 0 ≤ x ∧ x ≤ k.length ∧
      st.1 + ((e.concatInfo st.2).value pos).1 = q + (k.value x).1 ∧
      ((e.concatInfo st.2).value pos).2 = (k.value x).2 := by
  rw [drawPen_eq] at hr
  have hg := finish_glue hr (by simp [Pen.init, glue]) (by simp [Pen.init]) st hst
  have hlen : (e.concatInfo st.2).length = ((st.2.map Part.curve).map Curve.length).sum := by
    have := C45_length (st.2.map Part.curve)
    rw [← hg] at this
    exact this
  refine ⟨hlen, ?_⟩
  obtain ⟨k, hk, b1, b2, b3⟩ := C45_zero_length (st.2.map Part.curve) (by simpa using hne) hp pos
    ⟨h0, by rw [← hlen]; exact h1⟩ (e.find st.2 pos) (by rw [← hg]; exact hf)
  rw [← hg] at b3
  refine ⟨_, _, pos - lenBefore (st.2.map Part.curve) k, chain_get st.1 _ k hk, by linarith, ?_, ?_, ?_⟩
  · have : lenBefore (st.2.map Part.curve) (k + 1) =
        lenBefore (st.2.map Part.curve) k + (st.2.map Part.curve)[k].length := by
      unfold lenBefore
      rw [List.take_add_one, List.getElem?_eq_getElem hk]
      simp
    linarith
  · simp only [Env.concatInfo, b3, Option.getD_some]
    ext <;> simp <;> ring
  · simp only [Env.concatInfo, b3, Option.getD_some]

/-- The direction of every drawn curve. -/
theorem drawn_dir {aMax vMax : Axis → ℤ} {e : Env} {c : Ctx} (h : Sync aMax vMax c) (hb : LengthOK e)
    {segs : List Seg} {v : ℝ} {s : Pen} (hr : drawPen e c segs v = some s) :
    ∀ st ∈ s.drawn, ∀ part ∈ st.2, ∀ x i, |coord (part.curve.value x).2 i| ≤ 1 := by
  obtain ⟨segs', -, h2⟩ := C64_draws aMax vMax e c h hb segs v s hr
  have all : ∀ b ∈ pieces (curvesOf s.drawn), ∀ x i, |coord (b.2.value x).2 i| ≤ 1 := by
    generalize intended (startOf e c) segs' = l at h2
    generalize pieces (curvesOf s.drawn) = k at h2
    clear hr
    induction h2 with
    | nil => simp
    | cons hab _ ih =>
      intro b hmem
      rcases List.mem_cons.1 hmem with rfl | hmem
      · obtain ⟨-, next, hi⟩ := hab
        exact fun x i => segInfo_dir hi x i
      · exact ih b hmem
  have mem_chain : ∀ (l : List Curve) (p : Vec) (k : Curve), k ∈ l → ∃ q, (q, k) ∈ chain p l := by
    intro l
    induction l with
    | nil => simp
    | cons a l ih =>
      intro p k hk
      rcases List.mem_cons.1 hk with rfl | hk
      · exact ⟨p, by simp [chain]⟩
      · obtain ⟨q, hq⟩ := ih (p + (a.value a.length).1) k hk
        exact ⟨q, List.mem_cons_of_mem _ hq⟩
  intro st hst part hpart
  obtain ⟨q, hq⟩ := mem_chain (st.2.map Part.curve) st.1 part.curve (List.mem_map_of_mem hpart)
  refine all (q, part.curve) ?_
  unfold pieces curvesOf
  rw [List.mem_flatMap]
  exact ⟨_, List.mem_map_of_mem hst, hq⟩

/-! ### C65 -/

/-- C65: a line is the straight line to its end point, traversed evenly. -/
theorem C65_line (e : Env) (p q : Vec) (hne : q ≠ p) :
    ∃ k, e.segInfo p (.lineTo q) = some (k, q) ∧ e.segInfo p (.closeTo q) = some (k, q) ∧
      k.length = (q - p).length ∧ ∀ s, p + (k.value s).1 = pointAt p (.lineTo q) (s / k.length) := by
  refine ⟨_, rfl, rfl, rfl, fun s => ?_⟩
  have hl : (q - p).length ≠ 0 := by
    rw [Ne, length_eq_zero_iff]
    intro hc
    apply hne
    have hx := congrArg Vec.x hc
    have hy := congrArg Vec.y hc
    simp only [vsub] at hx hy
    ext <;> linarith
  simp only [Line.info, Line.value, Line.new, if_neg hl, Vec.unit, pointAt]
  ext <;> simp <;> ring

/-- C65: an arc with two equal radii is an arc of a circle, traversed evenly.  (Its rotation
has no effect.) -/
theorem C65_arc (e : Env) (p : Vec) (r a b rot : ℝ) (hr : 0 < r) (hab : a ≠ b) :
    ∃ k next, e.segInfo p (.arc r r a b rot) = some (k, next) ∧ k.length = r * |b - a| ∧
      next = pointAt p (.arc r r a b rot) 1 ∧
      ∀ s, p + (k.value s).1 = pointAt p (.arc r r a b rot) (s / k.length) := by
  refine ⟨(Circle.new r a b).info, _, ?_, rfl, rfl, fun s => ?_⟩
  · simp only [Env.segInfo, sub_self, abs_zero]
    rw [if_neg (by unfold epsilon; norm_num), circle_end]
    simp only [pointAt, mul_one, add_sub_cancel]
    rfl
  · have e1 : s * (Circle.new r a b).angleScale + a = a + (b - a) * (s / (r * |b - a|)) := by
      simp only [Circle.new]
      split
      · next h =>
        have : b - a ≠ 0 := sub_ne_zero.2 hab.symm
        rw [abs_of_nonneg (by linarith)]
        field_simp
        ring
      · next h =>
        have : b - a ≠ 0 := sub_ne_zero.2 hab.symm
        rw [abs_of_nonpos (by linarith)]
        field_simp
        ring
    simp only [Circle.info, Circle.value, Circle.length, pointAt]
    simp only [show (Circle.new r a b).startAngle = a from rfl, show (Circle.new r a b).endAngle = b from rfl,
      show (Circle.new r a b).radius = r from rfl, e1]
    ext <;> simp [Circle.new] <;> ring

/-- C65: an arc with different radii is refused. -/
theorem C65_ellipse (e : Env) (p : Vec) (rx ry a b rot : ℝ) (h : 1 / 4503599627370496 < |rx - ry|) :
    e.segInfo p (.arc rx ry a b rot) = none := by
  simp only [Env.segInfo]
  rw [if_pos (by unfold epsilon; exact h)]

/-- C65: a curve with control points is the Bezier curve from the current point `p` with the
control points `p + c1` and `q + c2` to `q`; the parameter for a length is the one that
`find_param` gives. -/
theorem C65_bezier (e : Env) (p q c1 c2 : Vec) : ∃ k, e.segInfo p (.curveTo q c1 c2) = some (k, q) ∧
    k.length = e.bezierLength ⟨c1, q - p + c2, q - p⟩ ∧
    ∀ s, p + (k.value s).1 = pointAt p (.curveTo q c1 c2) (if s ≤ 0 then 0 else if s ≥ k.length then 1
        else e.bezierParam ⟨c1, q - p + c2, q - p⟩ s) := by
  have key : ∀ u, p + ((⟨c1, q - p + c2, q - p⟩ : Bezier).bezierValue u).1 =
      pointAt p (.curveTo q c1 c2) u := by
    intro u
    ext <;> simp [Bezier.bezierValue, pointAt] <;> ring
  exact ⟨_, rfl, rfl, fun s => key _⟩

/-- A quarter circle from (1, 0) to (0, 1). -/
example (e : Env) : ∃ k, e.segInfo ⟨1, 0⟩ (.arc 1 1 0 (Real.pi / 2) 0) = some (k, ⟨0, 1⟩) := by
  obtain ⟨k, next, h1, -, h2, -⟩ := C65_arc e ⟨1, 0⟩ 1 0 (Real.pi / 2) 0 (by norm_num)
    (by have := Real.pi_pos; linarith)
  refine ⟨k, ?_⟩
  rw [h1, h2]
  simp [pointAt]

/-! ### C66 -/

theorem remembers_init (e : Env) (c : Ctx) : Remembers (Pen.init e c) := by
  intro part hp
  simp [Pen.init] at hp

/-- C66: within a stroke there are no corners: where two curves meet, the cosine of the angle
between their directions is at least 0.99619. -/
theorem C66_no_corner_inside (e : Env) (c : Ctx) (segs : List Seg) (v : ℝ) (s : Pen)
    (hr : drawPen e c segs v = some s) :
    ∀ st ∈ s.drawn, List.IsChain (fun a b => ¬ Corner a b) (st.2.map Part.curve) := by
  rw [drawPen_eq] at hr
  have := finish_smooth hr (remembers_init e c) (by simp [Smooth, Pen.init]) (by simp [Pen.init])
  intro st hst
  rw [List.isChain_map]
  exact this st hst

/-- C66: without moves, a stroke only ends at a corner. -/
theorem C66_ends_at_corner (e : Env) (c : Ctx) (segs : List Seg) (hg : ∀ p, Seg.goTo p ∉ segs) (v : ℝ)
    (s : Pen) (hr : drawPen e c segs v = some s) :
    List.IsChain (fun a b => ∃ x ∈ (a.2.map Part.curve).getLast?, ∃ y ∈ (b.2.map Part.curve).head?,
      Corner x y) s.drawn := by
  rw [drawPen_eq] at hr
  have := finish_corners hr hg (remembers_init e c) (by simp [Pen.init]) (by simp [Pen.init])
  refine this.imp (fun a b => ?_)
  rintro ⟨x, hx, y, hy, hxy⟩
  exact ⟨x.curve, by simp [Option.mem_def.1 hx], y.curve, by simp [Option.mem_def.1 hy], hxy⟩

/-! ### C67 -/

/-- C67: while the segments are drawn, each stroke is preceded by a move to its start with the
laser off and within the limits; the stroke begins within one and a half steps of its start point
with the speed of the curve, the laser is on during exactly the ticks of the stroke, the speed
limits are kept at every tick, and after every tick the machine is as close to the curve as the
returned error says, which is reached at some tick.  At the end the laser is off. -/
theorem C67_timeline (aMax vMax : Axis → ℤ) (e : Env) (c c' : Ctx) (h : Sync aMax vMax c) (hb : LengthOK e)
    (ha : ∀ i, 1 ≤ aMax i) (hv : ∀ i, 1 ≤ vMax i ∧ vMax i ≤ 2 ^ 59)
    (hc : ∀ i, |(c.channels i).v| ≤ vMax i) (segs : List Seg) (hne : segs ≠ []) (v : ℝ)
    (hsp : ∀ i, |v * e.vScale i| + 1 / 2 ≤ vMax i) (err : Axis → ℤ)
    (hr : drawCurves e c segs v = some (c', err)) (t t' : ℕ) (ht : c.ticks = some t)
    (ht' : c'.ticks = some t')
    (hp : ∀ i, |(c.channels i).pos| + 2 * vMax i * (t' - t : ℤ) ≤ 2 ^ 61)
    (hst : ∀ s, drawPen e c segs v = some s → ∀ st ∈ s.drawn, st.2 ≠ [] →
      ∀ i, |coord st.1 i * e.stepScale i| ≤ 2 ^ 60) :
    ∃ s, drawPen e c segs v = some s ∧
      Timeline e v c.curveWeight aMax vMax c'.events err t (strokes s.drawn) t' ∧
      (∀ i, err i = 0 ∨ Worst e v c.curveWeight aMax vMax c'.events err t (strokes s.drawn) t' i) ∧
      (∀ w τ, t' ≤ τ → weightAt w c'.events τ = 0) ∧
      (∀ τ < t, (∀ w, weightAt w c'.events τ = weightAt w c.events τ) ∧
        ∀ i, accAt i c'.events τ = accAt i c.events τ) ∧
      Sync aMax vMax c' := by
  unfold drawCurves at hr
  rw [if_neg (by simpa using hne)] at hr
  obtain ⟨s, hs, hr⟩ := Option.bind_eq_some_iff.1 hr
  obtain ⟨c1, h1, hr⟩ := Option.bind_eq_some_iff.1 hr
  cases hr
  have hs' := hs
  rw [drawPen_eq] at hs'
  obtain ⟨hsy, hl⟩ := finish_later (s := Pen.init e c) h hs'
  obtain ⟨q1, q2, q3, q4, q5, q6, q7⟩ := weight_now hsy h1
  have et : (c.channels .x).ticks = t := (ticks_some.1 ht).1
  have et' : (s.ctx.channels .x).ticks = t' := by rw [← q2]; exact (ticks_some.1 ht').1
  have hdir := drawn_dir h hb hs
  have hd : ∀ st ∈ s.drawn, st.2 ≠ [] →
      ∀ i, |coord ((e.concatInfo st.2).value 0).2 i * v * e.vScale i| + 1 / 2 ≤ vMax i := by
    intro st hst1 _ i
    have h1 := concat_dir (e := e) (c := st.2) zero_le_one i (fun part hpart s => hdir st hst1 part hpart s i) 0
    refine le_trans ?_ (hsp i)
    rw [mul_assoc, abs_mul]
    have := mul_le_mul_of_nonneg_right h1 (abs_nonneg (v * e.vScale i))
    linarith
  obtain ⟨l, e1, htl, hwo⟩ := finish_timeline (s := Pen.init e c) h ha (fun i => (hv i).1) (fun i => (hv i).2) hc hs'
    (by simp only [Pen.init]; rw [et, et']; exact hp)
    (hst s hs) hd
  have e2 : s.drawn = l := by simpa [Pen.init] using e1
  rw [← e2] at htl hwo
  simp only [Pen.init] at htl hwo
  rw [et, et'] at htl hwo
  have em : s.ctx.moveWeight = 0 := hsy.reach.inv.2.2.2.2
  refine ⟨s, hs, ?_, ?_, ?_, ?_, q1⟩
  · -- the last weight change leaves the time before as it is
    have key : ∀ {a b : ℕ} {ss : List (Vec × Concat)},
        Timeline e v c.curveWeight aMax vMax s.ctx.events s.maxErr a ss b → a ≤ b ∧
        (b ≤ t' → Timeline e v c.curveWeight aMax vMax c'.events s.maxErr a ss b) := by
      intro a b ss hh
      induction hh with
      | nil t => exact ⟨le_rfl, fun _ => .nil t⟩
      | cons S _ ih =>
        refine ⟨by have := S.move; have := S.len; have := ih.1; omega, fun hle => ?_⟩
        have := ih.1
        refine .cons (Stroke.mono S (fun i τ _ => q6 i τ) (fun w τ hτ => ?_) (fun _ => le_rfl)) (ih.2 hle)
        rw [q7, if_pos (by omega)]
    exact (key htl).2 le_rfl
  · intro i
    rcases hwo i le_rfl with h0 | ⟨t1, a, b, st, k, w1, w2, w3, w4, w5, w6⟩
    · exact .inl h0
    · refine .inr ⟨t1, a, b, st, k, w1, w2, w3, Stroke.mono w4 (fun i τ _ => q6 i τ) (fun w τ hτ => ?_)
        (fun _ => le_rfl), w5, ?_⟩
      · rw [q7, if_pos (by omega)]
      · rw [← w6]
        unfold posAt
        rw [played_congr (fun τ _ => q6 i τ)]
  · intro w τ hτ
    rw [q7, if_neg (by omega), em]
  · intro τ hτ
    constructor
    · intro w
      rw [q7, if_pos (by have := hl.past.ticks; simp only [Pen.init] at this; omega)]
      exact hl.past.weight w τ (by simp only [Pen.init]; omega)
    · intro i
      rw [q6]
      refine hl.past.acc i τ ?_
      simp only [Pen.init]
      cases i
      · omega
      · have := (ticks_some.1 ht).2
        omega

/-! ### C70 -/

/-- C70: `draw_curves` returns, without a panic, when the path stays in a region that the
machine can cross within 65535 ticks. -/
theorem C70_returns (aMax vMax : Axis → ℤ) (hM : Machine aMax vMax) (e : Env) (v : ℝ) (c : Ctx)
    (h : Sync aMax vMax c) (hc : ∀ i, |(c.channels i).v| ≤ vMax i) (hsc : ∀ i, e.stepScale i ≠ 0)
    (S : Vec → Prop) (B : Axis → ℝ) (N : ℕ) (ℓ : ℝ) (segs : List Seg) (hR : Reachable vMax e v B N)
    (hS : InRegion e S B ℓ segs) (hℓ : 0 ≤ ℓ) (h0 : S (startOf e c)) (hl : segs.length * ℓ ≤ v * N) :
    ∃ c' err, drawCurves e c segs v = some (c', err) ∧
      ∀ s, drawPen e c segs v = some s → ∀ st ∈ s.drawn, st.2 ≠ [] → S st.1 := by
  have hpos : ∀ i, |((c.channels i).pos : ℝ)| ≤ B i + 3 / 2 + 2 * vMax i * N := by
    intro i
    have h1 := hS.box _ h0 i
    have e1 : coord (startOf e c) i * e.stepScale i = (c.channels i).pos := by
      cases i <;> simp only [startOf, coord, Env.coordFromSteps] <;> exact div_mul_cancel₀ _ (hsc _)
    rw [e1] at h1
    have : (0 : ℝ) ≤ 2 * vMax i * N := by
      have : (1 : ℝ) ≤ vMax i := by exact_mod_cast hM.v1 i
      positivity
    linarith
  obtain ⟨s, hs, ho⟩ := finish_ok (s := Pen.init e c) hM hR hS hℓ
    ⟨h, hc, hpos, h0, h0, by simp [Pen.init], by simp [Pen.init, Concat.totalLength],
      by simpa [Pen.init, Concat.totalLength] using hl, by simp [Pen.init]⟩
  have hs' : drawPen e c segs v = some s := hs
  obtain ⟨hsy, -⟩ := finish_later (s := Pen.init e c) h hs
  obtain ⟨c1, h1⟩ : ∃ c1, s.ctx.addWeightChange s.ctx.moveWeight (s.ctx.channels .x).ticks = some c1 := by
    rw [← Option.ne_none_iff_exists', Ne, C29_panics_iff aMax vMax s.ctx hsy _
      (ticks_some.2 ⟨rfl, hsy.inv.2.1.symm⟩)]
    omega
  have hdr : ∀ s, drawPen e c segs v = some s → ∀ st ∈ s.drawn, st.2 ≠ [] → S st.1 := by
    intro s1 hs1
    rw [hs'] at hs1
    cases hs1
    exact ho.drawn
  unfold drawCurves
  split
  · exact ⟨_, _, rfl, hdr⟩
  · refine ⟨c1, s.maxErr, ?_, hdr⟩
    simp only [hs', Option.bind_eq_bind, Option.bind_some, h1]
    rfl

theorem lines_region (e : Env) (he : ∀ i, e.stepScale i = 1) (segs : List Seg)
    (hs : ∀ s ∈ segs, ∃ p : Vec, |p.x| ≤ 1000 ∧ |p.y| ≤ 1000 ∧ (s = .goTo p ∨ s = .lineTo p ∨ s = .closeTo p)) :
    InRegion e (fun p => |p.x| ≤ 1000 ∧ |p.y| ≤ 1000) (fun _ => 1000) 4000 segs := by
  refine ⟨?_, ?_, ?_, ?_⟩
  · intro p hp i
    cases i <;> simp [coord, he, hp.1, hp.2]
  · intro p hp
    obtain ⟨q, h1, h2, h3⟩ := hs _ hp
    rcases h3 with h3 | h3 | h3 <;> cases h3
    exact ⟨h1, h2⟩
  · intro p hp
    obtain ⟨q, h1, h2, h3⟩ := hs _ hp
    rcases h3 with h3 | h3 | h3 <;> cases h3
    exact ⟨h1, h2⟩
  · intro seg hseg p hp hd
    obtain ⟨q, h1, h2, h3⟩ := hs _ hseg
    have len : 0 ≤ (q - p).length ∧ (q - p).length ≤ 4000 := by
      refine ⟨Real.sqrt_nonneg _, ?_⟩
      unfold Vec.length
      rw [Real.sqrt_le_left (by norm_num)]
      simp only [vsub]
      rw [abs_le] at h1 h2
      have a1 := abs_le.1 hp.1
      have a2 := abs_le.1 hp.2
      nlinarith [h1.1, h1.2, h2.1, h2.2, a1.1, a1.2, a2.1, a2.2]
    rcases h3 with rfl | rfl | rfl
    · exact absurd hd (by simp [Draws])
    · exact ⟨_, _, rfl, ⟨h1, h2⟩, len⟩
    · exact ⟨_, _, rfl, ⟨h1, h2⟩, len⟩

/-- Line drawings in a square of 2000 by 2000 steps. -/
theorem lines_ok (segs : List Seg) (hl : segs.length ≤ 9)
    (hs : ∀ s ∈ segs, ∃ p : Vec, |p.x| ≤ 1000 ∧ |p.y| ≤ 1000 ∧ (s = .goTo p ∨ s = .lineTo p ∨ s = .closeTo p)) :
    ∃ c' err, drawCurves unitEnv (Ctx.new (fun _ => 10) (fun _ => 100)) segs 4 = some (c', err) ∧
      ∀ s, drawPen unitEnv (Ctx.new (fun _ => 10) (fun _ => 100)) segs 4 = some s →
        ∀ st ∈ s.drawn, st.2 ≠ [] → |st.1.x| ≤ 1000 ∧ |st.1.y| ≤ 1000 := by
  refine C70_returns (fun _ => 10) (fun _ => 100) ⟨by norm_num, by norm_num, by norm_num, by norm_num,
    by norm_num⟩ unitEnv 4 (Ctx.new (fun _ => 10) (fun _ => 100)) .new (by simp [Ctx.new])
    (by simp [unitEnv]) (fun p => |p.x| ≤ 1000 ∧ |p.y| ≤ 1000) (fun _ => 1000) 10000 4000 segs
    ⟨by norm_num, by norm_num [unitEnv, Env.vScale], by norm_num⟩ (lines_region unitEnv (fun _ => rfl) segs hs) (by norm_num)
    (by simp [startOf, Ctx.new, Env.coordFromSteps]) ?_
  have : (segs.length : ℝ) ≤ 9 := by exact_mod_cast hl
  norm_num
  linarith

/-- A square with one diagonal. -/
noncomputable def square : List Seg :=
  [.goTo ⟨100, 0⟩, .lineTo ⟨900, 0⟩, .lineTo ⟨900, 800⟩, .lineTo ⟨100, 800⟩, .closeTo ⟨100, 0⟩,
   .lineTo ⟨900, 800⟩]

theorem square_mem : ∀ s ∈ square, ∃ p : Vec, |p.x| ≤ 1000 ∧ |p.y| ≤ 1000 ∧
    (s = .goTo p ∨ s = .lineTo p ∨ s = .closeTo p) := by
  simp only [square, List.mem_cons, List.not_mem_nil, or_false]
  rintro s (rfl | rfl | rfl | rfl | rfl | rfl)
  · exact ⟨⟨100, 0⟩, by norm_num, by norm_num, by simp⟩
  · exact ⟨⟨900, 0⟩, by norm_num, by norm_num, by simp⟩
  · exact ⟨⟨900, 800⟩, by norm_num, by norm_num, by simp⟩
  · exact ⟨⟨100, 800⟩, by norm_num, by norm_num, by simp⟩
  · exact ⟨⟨100, 0⟩, by norm_num, by norm_num, by simp⟩
  · exact ⟨⟨900, 800⟩, by norm_num, by norm_num, by simp⟩

theorem square_ok : ∃ c' err,
    drawCurves unitEnv (Ctx.new (fun _ => 10) (fun _ => 100)) square 4 = some (c', err) ∧
      ∀ s, drawPen unitEnv (Ctx.new (fun _ => 10) (fun _ => 100)) square 4 = some s →
        ∀ st ∈ s.drawn, st.2 ≠ [] → |st.1.x| ≤ 1000 ∧ |st.1.y| ≤ 1000 := by
  refine lines_ok _ (by simp [square]) square_mem

/-- The square is drawn as in C67, unless it took more than `2^50` ticks. -/
example : ∃ c' err t', drawCurves unitEnv (Ctx.new (fun _ => 10) (fun _ => 100)) square 4 = some (c', err) ∧
    c'.ticks = some t' ∧ (t' ≤ 2 ^ 50 → ∃ s,
      drawPen unitEnv (Ctx.new (fun _ => 10) (fun _ => 100)) square 4 = some s ∧
      Timeline unitEnv 4 (Ctx.new (fun _ => 10) (fun _ => 100)).curveWeight (fun _ => 10) (fun _ => 100) c'.events err 0
        (strokes s.drawn) t') := by
  obtain ⟨c', err, h1, h2⟩ := square_ok
  have hs : Sync (fun _ => 10) (fun _ => 100) c' := by
    unfold drawCurves at h1
    rw [if_neg (by simp [square])] at h1
    obtain ⟨s, hs, h1⟩ := Option.bind_eq_some_iff.1 h1
    obtain ⟨c1, h3, h1⟩ := Option.bind_eq_some_iff.1 h1
    cases h1
    rw [drawPen_eq] at hs
    exact (weight_now (finish_later (s := Pen.init unitEnv _) .new hs).1 h3).1
  have ht' : c'.ticks = some (c'.channels .x).ticks := ticks_some.2 ⟨rfl, hs.inv.2.1.symm⟩
  refine ⟨c', err, _, h1, ht', fun hle => ?_⟩
  obtain ⟨s, q1, q2, -⟩ := C67_timeline (fun _ => 10) (fun _ => 100) unitEnv
    (Ctx.new (fun _ => 10) (fun _ => 100)) c' .new
    (by intro b _; norm_num [unitEnv])
    (by norm_num) (by norm_num) (by simp [Ctx.new]) square (by simp [square]) 4
    (by norm_num [unitEnv, Env.vScale]) err h1 0 _ rfl ht'
    (by intro i; simp only [Ctx.new]; norm_num at *; omega)
    (by
      intro s hs st hst hne i
      have := h2 s hs st hst hne
      norm_num [unitEnv]
      cases i
      · exact this.1.trans (by norm_num)
      · exact this.2.trans (by norm_num))
  exact ⟨s, q1, q2⟩

/-! ### C64, a finding -/

/-- C64: a move can get lost.  The test for a move to the current position uses the position
of the machine, which lags behind the path.  Here the path is a line to (10, 0), a move back
to the start, and a line to (0, 10); what is drawn is a line to (10, 0) and from there to (0, 10). -/
theorem C64_move_lost :
    ∃ s, drawPen unitEnv (Ctx.new (fun _ => 10) (fun _ => 100))
        [.lineTo ⟨10, 0⟩, .goTo ⟨0, 0⟩, .lineTo ⟨0, 10⟩] 4 = some s ∧
      (pieces (curvesOf s.drawn)).map Prod.fst = [⟨0, 0⟩, ⟨10, 0⟩] ∧
      (intended ⟨0, 0⟩ [.lineTo ⟨10, 0⟩, .goTo ⟨0, 0⟩, .lineTo ⟨0, 10⟩]).map Prod.fst = [⟨0, 0⟩, ⟨0, 0⟩] := by
  have hok := lines_ok [.lineTo ⟨10, 0⟩, .goTo ⟨0, 0⟩, .lineTo ⟨0, 10⟩] (by simp) (by
    simp only [List.mem_cons, List.not_mem_nil, or_false]
    rintro s (rfl | rfl | rfl)
    · exact ⟨⟨10, 0⟩, by norm_num, by norm_num, by simp⟩
    · exact ⟨⟨0, 0⟩, by norm_num, by norm_num, by simp⟩
    · exact ⟨⟨0, 10⟩, by norm_num, by norm_num, by simp⟩)
  obtain ⟨c', err, hok, -⟩ := hok
  unfold drawCurves at hok
  rw [if_neg (by simp)] at hok
  obtain ⟨s, hs, -⟩ := Option.bind_eq_some_iff.1 hok
  refine ⟨s, hs, ?_, by simp [intended, Draws, ShortClose, segEnd]⟩
  rw [drawPen_eq] at hs
  obtain ⟨s1, h1, hs⟩ := finish_cons.1 hs
  obtain ⟨s2, h2, hs⟩ := finish_cons.1 hs
  obtain ⟨s3, h3, hs⟩ := finish_cons.1 hs
  rw [finish_nil] at hs
  obtain ⟨_, _, e4⟩ := flush_eq hs
  have i1 : (Pen.init unitEnv (Ctx.new (fun _ => 10) (fun _ => 100))).current = ⟨0, 0⟩ := by
    simp [Pen.init, Ctx.new, Env.coordFromSteps]
  have i2 : (Pen.init unitEnv (Ctx.new (fun _ => 10) (fun _ => 100))).start = ⟨0, 0⟩ := by
    simp [Pen.init, Ctx.new, Env.coordFromSteps]
  -- the first line is only remembered
  have f1 : s1.ctx = Ctx.new (fun _ => 10) (fun _ => 100) ∧ s1.current = ⟨10, 0⟩ ∧ s1.start = ⟨0, 0⟩ ∧
      s1.drawn = [] ∧ s1.curves = Concat.add [] (Line.new (⟨10, 0⟩ - ⟨0, 0⟩)).info ∧
      s1.prevDir = some ⟨1, 0⟩ := by
    simp only [Pen.step, Env.segInfo, Option.bind_eq_bind, Option.bind_some, i1] at h1
    rcases Draw.add_eq h1 with ⟨⟨d, hd, -⟩, -⟩ | ⟨-, rfl⟩
    · simp [Pen.init] at hd
    refine ⟨rfl, rfl, i2, rfl, rfl, ?_⟩
    have : √(10 * 10 : ℝ) = 10 := Real.sqrt_mul_self (by norm_num)
    simp [Line.info, Line.value, Line.new, Vec.length, this, Vec.unit]
  obtain ⟨a1, a2, a3, a4, a5, a6⟩ := f1
  -- the move is skipped
  have f2 : s2 = { s1 with skipped := s1.skipped ++ [(⟨0, 0⟩, s1.current)] } := by
    rcases goTo_eq h2 with ⟨-, rfl⟩ | ⟨hm, -⟩
    · rfl
    exfalso
    have r0 : Draw.round 0 = 0 := by simpa using Draw.round_int 0
    simp [Pen.atMachine, a1, Ctx.new, Env.toSteps, unitEnv, r0, cassert] at hm
  -- the second line starts from the end of the first
  have f3 : s3.drawn = [(⟨0, 0⟩, Concat.add [] (Line.new (⟨10, 0⟩ - ⟨0, 0⟩)).info)] ∧ s3.start = ⟨10, 0⟩ ∧
      s3.curves = Concat.add [] (Line.new (⟨0, 10⟩ - ⟨10, 0⟩)).info := by
    subst f2
    simp only [Pen.step, Env.segInfo, Option.bind_eq_bind, Option.bind_some, a2] at h3
    rcases Draw.add_eq h3 with ⟨-, f, hf, rfl⟩ | ⟨ht, -⟩
    · obtain ⟨_, _, e1⟩ := flush_eq hf
      rw [e1]
      simp [a2, a3, a4, a5]
    · exfalso
      apply ht
      refine ⟨⟨1, 0⟩, a6, ?_⟩
      have hl : (⟨0, 10⟩ - ⟨10, 0⟩ : Vec).length ≠ 0 := by
        rw [Ne, length_eq_zero_iff]
        intro hc
        have := congrArg Vec.x hc
        norm_num at this
      have hp : 0 ≤ (⟨0, 10⟩ - ⟨10, 0⟩ : Vec).length := Real.sqrt_nonneg _
      simp only [Line.info, Line.value, Line.new, if_neg hl, Vec.unit, minCosConnect]
      generalize (⟨0, 10⟩ - ⟨10, 0⟩ : Vec).length = n at *
      simp only [vsub]
      have : (0 - 10) / n ≤ 0 := div_nonpos_of_nonpos_of_nonneg (by norm_num) hp
      linarith
  rw [e4]
  simp [f3.1, f3.2.1, f3.2.2, curvesOf, pieces, chain, Concat.add]

/-! ### C68 -/

/-- C68: transforming the segments transforms what is drawn, as long as there are no arcs. -/
theorem C68_transform (t : Transform) (p : Vec) (seg : Seg) (h : ∀ rx ry a b r, seg ≠ .arc rx ry a b r) (u : ℝ) :
    pointAt (t * p) (seg.transform t) u = t * pointAt p seg u ∧
    segEnd (t * p) (seg.transform t) = t * segEnd p seg := by
  cases seg with
  | arc rx ry a b r => exact absurd rfl (h rx ry a b r)
  | goTo q => exact ⟨rfl, rfl⟩
  | lineTo q => exact ⟨by ext <;> simp [pointAt, Seg.transform] <;> ring, rfl⟩
  | closeTo q => exact ⟨by ext <;> simp [pointAt, Seg.transform] <;> ring, rfl⟩
  | curveTo q c1 c2 =>
    exact ⟨by ext <;> simp [pointAt, Seg.transform, Transform.noTranslation] <;> ring, rfl⟩

/-- Half-way along a Bezier curve from the origin, with a shear. -/
example : pointAt ((⟨3, 0, 2, 1, 5, 6⟩ : Transform) * (⟨0, 0⟩ : Vec))
    ((Seg.curveTo ⟨8, 8⟩ ⟨8, 0⟩ ⟨0, -8⟩).transform ⟨3, 0, 2, 1, 5, 6⟩) (1 / 2) = ⟨28, 7⟩ := by
  rw [(C68_transform _ _ _ (by simp) _).1]
  ext <;> norm_num [pointAt]

/-! ### C69 -/

/-- C69: arcs are transformed correctly by a translation and positive uniform scaling (of at least
0.000001). -/
theorem C69_scale (s x y : ℝ) (hs : 1 / 1000000 ≤ s) (p : Vec) (r a b rot u : ℝ) :
    let t : Transform := Transform.translate x y * Transform.scale s
    pointAt (t * p) ((Seg.arc r r a b rot).transform t) u = t * pointAt p (.arc r r a b rot) u ∧
    (Seg.arc r r a b rot).transform t = .arc (s * r) (s * r) a b rot := by
  have h0 : 0 < s := lt_of_lt_of_le (by norm_num) hs
  have e1 : √(s * s) = s := Real.sqrt_mul_self h0.le
  have e2 : (⟨s, 0⟩ : ℂ).arg = 0 := by
    have : (⟨s, 0⟩ : ℂ) = (s : ℂ) := rfl
    rw [this, Complex.arg_ofReal_of_nonneg h0.le]
  have e3 : (Seg.arc r r a b rot).transform (Transform.translate x y * Transform.scale s) =
      .arc (s * r) (s * r) a b rot := by
    have hs' : (1000000 : ℝ)⁻¹ ≤ s := by norm_num at hs ⊢; exact hs
    simp [Seg.transform, Transform.translate, Transform.scale, Transform.decompose, e1, Vec.atan2, e2,
      Transform.minColumnLength, hs', h0.ne']
  intro t
  refine ⟨?_, e3⟩
  rw [e3]
  ext <;> simp [t, pointAt, Transform.translate, Transform.scale] <;> ring

/-- C69: a rotation is not applied to arcs: the drawn arc of the rotated segment is the arc
of the original one, moved to the new start. -/
theorem C69_rotation_lost (e : Env) (θ : ℝ) (p : Vec) (r a b rot : ℝ) :
    ∃ k next, e.segInfo p (.arc r r a b rot) = some (k, next) ∧
      ∃ next', e.segInfo (Transform.rotate θ * p) ((Seg.arc r r a b rot).transform (Transform.rotate θ)) =
        some (k, next') := by
  have e1 : √(Real.cos θ * Real.cos θ + Real.sin θ * Real.sin θ) = 1 := by
    rw [show Real.cos θ * Real.cos θ + Real.sin θ * Real.sin θ = 1 by
      have := Real.cos_sq_add_sin_sq θ; nlinarith, Real.sqrt_one]
  have e2 : Real.cos θ * Real.cos θ + Real.sin θ * Real.sin θ = 1 := by
    have := Real.cos_sq_add_sin_sq θ; nlinarith
  refine ⟨(Circle.new r a b).info, p + ((Circle.new r a b).value (Circle.new r a b).length).1, ?_, ?_⟩
  · simp only [Env.segInfo, sub_self, abs_zero]
    rw [if_neg (by unfold epsilon; norm_num)]
  · simp only [Seg.transform, Transform.decompose, Transform.rotate, e1]
    rw [if_pos (by unfold Transform.minColumnLength; norm_num)]
    simp only [Env.segInfo, one_mul, div_one, sub_neg_eq_add, mul_neg, e2, sub_self, abs_zero]
    rw [if_neg (by unfold epsilon; norm_num)]
    exact ⟨_, rfl⟩

/-- C69: so a quarter circle turned by 90 degrees does not end where it should: it should end at
(-1, 0) and ends at (-1, 2). -/
theorem C69_wrong_end (e : Env) :
    ∃ k next, e.segInfo (Transform.rotate (Real.pi / 2) * (⟨1, 0⟩ : Vec))
        ((Seg.arc 1 1 0 (Real.pi / 2) 0).transform (Transform.rotate (Real.pi / 2))) = some (k, next) ∧
      next = ⟨-1, 2⟩ ∧
      Transform.rotate (Real.pi / 2) * pointAt ⟨1, 0⟩ (.arc 1 1 0 (Real.pi / 2) 0) 1 = ⟨-1, 0⟩ := by
  obtain ⟨k, next, h1, next', h2⟩ := C69_rotation_lost e (Real.pi / 2) ⟨1, 0⟩ 1 0 (Real.pi / 2) 0
  refine ⟨k, next', h2, ?_, ?_⟩
  · simp only [Env.segInfo, sub_self, abs_zero] at h1
    rw [if_neg (by unfold epsilon; norm_num)] at h1
    simp only [Option.some.injEq, Prod.mk.injEq] at h1
    have := circle_end 1 0 (Real.pi / 2)
    simp only [Seg.transform, Env.segInfo] at h2
    split at h2
    · cases h2
    simp only [Option.some.injEq, Prod.mk.injEq] at h2
    have hv : (k.value k.length).1 = ⟨-1, 1⟩ := by
      rw [← h1.1]
      simp only [Circle.info]
      rw [this]
      simp
    have hv' := hv
    rw [← h2.1] at hv'
    rw [← h2.2]
    simp only [Circle.info] at hv'
    rw [hv']
    ext <;> simp [Transform.rotate]
    norm_num
  · ext <;> simp [pointAt, Transform.rotate]

/-- C69: a mirrored arc is refused by `draw_curves`. -/
theorem C69_mirror (e : Env) (p : Vec) (r a b rot : ℝ) (hr : 1 / 4503599627370496 < r) :
    e.segInfo p ((Seg.arc r r a b rot).transform (Transform.scaleXy 1 (-1))) = none := by
  have h0 : 0 < r := lt_trans (by norm_num) hr
  have : (Seg.arc r r a b rot).transform (Transform.scaleXy 1 (-1)) = .arc r (-r) a b rot := by
    simp only [Seg.transform, Transform.scaleXy, Transform.decompose, Transform.minColumnLength]
    have : Vec.atan2 0 1 = 0 := by
      have : (⟨1, 0⟩ : ℂ) = ((1 : ℝ) : ℂ) := rfl
      rw [Vec.atan2, this, Complex.arg_ofReal_of_nonneg zero_le_one]
    norm_num [this]
  rw [this]
  refine C65_ellipse e p r (-r) a b rot ?_
  rw [abs_of_pos (by linarith)]
  linarith

end StepperPaths.Props
