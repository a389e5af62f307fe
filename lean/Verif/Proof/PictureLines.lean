import Verif.Proof.Picture
import Verif.Props.Program

/-! The lines and curves of segments, and what is to be drawn. -/

namespace StepperPaths.Picture
open Coords Curves Context Draw Spec Props Rounded

/-- A shape at a place has the points of a curve. -/
def Same (x : Vec × Shape) (γ : ℝ → Vec) : Prop :=
  (∀ s, 0 ≤ s → s ≤ x.2.len → ∃ u, 0 ≤ u ∧ u ≤ 1 ∧ placedAt x s = γ u) ∧
  ∀ u, 0 ≤ u → u ≤ 1 → ∃ s, 0 ≤ s ∧ s ≤ x.2.len ∧ placedAt x s = γ u

theorem same_of {x : Vec × Shape} {γ : ℝ → Vec} (hl : 0 < x.2.len) (h : ∀ u, placedAt x (x.2.len * u) = γ u) : Same x γ := by
  constructor
  · intro s h0 h1
    refine ⟨s / x.2.len, by positivity, (div_le_one hl).2 h1, ?_⟩
    rw [← h, mul_div_cancel₀ _ hl.ne']
  · intro u h0 h1
    exact ⟨x.2.len * u, by positivity, by nlinarith, h u⟩

theorem same_line {pos p : Vec} (h : 0 < (p - pos).length) :
    Same (pos, lineShape (p - pos)) (pointAt pos (.lineTo p)) ∧ Same (pos, lineShape (p - pos)) (pointAt pos (.closeTo p)) := by
  have key : ∀ u, placedAt (pos, lineShape (p - pos)) ((p - pos).length * u) = pos * (1 - u) + p * u := by
    intro u
    have e1 : ∀ z : ℝ, z / (p - pos).length * ((p - pos).length * u) = z * u := by
      intro z
      field_simp
    ext
    · show pos.x + (p.x - pos.x) / (p - pos).length * ((p - pos).length * u) = pos.x * (1 - u) + p.x * u
      rw [e1]; ring
    · show pos.y + (p.y - pos.y) / (p - pos).length * ((p - pos).length * u) = pos.y * (1 - u) + p.y * u
      rw [e1]; ring
  exact ⟨same_of h key, same_of h key⟩

theorem arc_angle {r a b : ℝ} (hr : 0 < r) (u : ℝ) : a + (if a ≤ b then (1 : ℝ) else -1) * (r * |b - a| * u) / r = a + (b - a) * u := by
  split
  next h =>
    rw [abs_of_nonneg (by linarith)]
    field_simp
  next h =>
    rw [abs_of_nonpos (by linarith)]
    field_simp

theorem same_arc {pos : Vec} {r ry a b rot : ℝ} (hr : 0 < r) (h : 0 < r * |b - a|) :
    Same (pos, arcShape r a b) (pointAt pos (.arc r ry a b rot)) := by
  refine same_of h fun u => ?_
  show (⟨pos.x + r * (Real.cos (a + (if a ≤ b then (1 : ℝ) else -1) * (r * |b - a| * u) / r) - Real.cos a),
    pos.y + r * (Real.sin (a + (if a ≤ b then (1 : ℝ) else -1) * (r * |b - a| * u) / r) - Real.sin a)⟩ : Vec) = _
  rw [arc_angle hr]
  ext <;> simp only [pointAt] <;> ring

theorem arc_segEnd {pos : Vec} {r ry a b rot : ℝ} (hr : 0 < r) :
    placedAt (pos, arcShape r a b) (r * |b - a|) = segEnd pos (.arc r ry a b rot) := by
  show (⟨pos.x + r * (Real.cos (a + (if a ≤ b then (1 : ℝ) else -1) * (r * |b - a|) / r) - Real.cos a),
    pos.y + r * (Real.sin (a + (if a ≤ b then (1 : ℝ) else -1) * (r * |b - a|) / r) - Real.sin a)⟩ : Vec) = _
  have := arc_angle (a := a) (b := b) hr 1
  rw [mul_one, mul_one, show a + (b - a) = b by ring] at this
  rw [this]
  ext <;> simp only [segEnd] <;> ring

theorem same_bezier {pos p c1 c2 : Vec} {U M7 κ : ℝ} (h : BezierFits (bezierOf pos p c1 c2) U M7 κ) :
    Same (pos, bezierShape (bezierOf pos p c1 c2)) (pointAt pos (.curveTo p c1 c2)) := by
  have key : ∀ t, 0 ≤ t → t ≤ 1 → placedAt (pos, bezierShape (bezierOf pos p c1 c2)) (bezierArc (bezierOf pos p c1 c2) t) =
      pointAt pos (.curveTo p c1 c2) t := by
    intro t h0 h1
    show pos + (bezierShape (bezierOf pos p c1 c2)).pt (bezierArc (bezierOf pos p c1 c2) t) = _
    rw [(CurvePath.shape_pt h h0 h1).1]
    ext <;> simp [bernstein, bezierOf, pointAt] <;> ring
  have hm := CurvePath.onwardLen_mono h
  have z0 : bezierArc (bezierOf pos p c1 c2) 0 = 0 := by
    rw [← CurvePath.onwardLen_eq le_rfl zero_le_one, CurvePath.onwardLen_zero]
  constructor
  · intro s h0 h1
    obtain ⟨t, rfl⟩ := CurvePath.onwardLen_surj h s
    have t0 : 0 ≤ t := by
      rw [← CurvePath.onwardLen_zero (bezierOf pos p c1 c2)] at h0
      exact hm.le_iff_le.1 h0
    have t1 : t ≤ 1 := by
      have h1 : onwardLen (bezierOf pos p c1 c2) t ≤ bezierArc (bezierOf pos p c1 c2) 1 := h1
      rw [← CurvePath.onwardLen_eq zero_le_one le_rfl] at h1
      exact hm.le_iff_le.1 h1
    refine ⟨t, t0, t1, ?_⟩
    rw [CurvePath.onwardLen_eq t0 t1]
    exact key t t0 t1
  · intro u h0 h1
    refine ⟨bezierArc (bezierOf pos p c1 c2) u, ?_, ?_, key u h0 h1⟩
    · rw [← z0, ← CurvePath.onwardLen_eq le_rfl zero_le_one, ← CurvePath.onwardLen_eq h0 h1]
      exact hm.le_iff_le.2 h0
    · show _ ≤ bezierArc (bezierOf pos p c1 c2) 1
      rw [← CurvePath.onwardLen_eq h0 h1, ← CurvePath.onwardLen_eq zero_le_one le_rfl]
      exact hm.le_iff_le.2 h1

theorem close_length (a b : Vec) : (a - b).length = (b - a).length := by
  show √((a.x - b.x) * (a.x - b.x) + (a.y - b.y) * (a.y - b.y)) = √((b.x - a.x) * (b.x - a.x) + (b.y - a.y) * (b.y - a.y))
  congr 1
  ring

/-- What is to be drawn are the lines and curves of the segments, but for short closing lines. -/
theorem lines_drawn {e : Draw.Env} {M d D ε κ w : ℝ} {ρ : Axis → ℝ} {P0 : Axis → ℤ} (hd : 0 < d) {pos : Vec} {segs : List Seg} {n : ℕ}
    {l : List (Vec × Seg)} (h : FloatIntended (exactEnv e) pos segs n l) :
    ∀ {B : ℝ} {stops : List Vec}, ExactPath e.stepScale M d D ε κ w ρ P0 B stops pos segs →
    (∀ a ∈ l, ∃ γ ∈ linesOf pos segs, Same (shapeOf pictures a) γ) ∧
    (∀ γ ∈ linesOf pos segs, (∃ a ∈ l, Same (shapeOf pictures a) γ) ∨
      ∃ p q, γ = pointAt p (.closeTo q) ∧ (p - q).length < 1 / 1000000) ∧
    endsOf (exactEnv e) pos segs = lineEnds pos segs := by
  have cons : ∀ {pos q : Vec} {seg : Seg} {segs : List Seg} {l : List (Vec × Seg)}, Same (shapeOf pictures (pos, seg)) (pointAt pos seg) →
      linesOf pos (seg :: segs) = pointAt pos seg :: linesOf q segs →
      lineEnds pos (seg :: segs) = q :: lineEnds q segs → endsOf (exactEnv e) pos (seg :: segs) = q :: endsOf (exactEnv e) q segs →
      ((∀ a ∈ l, ∃ γ ∈ linesOf q segs, Same (shapeOf pictures a) γ) ∧
        (∀ γ ∈ linesOf q segs, (∃ a ∈ l, Same (shapeOf pictures a) γ) ∨
          ∃ p q, γ = pointAt p (.closeTo q) ∧ (p - q).length < 1 / 1000000) ∧
        endsOf (exactEnv e) q segs = lineEnds q segs) →
      (∀ a ∈ (pos, seg) :: l, ∃ γ ∈ linesOf pos (seg :: segs), Same (shapeOf pictures a) γ) ∧
      (∀ γ ∈ linesOf pos (seg :: segs), (∃ a ∈ (pos, seg) :: l, Same (shapeOf pictures a) γ) ∨
        ∃ p q, γ = pointAt p (.closeTo q) ∧ (p - q).length < 1 / 1000000) ∧
      endsOf (exactEnv e) pos (seg :: segs) = lineEnds pos (seg :: segs) := by
    intro pos q seg segs l hs h1 h2 h3 ⟨g1, g2, g3⟩
    refine ⟨fun a ha => ?_, fun γ hγ => ?_, by rw [h2, h3, g3]⟩
    · rcases List.mem_cons.1 ha with rfl | ha
      · exact ⟨_, by rw [h1]; exact List.mem_cons_self, hs⟩
      · obtain ⟨γ, a1, a2⟩ := g1 a ha
        exact ⟨γ, by rw [h1]; exact List.mem_cons_of_mem _ a1, a2⟩
    · rw [h1] at hγ
      rcases List.mem_cons.1 hγ with rfl | hγ
      · exact .inl ⟨_, List.mem_cons_self, hs⟩
      · rcases g2 γ hγ with ⟨a, a1, a2⟩ | h
        · exact .inl ⟨a, List.mem_cons_of_mem _ a1, a2⟩
        · exact .inr h
  induction h with
  | nil pos =>
    intro B stops _
    exact ⟨by simp, by simp [linesOf], rfl⟩
  | move h ih =>
    rintro B stops ⟨-, h1, -⟩
    exact ih h1
  | @short pos p segs n l hs h ih =>
    rintro B stops ⟨-, ⟨h1, h2⟩ | ⟨h1, -⟩⟩
    · obtain ⟨g1, g2, g3⟩ := ih h2
      refine ⟨fun a ha => ?_, fun γ hγ => ?_, ?_⟩
      · obtain ⟨γ, a1, a2⟩ := g1 a ha
        exact ⟨γ, List.mem_cons_of_mem _ a1, a2⟩
      · rcases List.mem_cons.1 hγ with rfl | hγ
        · exact .inr ⟨_, _, rfl, h1.trans (by norm_num)⟩
        · exact g2 γ hγ
      · show p :: endsOf (exactEnv e) p segs = p :: lineEnds p segs
        rw [g3]
    · exact absurd hs (not_le.2 h1)
  | @draw pos q seg segs n l hdr he h ih =>
    intro B stops hF
    cases seg with
    | goTo p => exact absurd hdr (by simp [FloatDraws])
    | lineTo p =>
      cases he
      obtain ⟨-, h1, -, h2⟩ := hF
      exact cons (same_line (lt_of_lt_of_le hd h1)).1 rfl rfl rfl (ih h2)
    | closeTo p =>
      cases he
      obtain ⟨-, ⟨h1, h2⟩ | ⟨h1, h2, -, h3⟩⟩ := hF
      · exact absurd hdr (not_le.2 h1)
      · exact cons (same_line (lt_of_lt_of_le hd h2)).2 rfl rfl rfl (ih h3)
    | curveTo p c1 c2 =>
      obtain ⟨k, hk⟩ := he
      cases hk
      obtain ⟨-, ⟨U, M7, h1, -⟩, -, -, h2⟩ := hF
      exact cons (same_bezier h1) rfl rfl rfl (ih h2)
    | arc rx ry a b rot =>
      obtain ⟨k, hk⟩ := he
      obtain ⟨⟨A, h1, -⟩, h4, -, -, -, h2, -, h3⟩ := hF
      have hr : 0 < rx := lt_of_lt_of_le (by norm_num) h1.big
      have e0 : Draw.epsilon = 1 / 2 ^ 52 := by norm_num [Draw.epsilon]
      have hk' : (exactEnv e).other pos (.arc rx ry a b rot) =
          some ((Circle.new rx a b).info, placedAt (pos, arcShape rx a b) (rx * |b - a|)) := by
        show (if |rx - ry| > Draw.epsilon then none else _) = _
        rw [if_neg (by rw [e0]; exact not_lt.2 h4), CurvePath.arc_exact_end hr]
      rw [hk'] at hk
      cases hk
      refine cons (same_arc hr (lt_of_lt_of_le hd h2)) ?_ ?_ ?_ (ih h3)
      · rw [arc_segEnd hr (ry := ry) (rot := rot)]; rfl
      · rw [arc_segEnd hr (ry := ry) (rot := rot)]; rfl
      · simp only [endsOf, hk']

theorem part_le {z δ w : ℝ} (h : |z| ≤ δ) (h0 : 0 ≤ w) (h1 : w ≤ 1) : |z * w| ≤ δ := by
  rw [abs_mul, abs_of_nonneg h0]
  nlinarith [abs_nonneg z]

/-- When the pen starts elsewhere, the lines and curves are off by at most as much. -/
theorem shift_one {p q : Vec} {δ : Axis → ℝ} (h : ∀ i, |coord p i - coord q i| ≤ δ i) (seg : Seg) (u : ℝ) (h0 : 0 ≤ u)
    (h1 : u ≤ 1) : ∀ i, |coord (pointAt p seg u) i - coord (pointAt q seg u) i| ≤ δ i := by
  have hδ : ∀ i, 0 ≤ δ i := fun i => (abs_nonneg _).trans (h i)
  intro i
  cases seg with
  | goTo r =>
    simp only [pointAt, sub_self, abs_zero]
    exact hδ i
  | lineTo r =>
    have : coord (pointAt p (.lineTo r) u) i - coord (pointAt q (.lineTo r) u) i = (coord p i - coord q i) * (1 - u) := by
      cases i <;> simp [pointAt, coord] <;> ring
    rw [this]
    exact part_le (h i) (by linarith) (by linarith)
  | closeTo r =>
    have : coord (pointAt p (.closeTo r) u) i - coord (pointAt q (.closeTo r) u) i = (coord p i - coord q i) * (1 - u) := by
      cases i <;> simp [pointAt, coord] <;> ring
    rw [this]
    exact part_le (h i) (by linarith) (by linarith)
  | curveTo r c1 c2 =>
    have : coord (pointAt p (.curveTo r c1 c2) u) i - coord (pointAt q (.curveTo r c1 c2) u) i =
        (coord p i - coord q i) * ((1 - u) ^ 3 + 3 * (1 - u) ^ 2 * u) := by
      cases i <;> simp [pointAt, coord] <;> ring
    rw [this]
    have : 0 ≤ 1 - u := by linarith
    refine part_le (h i) (by positivity) ?_
    have : (0 : ℝ) ≤ 3 * (1 - u) * u ^ 2 + u ^ 3 := by positivity
    nlinarith
  | arc r r' a b rot =>
    have : coord (pointAt p (.arc r r' a b rot) u) i - coord (pointAt q (.arc r r' a b rot) u) i = coord p i - coord q i := by
      cases i <;> simp only [pointAt, coord] <;> ring
    rw [this]
    exact h i

/-- Close to each other everywhere. -/
def Close (δ : Axis → ℝ) (γ γ' : ℝ → Vec) : Prop := ∀ u, 0 ≤ u → u ≤ 1 → ∀ i, |coord (γ u) i - coord (γ' u) i| ≤ δ i

theorem shift_lines {δ : Axis → ℝ} (segs : List Seg) : ∀ {p q : Vec}, (∀ i, |coord p i - coord q i| ≤ δ i) →
    List.Forall₂ (Close δ) (linesOf p segs) (linesOf q segs) ∧
    List.Forall₂ (fun a b => ∀ i, |coord a i - coord b i| ≤ δ i) (lineEnds p segs) (lineEnds q segs) := by
  have draw : ∀ {p q : Vec} {seg : Seg}, (∀ i, |coord p i - coord q i| ≤ δ i) →
      Close δ (pointAt p seg) (pointAt q seg) ∧ ∀ i, |coord (segEnd p seg) i - coord (segEnd q seg) i| ≤ δ i := by
    intro p q seg h
    refine ⟨fun u h0 h1 => shift_one h seg u h0 h1, ?_⟩
    have := shift_one h seg 1 zero_le_one le_rfl
    rwa [point_one, point_one] at this
  induction segs with
  | nil => intro p q _; exact ⟨.nil, .nil⟩
  | cons seg segs ih =>
    intro p q h
    cases seg with
    | goTo r =>
      exact ih (fun i => by simpa using (abs_nonneg _).trans (h i))
    | lineTo r =>
      obtain ⟨d1, d2⟩ := draw (seg := .lineTo r) h
      exact ⟨.cons d1 (ih d2).1, .cons d2 (ih d2).2⟩
    | closeTo r =>
      obtain ⟨d1, d2⟩ := draw (seg := .closeTo r) h
      exact ⟨.cons d1 (ih d2).1, .cons d2 (ih d2).2⟩
    | curveTo r c1 c2 =>
      obtain ⟨d1, d2⟩ := draw (seg := .curveTo r c1 c2) h
      exact ⟨.cons d1 (ih d2).1, .cons d2 (ih d2).2⟩
    | arc r r' a b rot =>
      obtain ⟨d1, d2⟩ := draw (seg := .arc r r' a b rot) h
      exact ⟨.cons d1 (ih d2).1, .cons d2 (ih d2).2⟩

theorem intended_short {e : Rounded.Env} {pos : Vec} {segs : List Seg} {n : ℕ} {l : List (Vec × Seg)}
    (h : FloatIntended e pos segs n l) : n ≤ segs.length := by
  induction h with
  | nil => exact le_rfl
  | move _ ih => exact ih.trans (Nat.le_succ _)
  | short _ _ ih => exact Nat.succ_le_succ ih
  | draw _ _ _ ih => exact ih.trans (Nat.le_succ _)

theorem runs_limits {e : Rounded.Env} {v S r : ℝ} {w : ℤ} {aMax vMax : Axis → ℤ} {es : List Event} {t T : ℕ}
    {G : List (List (Vec × Shape))} (h : CurveRuns e v S r w aMax vMax es t G T) :
    (∀ w0 τ, t ≤ τ → τ < T → weightAt w0 es τ = 0 ∨ weightAt w0 es τ = w) ∧
    (∀ i τ, t ≤ τ → τ < T → |accAt i es τ| ≤ aMax i) ∧ ∀ i τ, t ≤ τ → τ < T → |velAt i es (τ + 1)| ≤ vMax i := by
  induction h with
  | nil t => exact ⟨fun _ _ _ _ => by omega, fun _ _ _ _ => by omega, fun _ _ _ _ => by omega⟩
  | @cons t a b T l ls h1 _ ih =>
    obtain ⟨i1, i2, i3⟩ := ih
    refine ⟨fun w0 τ k1 k2 => ?_, fun i τ k1 k2 => ?_, fun i τ k1 k2 => ?_⟩
    · by_cases ha : τ < a
      · exact .inl (h1.off w0 τ k1 ha)
      by_cases hb : τ < b
      · exact .inr (h1.on w0 τ (by omega) hb)
      · exact i1 w0 τ (by omega) k2
    · by_cases hb : τ < b
      · exact h1.acc i τ k1 hb
      · exact i2 i τ (by omega) k2
    · by_cases hb : τ < b
      · exact h1.vel i τ k1 hb
      · exact i3 i τ (by omega) k2

theorem burnt_later {scale : Axis → ℝ} {w : ℤ} {aMax vMax : Axis → ℤ} {es es' : List Event} {t t' T : ℕ} {l : List (ℝ → Vec)}
    {tiny near far : Axis → ℝ} (h : Burnt scale w aMax vMax es t t' l tiny near far) (hT : t' ≤ T)
    (h1 : ∀ i, ∀ τ < T, accAt i es' τ = accAt i es τ) (h2 : ∀ w, ∀ τ < T, weightAt w es' τ = weightAt w es τ) :
    Burnt scale w aMax vMax es' t t' l tiny near far where
  order := h.order
  power w0 τ k1 k2 := by rw [h2 w0 τ (by omega)]; exact h.power w0 τ k1 k2
  only w0 τ k1 k2 k3 := by
    rw [h2 w0 τ (by omega)] at k3
    obtain ⟨γ, a1, u, a2, a3, a4⟩ := h.only w0 τ k1 k2 k3
    exact ⟨γ, a1, u, a2, a3, fun i => by rw [posAt_same (h1 i) τ (by omega)]; exact a4 i⟩
  all γ hγ ht u k1 k2 := by
    obtain ⟨τ, a1, a2, a3, τ', a4, a5⟩ := h.all γ hγ ht u k1 k2
    exact ⟨τ, a1, a2, fun w0 => by rw [h2 w0 τ (by omega)]; exact a3 w0, τ', a4, fun i => by
      rw [posAt_same (h1 i) τ' (by omega)]; exact a5 i⟩
  acc i τ k1 k2 := by rw [h1 i τ (by omega)]; exact h.acc i τ k1 k2
  vel i τ k1 k2 := by rw [Raster.velAt_congr (h1 i) (by omega)]; exact h.vel i τ k1 k2

theorem forall2_left {α β : Type*} {R : α → β → Prop} {l : List α} {l' : List β} (h : List.Forall₂ R l l') :
    ∀ a ∈ l, ∃ b ∈ l', R a b := by
  induction h with
  | nil => simp
  | cons h1 _ ih =>
    intro a ha
    rcases List.mem_cons.1 ha with rfl | ha
    · exact ⟨_, List.mem_cons_self, h1⟩
    · obtain ⟨b, hb, hr⟩ := ih a ha
      exact ⟨b, List.mem_cons_of_mem _ hb, hr⟩

theorem forall2_right {α β : Type*} {R : α → β → Prop} {l : List α} {l' : List β} (h : List.Forall₂ R l l') :
    ∀ b ∈ l', ∃ a ∈ l, R a b := forall2_left h.flip

/-- The lines and curves that are drawn, seen as those of a picture that is slightly off. -/
theorem burnt_within {scale : Axis → ℝ} (hs : ∀ i, 0 ≤ scale i) {e : Rounded.Env} (hes : e.stepScale = scale) {w : ℤ} (hw : w ≠ 0)
    {aMax vMax : Axis → ℤ} {es : List Event} {v S r r' : ℝ} (hv : 0 < v) (hr : r ≤ r') {t t' : ℕ} {G : List (List (Vec × Shape))}
    {l : List (Vec × Seg)} {A B : List (ℝ → Vec)} {δ : Axis → ℝ}
    (hG : G.flatten = l.map (shapeOf pictures)) (hR : CurveRuns e v S r w aMax vMax es t G t')
    (h1 : ∀ a ∈ l, ∃ γ ∈ A, Same (shapeOf pictures a) γ)
    (h2 : ∀ γ ∈ A, (∃ a ∈ l, Same (shapeOf pictures a) γ) ∨
      ∃ p q, γ = pointAt p (.closeTo q) ∧ (p - q).length < 1 / 1000000)
    (h3 : List.Forall₂ (Close δ) A B) {θ : Axis → ℝ} (hδ : ∀ i, δ i * scale i ≤ θ i) :
    Burnt scale w aMax vMax es t t' B (fun i => 2 * θ i + scale i / 1000000) (fun i => 386 / 100 * S + θ i + r' * scale i)
      (fun i => 386 / 100 * S + θ i + (r' + 13 / 10 * v) * scale i) := by
  subst hes
  obtain ⟨p1, p2, p3⟩ := runs_limits hR
  have near : ∀ {γ γ' : ℝ → Vec} {u : ℝ} {P X : ℝ} {i : Axis}, Close δ γ γ' → 0 ≤ u → u ≤ 1 →
      |P - coord (γ u) i * e.stepScale i| ≤ X → |P - coord (γ' u) i * e.stepScale i| ≤ X + θ i := by
    intro γ γ' u P X i hc h0 h1 h
    have g1 := mul_le_mul_of_nonneg_right (hc u h0 h1 i) (hs i)
    rw [← abs_of_nonneg (hs i), ← abs_mul, abs_of_nonneg (hs i), abs_le] at g1
    have g2 := hδ i
    rw [abs_le] at h ⊢
    constructor <;> nlinarith
  refine ⟨CurvePath.runs_le hR, p1, fun w0 τ k1 k2 k3 => ?_, fun γ' hγ' hbig u h0 h1 => ?_, p2, p3⟩
  · obtain ⟨x, hx, s, s0, s1, hn⟩ := CurvePath.runs_only hR hv hw w0 τ k1 k2 k3
    rw [hG, List.mem_map] at hx
    obtain ⟨a, ha, rfl⟩ := hx
    obtain ⟨γ, hγ, hsame⟩ := h1 a ha
    obtain ⟨u, u0, u1, hu⟩ := hsame.1 s s0 s1
    obtain ⟨γ', hγ', hc⟩ := forall2_left h3 γ hγ
    refine ⟨γ', hγ', u, u0, u1, fun i => ?_⟩
    have := hn i
    rw [hu] at this
    have := near hc u0 u1 this
    have := mul_le_mul_of_nonneg_right hr (hs i)
    linarith
  · obtain ⟨γ, hγ, hc⟩ := forall2_right h3 γ' hγ'
    rcases h2 γ hγ with ⟨a, ha, hsame⟩ | ⟨p, q, rfl, hpq⟩
    · obtain ⟨s, s0, s1, hu⟩ := hsame.2 u h0 h1
      obtain ⟨τ, a1, a2, a3, τ', a4, a5⟩ := CurvePath.runs_all hR hv hs (shapeOf pictures a) (by
        rw [hG]; exact List.mem_map_of_mem ha) s s0 s1
      refine ⟨τ, a1, a2, a3, τ', a4, fun i => ?_⟩
      have := a5 i
      rw [hu] at this
      have := near hc h0 h1 this
      have := mul_le_mul_of_nonneg_right hr (hs i)
      linarith
    · refine absurd (fun x y x0 x1 y0 y1 i => ?_) hbig
      have g0 : ∀ i, |coord p i - coord q i| ≤ (p - q).length := by
        intro i
        have hx : |p.x - q.x| ≤ √((p.x - q.x) * (p.x - q.x) + (p.y - q.y) * (p.y - q.y)) :=
          Real.abs_le_sqrt (by nlinarith [mul_self_nonneg (p.y - q.y)])
        have hy : |p.y - q.y| ≤ √((p.x - q.x) * (p.x - q.x) + (p.y - q.y) * (p.y - q.y)) :=
          Real.abs_le_sqrt (by nlinarith [mul_self_nonneg (p.x - q.x)])
        cases i
        exacts [hx, hy]
      have g1 : |coord (pointAt p (.closeTo q) x) i - coord (pointAt p (.closeTo q) y) i| ≤ 1 / 1000000 := by
        have : coord (pointAt p (.closeTo q) x) i - coord (pointAt p (.closeTo q) y) i = (coord p i - coord q i) * (y - x) := by
          cases i <;> simp [pointAt, coord] <;> ring
        rw [this, abs_mul]
        have : |y - x| ≤ 1 := abs_le.2 ⟨by linarith, by linarith⟩
        have := g0 i
        nlinarith [abs_nonneg (coord p i - coord q i), abs_nonneg (y - x)]
      have g2 := hc x x0 x1 i
      have g3 := hc y y0 y1 i
      have g4 : |coord (γ' x) i - coord (γ' y) i| ≤ 2 * δ i + 1 / 1000000 := by
        rw [abs_le] at g1 g2 g3 ⊢
        constructor <;> linarith
      have := mul_le_mul_of_nonneg_right g4 (hs i)
      have := hδ i
      show _ ≤ 2 * θ i + e.stepScale i / 1000000
      linarith

theorem burnt_of {scale : Axis → ℝ} (hs : ∀ i, 0 ≤ scale i) {e : Rounded.Env} (hes : e.stepScale = scale) {w : ℤ} (hw : w ≠ 0)
    {aMax vMax : Axis → ℤ} {es : List Event} {v S r r' : ℝ} (hv : 0 < v) (hr : r ≤ r') {t t' : ℕ} {G : List (List (Vec × Shape))}
    {l : List (Vec × Seg)} {A B : List (ℝ → Vec)} {δ : Axis → ℝ}
    (hG : G.flatten = l.map (shapeOf pictures)) (hR : CurveRuns e v S r w aMax vMax es t G t')
    (h1 : ∀ a ∈ l, ∃ γ ∈ A, Same (shapeOf pictures a) γ)
    (h2 : ∀ γ ∈ A, (∃ a ∈ l, Same (shapeOf pictures a) γ) ∨
      ∃ p q, γ = pointAt p (.closeTo q) ∧ (p - q).length < 1 / 1000000)
    (h3 : List.Forall₂ (Close δ) A B) (hδ : ∀ i, δ i * scale i ≤ 1 / 2) :
    Burnt scale w aMax vMax es t t' B (fun i => 1 + scale i / 1000000) (fun i => 386 / 100 * S + 1 / 2 + r' * scale i)
      (fun i => 386 / 100 * S + 1 / 2 + (r' + 13 / 10 * v) * scale i) := by
  have := burnt_within hs hes hw hv hr hG hR h1 h2 h3 (θ := fun _ => 1 / 2) hδ
  norm_num at this ⊢
  exact this

end StepperPaths.Picture
