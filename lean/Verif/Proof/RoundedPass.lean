import Verif.Proof.PicturePass
import Verif.Props.RoundedBezier
import Verif.Spec.RoundedProgram

/-! Drawing a picture with rounding, once and several times. -/

namespace StepperPaths.Picture
open Coords Curves Context Draw Spec Props Rounded Program

theorem drawF_past {fl : ℝ → ℝ} {aMax vMax : Axis → ℤ} {e : Rounded.Env} {c c' : Ctx} {v : ℝ} {segs : List Seg} {err : Axis → ℤ}
    (h : Sync aMax vMax c) (hd : Rounded.drawCurves fl e c segs v = some (c', err)) : Past c c' := by
  unfold Rounded.drawCurves at hd
  split at hd
  · cases hd
    exact Past.refl _
  · obtain ⟨s, h1, h2⟩ := Option.bind_eq_some_iff.1 hd
    obtain ⟨c1, h3, h4⟩ := Option.bind_eq_some_iff.1 h2
    cases h4
    obtain ⟨h5, h6⟩ := Rounded.finish_later (s := Rounded.init fl e c) h h1
    exact Past.trans h6.past (weight_now h5 h3).2.2.1 h.inv.2.1 h5.inv.2.1

theorem close_trans {δ δ' : Axis → ℝ} {A B C : List (ℝ → Vec)} (h : List.Forall₂ (Close δ) A B) (h' : List.Forall₂ (Close δ') B C) :
    List.Forall₂ (Close fun i => δ i + δ' i) A C := by
  induction h generalizing C with
  | nil => cases h'; exact .nil
  | cons h1 _ ih =>
    cases h' with
    | cons h2 h3 =>
      refine .cons (fun u u0 u1 i => ?_) (ih h3)
      have g1 := h1 u u0 u1 i
      have g2 := h2 u u0 u1 i
      rw [abs_le] at g1 g2 ⊢
      constructor <;> linarith

/-- What is to be drawn are the lines and curves of the segments, but for short closing lines, and up to
the error of the points where arcs end. -/
theorem linesF_drawn {fl : ℝ → ℝ} (R : FloatRounding fl) {pw : ℝ → ℝ → ℝ} {sn cs : ℝ → ℝ} (T : FloatTrig sn cs) {e : Rounded.Env}
    (he : FloatCurves fl pw sn cs e) {M d D ε κ w : ℝ} {ρ : Axis → ℝ} {P0 : Axis → ℤ} (hd : 0 < d) (hD : 0 ≤ D) {δ : Axis → ℝ}
    {pos : Vec} {segs : List Seg} {n : ℕ} {l : List (Vec × Seg)} (h : FloatIntended e pos segs n l) :
    ∀ {B : ℝ} {stops : List Vec} {q : Vec}, TractablePath fl e.stepScale M d D ε κ w ρ P0 B stops pos segs →
    (∀ i, |coord pos i - coord q i| ≤ δ i - segs.length * D) →
    ∃ A : List (ℝ → Vec), (∀ a ∈ l, ∃ γ ∈ A, Same (shapeOf pictures a) γ) ∧
    (∀ γ ∈ A, (∃ a ∈ l, Same (shapeOf pictures a) γ) ∨
      ∃ p q, γ = pointAt p (.closeTo q) ∧ (p - q).length < 1 / 1000000) ∧
    List.Forall₂ (Close δ) A (linesOf q segs) ∧
    List.Forall₂ (fun a b => ∀ i, |coord a i - coord b i| ≤ δ i) (endsOf e pos segs) (lineEnds q segs) := by
  have less : ∀ {x y : ℝ} {k : ℕ}, x ≤ y - ((k + 1 : ℕ) : ℝ) * D → x ≤ y - k * D ∧ x + D ≤ y - k * D := by
    intro x y k h
    push_cast at h
    constructor <;> linarith
  have zero : ∀ {p q : Vec} {k : ℕ}, (∀ i, |coord p i - coord q i| ≤ δ i - ((k + 1 : ℕ) : ℝ) * D) → ∀ (r : Vec) (i : Axis),
      |coord r i - coord r i| ≤ δ i - k * D := by
    intro p q k h r i
    rw [sub_self, abs_zero]
    exact (abs_nonneg _).trans (less (h i)).1
  have all : ∀ {p q : Vec} {k : ℕ}, (∀ i, |coord p i - coord q i| ≤ δ i - (k : ℝ) * D) → ∀ i, |coord p i - coord q i| ≤ δ i := by
    intro p q k h i
    have : 0 ≤ (k : ℝ) * D := by positivity
    linarith [h i]
  have cons : ∀ {pos q pos' q' : Vec} {seg : Seg} {segs : List Seg} {l : List (Vec × Seg)} {A : List (ℝ → Vec)},
      Same (shapeOf pictures (pos, seg)) (pointAt pos seg) →
      (∀ i, |coord pos i - coord q i| ≤ δ i) → (∀ i, |coord pos' i - coord q' i| ≤ δ i) →
      linesOf q (seg :: segs) = pointAt q seg :: linesOf q' segs →
      lineEnds q (seg :: segs) = q' :: lineEnds q' segs → endsOf e pos (seg :: segs) = pos' :: endsOf e pos' segs →
      ((∀ a ∈ l, ∃ γ ∈ A, Same (shapeOf pictures a) γ) ∧
        (∀ γ ∈ A, (∃ a ∈ l, Same (shapeOf pictures a) γ) ∨
          ∃ p q, γ = pointAt p (.closeTo q) ∧ (p - q).length < 1 / 1000000) ∧
        List.Forall₂ (Close δ) A (linesOf q' segs) ∧
        List.Forall₂ (fun a b => ∀ i, |coord a i - coord b i| ≤ δ i) (endsOf e pos' segs) (lineEnds q' segs)) →
      ∃ A : List (ℝ → Vec), (∀ a ∈ (pos, seg) :: l, ∃ γ ∈ A, Same (shapeOf pictures a) γ) ∧
      (∀ γ ∈ A, (∃ a ∈ (pos, seg) :: l, Same (shapeOf pictures a) γ) ∨
        ∃ p q, γ = pointAt p (.closeTo q) ∧ (p - q).length < 1 / 1000000) ∧
      List.Forall₂ (Close δ) A (linesOf q (seg :: segs)) ∧
      List.Forall₂ (fun a b => ∀ i, |coord a i - coord b i| ≤ δ i) (endsOf e pos (seg :: segs)) (lineEnds q (seg :: segs)) := by
    intro pos q pos' q' seg segs l A hs c1 c2 h1 h2 h3 ⟨g1, g2, g3, g4⟩
    refine ⟨pointAt pos seg :: A, fun a ha => ?_, fun γ hγ => ?_, ?_, ?_⟩
    · rcases List.mem_cons.1 ha with rfl | ha
      · exact ⟨_, List.mem_cons_self, hs⟩
      · obtain ⟨γ, a1, a2⟩ := g1 a ha
        exact ⟨γ, List.mem_cons_of_mem _ a1, a2⟩
    · rcases List.mem_cons.1 hγ with rfl | hγ
      · exact .inl ⟨_, List.mem_cons_self, hs⟩
      · rcases g2 γ hγ with ⟨a, a1, a2⟩ | h
        · exact .inl ⟨a, List.mem_cons_of_mem _ a1, a2⟩
        · exact .inr h
    · rw [h1]
      exact .cons (fun u u0 u1 => shift_one c1 seg u u0 u1) g3
    · rw [h2, h3]
      exact .cons c2 g4
  induction h with
  | nil pos =>
    intro B stops q _ _
    exact ⟨[], by simp, by simp, .nil, .nil⟩
  | move h ih =>
    rintro B stops q ⟨-, h1, -⟩ hq
    exact ih h1 (zero hq _)
  | @short pos p segs n l hs h ih =>
    rintro B stops q ⟨-, ⟨h1, h2⟩ | ⟨h1, -⟩⟩ hq
    · obtain ⟨A, g1, g2, g3, g4⟩ := ih h2 (zero hq p)
      refine ⟨pointAt pos (.closeTo p) :: A, fun a ha => ?_, fun γ hγ => ?_,
        .cons (fun u u0 u1 => shift_one (all hq) (.closeTo p) u u0 u1) g3, .cons (all (zero hq p)) g4⟩
      · obtain ⟨γ, a1, a2⟩ := g1 a ha
        exact ⟨γ, List.mem_cons_of_mem _ a1, a2⟩
      · rcases List.mem_cons.1 hγ with rfl | hγ
        · exact .inr ⟨_, _, rfl, h1.trans (by norm_num)⟩
        · exact g2 γ hγ
    · exact absurd hs (not_le.2 h1)
  | @draw pos pos' seg segs n l hdr hend h ih =>
    intro B stops q hF hq
    cases seg with
    | goTo p => exact absurd hdr (by simp [FloatDraws])
    | lineTo p =>
      cases hend
      obtain ⟨-, h1, -, h2⟩ := hF
      obtain ⟨A, g⟩ := ih h2 (zero hq pos')
      exact cons (same_line (lt_of_lt_of_le hd h1)).1 (all hq) (all (zero hq pos')) rfl rfl rfl g
    | closeTo p =>
      cases hend
      obtain ⟨-, ⟨h1, h2⟩ | ⟨h1, h2, -, h3⟩⟩ := hF
      · exact absurd hdr (not_le.2 h1)
      · obtain ⟨A, g⟩ := ih h3 (zero hq pos')
        exact cons (same_line (lt_of_lt_of_le hd h2)).2 (all hq) (all (zero hq pos')) rfl rfl rfl g
    | curveTo p c1 c2 =>
      obtain ⟨c, hk⟩ := hend
      obtain ⟨-, ⟨U, V, M7, r, r', a, k, k', h1, h1', -⟩, -, -, h2⟩ := hF
      obtain ⟨len, param, t1, t2⟩ := he.bezier pos p c1 c2 ⟨U, V, M7, κ, r, r', a, k, k', h1, h1'⟩
      rw [t2] at hk
      cases hk
      obtain ⟨A, g⟩ := ih h2 (zero hq pos')
      exact cons (same_bezier h1) (all hq) (all (zero hq pos')) rfl rfl (by simp only [endsOf, t2]) g
    | arc rx ry a b rot =>
      obtain ⟨c, hk⟩ := hend
      obtain ⟨⟨A, h1, h1', -⟩, -, h4, -, -, h5, h6, h2, -, h3⟩ := hF
      have hr : 0 < rx := lt_of_lt_of_le (by norm_num) h1.big
      have hk' := hk
      rw [he.arc, arcInfo, if_neg (not_lt.2 h4), Option.some.injEq, Prod.mk.injEq] at hk
      have e1 : ∀ i, coord (placedAt (pos, arcShape rx a b) (rx * |b - a|)) i =
          coord pos i + coord ((arcShape rx a b).pt (rx * |b - a|)) i := fun i => by cases i <;> rfl
      have hnear : ∀ i, |coord (placedAt (pos, arcShape rx a b) (rx * |b - a|)) i - coord pos' i| ≤ D := fun i => by
        rw [e1, ← hk.2]
        exact (CurvePath.arc_end R T h1 h5 i).trans h1'
      have hpt : FloatPoint fl M pos' := by
        intro i
        refine ⟨?_, ?_⟩
        · have g1 := hnear i
          rw [abs_sub_comm] at g1
          have := CurvePath.abs_of_near g1 le_rfl
          linarith [h6 i]
        · rw [← hk.2, CurvePath.coord_vadd, R.idem]
      have hq' : ∀ i, |coord pos' i - coord (segEnd q (.arc rx ry a b rot)) i| ≤ δ i - segs.length * D := by
        intro i
        have g1 := hnear i
        have g2 := shift_one hq (.arc rx ry a b rot) 1 zero_le_one le_rfl i
        rw [point_one, point_one] at g2
        rw [arc_segEnd hr (ry := ry) (rot := rot)] at g1
        have g3 := (less g2).2
        rw [show coord pos' i - coord (segEnd q (.arc rx ry a b rot)) i = -(coord (segEnd pos (.arc rx ry a b rot)) i - coord pos' i) +
          (coord (segEnd pos (.arc rx ry a b rot)) i - coord (segEnd q (.arc rx ry a b rot)) i) by ring]
        refine (abs_add_le _ _).trans ?_
        rw [abs_neg]
        linarith
      obtain ⟨A, g⟩ := ih (h3 pos' hpt hnear) hq'
      exact cons (same_arc hr (lt_of_lt_of_le hd h2)) (all hq) (all hq') rfl rfl (by simp only [endsOf, hk']) g

theorem round_small {fl : ℝ → ℝ} (R : FloatRounding fl) {x z : ℝ} (hx : |x| ≤ 2 ^ 29 * z) (hz : 0 < z) (hK : 1 / 2 ^ 100 ≤ z) :
    |fl x - x| ≤ z / 1000 := by
  refine (R.near x).trans ?_
  have h1 : (2⁻¹ : ℝ) ^ 1075 ≤ 2⁻¹ ^ 200 := pow_le_pow_of_le_one (by norm_num) (by norm_num) (by norm_num)
  have h2 : (2⁻¹ : ℝ) ^ 200 ≤ 1 / 2 ^ 100 / 10000 := by norm_num
  have h3 : (2⁻¹ : ℝ) ^ 53 * |x| ≤ 2⁻¹ ^ 53 * (2 ^ 29 * z) := mul_le_mul_of_nonneg_left hx (by positivity)
  have h4 : (2⁻¹ : ℝ) ^ 53 * (2 ^ 29 * z) ≤ z / 10000 := by
    rw [← mul_assoc, div_eq_mul_inv, mul_comm z]
    exact mul_le_mul_of_nonneg_right (by norm_num) hz.le
  generalize (2⁻¹ : ℝ) ^ 1075 = y at *
  generalize (2⁻¹ : ℝ) ^ 53 * |x| = y' at *
  linarith

/-- The computed place of a machine that is at a point, as computed, is close to it. -/
theorem place_near {fl : ℝ → ℝ} (R : FloatRounding fl) {s x : ℝ} {P : ℤ} (hs : 0 < s) (hs' : s ≤ 2 ^ 60) (hP : |P| ≤ 2 ^ 28)
    (hx : |x| * s ≤ 2 ^ 26) (h : Draw.round (fl (x * s)) = P) : |fl (fl P / s) - x| ≤ (1 / 2 + 1 / 500) / s := by
  have h1 := round_half (fl (x * s))
  rw [h] at h1
  have h2 : |fl (x * s) - x * s| ≤ 1 / 1000 := round_small R (z := 1) (by
    rw [abs_mul, abs_of_pos hs]
    norm_num at hx ⊢
    linarith) one_pos (by norm_num)
  have hP' : |(P : ℝ)| ≤ 2 ^ 28 := by exact_mod_cast hP
  rw [R.int P (hP.trans (by norm_num))]
  have h3 : |fl (P / s) - P / s| ≤ 1 / s / 1000 := round_small R (z := 1 / s) (by
    rw [abs_div, abs_of_pos hs, mul_one_div]
    exact div_le_div_of_nonneg_right (hP'.trans (by norm_num)) hs.le) (by positivity) (by
      refine one_div_le_one_div_of_le hs (hs'.trans (by norm_num)))
  have h4 : |(P : ℝ) / s - x| ≤ (1 / 2 + 1 / 1000) / s := by
    rw [le_div_iff₀ hs, ← abs_of_pos hs, ← abs_mul, abs_of_pos hs, sub_mul, div_mul_cancel₀ _ hs.ne']
    rw [abs_le] at h1 h2 ⊢
    constructor <;> linarith
  have h5 : (1 / 2 + 1 / 500) / s = (1 / 2 + 1 / 1000) / s + 1 / s / 1000 := by ring
  rw [h5]
  rw [abs_le] at h3 h4 ⊢
  constructor <;> linarith

theorem scale_small {e : Rounded.Env} {aMax vMax : Axis → ℤ} {v S M D ε κ : ℝ} {N m : ℕ} (L : CurveLimits e aMax vMax v S M D ε κ N m) (i : Axis) :
    e.stepScale i ≤ 2 ^ 60 := by
  have h1 := L.slow i
  have h2 := L.tiny
  have h3 := L.big
  have h4 := L.bend
  have hs : 0 < e.stepScale i := lt_of_lt_of_le (by norm_num) (L.scale i)
  have hv : 0 < v := lt_of_lt_of_le (by norm_num) h2
  have h5 : 0 ≤ 11 / (20 * (m : ℝ)) := by positivity
  have h6 : 0 ≤ κ * v := by positivity
  have h7 : v * e.stepScale i * (89 / 1000) ≤ 4600 := by
    have : v * e.stepScale i * (89 / 1000) ≤ v * e.stepScale i * (89 / 1000 + 11 / (20 * m) + 5 * (κ * v)) :=
      mul_le_mul_of_nonneg_left (by linarith) (by positivity)
    linarith
  have h8 : 1 / 2 ^ 40 * e.stepScale i ≤ v * e.stepScale i := mul_le_mul_of_nonneg_right h2 hs.le
  norm_num at h8 ⊢
  linarith

/-- One pass. -/
theorem passF_burnt {fl : ℝ → ℝ} (R : FloatRounding fl) (odd : ∀ x, fl (-x) = -fl x) {pw : ℝ → ℝ → ℝ} (hpw : FloatPow pw)
    {sn cs : ℝ → ℝ} (T : FloatTrig sn cs) {aMax vMax : Axis → ℤ} (hM : Machine aMax vMax) {e : Rounded.Env} (hf : Searches e)
    (he : FloatCurves fl pw sn cs e)
    {c : Ctx} (h : Sync aMax vMax c) (hc : ∀ i, |(c.channels i).v| ≤ vMax i) (hp : ∀ i, |(c.channels i).pos| ≤ 2 ^ 28)
    (hw : c.curveWeight ≠ 0) {v S M D ε κ : ℝ} {N m : ℕ} (L : CurveLimits e aMax vMax v S M D ε κ N m)
    (hr : ∀ i, M * e.stepScale i ≤ 2 ^ 26)
    {ρ : Axis → ℝ} (hρ : ∀ i, 387 / 100 * S + 1 / 2 + 3 * (N * (1 / 1000000 + 1 / 10 ^ 12) * e.stepScale i) ≤ ρ i)
    {p0 : Vec} {rest : List Seg} (hN : rest.length < N)
    (hF : FloatFits fl e.stepScale M (m * v) D ε κ (v / 100) ρ p0 rest (fun i => (c.channels i).pos))
    {B : List (ℝ → Vec)} {δ' θ : Axis → ℝ} (hB : List.Forall₂ (Close δ') (linesOf p0 rest) B)
    (hθ : ∀ i, 101 / 200 + δ' i * e.stepScale i ≤ θ i) :
    ∃ c' err, Rounded.drawCurves fl e c (.goTo p0 :: rest) v = some (c', err) ∧ Sync aMax vMax c' ∧ Past c c' ∧
      Burnt e.stepScale c.curveWeight aMax vMax c'.events (c.channels .x).ticks (c'.channels .x).ticks B
        (fun i => 2 * θ i + e.stepScale i / 1000000)
        (fun i => 386 / 100 * S + θ i + (N * (1 / 1000000 + 1 / 10 ^ 12) + N * D) * e.stepScale i)
        (fun i => 386 / 100 * S + θ i + (N * (1 / 1000000 + 1 / 10 ^ 12) + N * D + 13 / 10 * v) * e.stepScale i) ∧
      (∀ w τ, (c'.channels .x).ticks ≤ τ → weightAt w c'.events τ = 0) ∧
      (∀ i, |(c'.channels i).v| ≤ vMax i) ∧
      (∀ i, |((c'.channels i).pos : ℝ)| ≤ 2 * M * e.stepScale i + 4 * S + 2) ∧
      ((∀ i, (c'.channels i).pos = (c.channels i).pos) ∨ AtEnd e.stepScale ρ p0 rest (fun i => (c'.channels i).pos)) := by
  have hs : ∀ i, 0 < e.stepScale i := fun i => lt_of_lt_of_le (by norm_num) (L.scale i)
  have hv : 0 < v := lt_of_lt_of_le (by norm_num) L.tiny
  have hm : 0 < (m : ℝ) * v := mul_pos (by exact_mod_cast (lt_of_lt_of_le zero_lt_two L.two)) hv
  have hM0 : 0 ≤ M := (abs_nonneg _).trans (hF.bounded .x)
  have hD : 0 ≤ D := le_trans (by positivity) L.tol
  obtain ⟨c', err, t', segs', n, l, G, q1, q2, -, q3, q4, q5, q6, -, q7, -, q8, q9, q10, q11⟩ :=
    C97_path fl R odd pw hpw sn cs T aMax vMax hM e hf he c h hc hp v S M D ε κ N m L ρ hρ (.goTo p0 :: rest) (by simp) (by simpa using hN)
      hF.bounded hF.path _ (ticks_of_sync h)
  have et : t' = (c'.channels .x).ticks := by
    rw [ticks_of_sync q9] at q2
    exact (Option.some.inj q2).symm
  subst et
  have hp0 := hF.path
  obtain ⟨hpt, hpath, hpath'⟩ := hp0
  have hND : ∀ i, (rest.length + 1 : ℕ) * D * e.stepScale i ≤ 1 / 1024 := by
    intro i
    refine le_trans ?_ (L.steps i)
    have : ((rest.length + 1 : ℕ) : ℝ) ≤ N := by exact_mod_cast hN
    gcongr
    exact (hs i).le
  have main : (∃ δ : Axis → ℝ, (∀ i, δ i * e.stepScale i ≤ 101 / 200) ∧ ∃ A : List (ℝ → Vec),
      (∀ a ∈ l, ∃ γ ∈ A, Same (shapeOf pictures a) γ) ∧
      (∀ γ ∈ A, (∃ a ∈ l, Same (shapeOf pictures a) γ) ∨ ∃ p q, γ = pointAt p (.closeTo q) ∧ (p - q).length < 1 / 1000000) ∧
      List.Forall₂ (Close δ) A (linesOf p0 rest) ∧
      List.Forall₂ (fun a b => ∀ i, |coord a i - coord b i| ≤ δ i) (endsOf e (floatStart fl e c) segs') (lineEnds p0 rest)) ∧ n ≤ N := by
    cases q3 with
    | move hd =>
      have := (CurvePath.dropped_apart hd (Acc.gentle_apart R T he rest _ _ _ hpath hF.apart)).symm
      subst this
      refine ⟨⟨fun _ => (rest.length + 1 : ℕ) * D, fun i => (hND i).trans (by norm_num), ?_⟩,
        (intended_short q4).trans (by simpa using hN)⟩
      cases q4 with
      | draw h0 => exact absurd h0 (by simp [FloatDraws])
      | move q4 =>
        exact linesF_drawn R T he hm hD q4 hpath (q := p0) (fun i => by
          rw [sub_self, abs_zero]
          push_cast
          linarith)
    | @skip _ _ _ _ _ hb hd =>
      have hb' : ∀ i, Draw.round (fl (coord p0 i * e.stepScale i)) = (c.channels i).pos := by
        rcases hb with hb | ⟨q, hq, -⟩
        · exact hb
        · simp at hq
      have := (CurvePath.dropped_apart hd (Acc.gentle_apart R T he rest _ _ _ (hpath' hb) (hF.apart' hb'))).symm
      subst this
      refine ⟨⟨fun i => (1 / 2 + 1 / 500) / e.stepScale i + (rest.length + 1 : ℕ) * D, fun i => ?_, ?_⟩,
        (intended_short q4).trans (by omega)⟩
      · rw [add_mul, div_mul_cancel₀ _ (hs i).ne']
        linarith [hND i]
      · refine linesF_drawn R T he hm hD q4 (hpath' hb) (q := p0) (fun i => ?_)
        have e1 : coord (floatStart fl e c) i = fl (fl (c.channels i).pos / e.stepScale i) := by cases i <;> rfl
        have e2 := place_near R (hs i) (scale_small L i) (hp i)
          (le_trans (mul_le_mul_of_nonneg_right (hpt i).1 (hs i).le) (hr i)) (hb' i)
        rw [e1]
        push_cast
        linarith
    | draw h => exact absurd rfl (h p0)
  obtain ⟨⟨δ, hδ, A, a1, a2, s1, s2⟩, hnN⟩ := main
  refine ⟨c', err, q1, q9, drawF_past h q1, ?_, q7, q8, q10, ?_⟩
  · have hr : (n : ℝ) * (1 / 1000000 + 1 / 10 ^ 12) + N * D ≤ N * (1 / 1000000 + 1 / 10 ^ 12) + N * D := by
      have : (n : ℝ) ≤ N := by exact_mod_cast hnN
      linarith
    exact burnt_within (fun i => (hs i).le) rfl hw hv hr q5 q6 a1 a2 (close_trans s1 hB) (fun i => by
      rw [add_mul]
      linarith [hδ i, hθ i])
  · rcases q11 with q11 | ⟨q, hq, hn⟩
    · exact .inl q11
    · obtain ⟨q', hq', hc'⟩ := forall2_left s2 q hq
      refine .inr ⟨q', hq', fun i => ?_⟩
      have g1 := mul_le_mul_of_nonneg_right (hc' i) (hs i).le
      rw [← abs_of_pos (hs i), ← abs_mul, abs_of_pos (hs i)] at g1
      have g2 := hδ i
      have g3 := hn i
      have g4 := hρ i
      have g5 := L.one
      rw [abs_le] at g1 g3 ⊢
      constructor <;> nlinarith

/-- The passes one after the other. -/
theorem passesF_burnt {fl : ℝ → ℝ} (R : FloatRounding fl) (odd : ∀ x, fl (-x) = -fl x) {pw : ℝ → ℝ → ℝ} (hpw : FloatPow pw)
    {sn cs : ℝ → ℝ} (T : FloatTrig sn cs) {aMax vMax : Axis → ℤ} (hM : Machine aMax vMax) {e : Rounded.Env} (hf : Searches e)
    (he : FloatCurves fl pw sn cs e)
    {v S M D ε κ : ℝ} {N m : ℕ} (L : CurveLimits e aMax vMax v S M D ε κ N m)
    (hr : ∀ i, M * e.stepScale i ≤ 2 ^ 26)
    {ρ : Axis → ℝ} (hρ : ∀ i, 387 / 100 * S + 1 / 2 + 3 * (N * (1 / 1000000 + 1 / 10 ^ 12) * e.stepScale i) ≤ ρ i)
    {p0 : Vec} {rest : List Seg} (hN : rest.length < N)
    {B : List (ℝ → Vec)} {δ' θ : Axis → ℝ} (hB : List.Forall₂ (Close δ') (linesOf p0 rest) B)
    (hθ : ∀ i, 101 / 200 + δ' i * e.stepScale i ≤ θ i) (n : ℕ) :
    ∀ {c : Ctx}, Sync aMax vMax c → (∀ i, |(c.channels i).v| ≤ vMax i) →
    (∀ i, |((c.channels i).pos : ℝ)| ≤ 2 * M * e.stepScale i + 4 * S + 2) → c.curveWeight ≠ 0 →
    (1 ≤ n → FloatFits fl e.stepScale M (m * v) D ε κ (v / 100) ρ p0 rest (fun i => (c.channels i).pos)) →
    (2 ≤ n → ∀ P, AtEnd e.stepScale ρ p0 rest P → FloatFits fl e.stepScale M (m * v) D ε κ (v / 100) ρ p0 rest P) →
    ∃ (c' : Ctx) (t : ℕ → ℕ), drawTimesF fl e (.goTo p0 :: rest) v n c = some c' ∧ Sync aMax vMax c' ∧ Past c c' ∧
      (∀ i, |(c'.channels i).v| ≤ vMax i) ∧ (∀ i, |((c'.channels i).pos : ℝ)| ≤ 2 * M * e.stepScale i + 4 * S + 2) ∧
      t 0 = (c.channels .x).ticks ∧ t n = (c'.channels .x).ticks ∧ (∀ k < n, t (k + 1) ≤ t n) ∧
      ∀ k < n, Burnt e.stepScale c.curveWeight aMax vMax c'.events (t k) (t (k + 1)) B
        (fun i => 2 * θ i + e.stepScale i / 1000000)
        (fun i => 386 / 100 * S + θ i + (N * (1 / 1000000 + 1 / 10 ^ 12) + N * D) * e.stepScale i)
        (fun i => 386 / 100 * S + θ i + (N * (1 / 1000000 + 1 / 10 ^ 12) + N * D + 13 / 10 * v) * e.stepScale i) := by
  induction n with
  | zero =>
    intro c h1 h2 h3 _ _ _
    exact ⟨c, fun _ => (c.channels .x).ticks, rfl, h1, Past.refl _, h2, h3, rfl, rfl, fun _ h => absurd h (by omega),
      fun _ h => absurd h (by omega)⟩
  | succ n ih =>
    intro c h1 h2 h3 h4 h5 h6
    have hp : ∀ i, |(c.channels i).pos| ≤ 2 ^ 28 := by
      intro i
      have g1 := h3 i
      have g2 := hr i
      have g3 := L.big
      have : |((c.channels i).pos : ℝ)| ≤ 2 ^ 28 := by
        norm_num at g2 ⊢
        linarith
      exact_mod_cast this
    obtain ⟨c1, err, q1, q2, q3, q4, -, q5, q6, q7⟩ := passF_burnt R odd hpw T hM hf he h1 h2 hp h4 L hr hρ hN (h5 (by omega)) hB hθ
    obtain ⟨c2, t, g1, g2, g3, g4, g5, g6, g7, g8, g9⟩ := ih q2 q5 q6 (by rw [q3.cw]; exact h4) (by
      intro hn
      rcases q7 with q7 | q7
      · have : (fun i => (c1.channels i).pos) = fun i => (c.channels i).pos := funext q7
        rw [this]
        exact h5 (by omega)
      · exact h6 (by omega) _ q7) (fun hn => h6 (by omega))
    refine ⟨c2, fun k => if k = 0 then (c.channels .x).ticks else t (k - 1), ?_, g2,
      Past.trans q3 g3 h1.inv.2.1 q2.inv.2.1, g4, g5, by simp, by simpa using g7, fun k hk => ?_, fun k hk => ?_⟩
    · rw [drawTimesF]
      simp only [q1, Option.bind_eq_bind, Option.bind_some, g1]
    · cases k with
      | zero =>
        simp only [Nat.zero_add, one_ne_zero, if_false, Nat.sub_self, Nat.succ_ne_zero, Nat.add_sub_cancel, g6, g7]
        exact g3.ticks
      | succ k => simpa using g8 k (by omega)
    · cases k with
      | zero =>
        simp only [if_true, Nat.zero_add, one_ne_zero, if_false, Nat.sub_self, g6]
        have hx := q2.inv.2.1
        exact burnt_later q4 le_rfl (fun i τ hτ => g3.acc i τ (by cases i; exacts [hτ, by omega]))
          (fun w τ hτ => g3.weight w τ hτ)
      | succ k =>
        have := g9 k (by omega)
        rw [q3.cw] at this
        simpa using this

end StepperPaths.Picture
