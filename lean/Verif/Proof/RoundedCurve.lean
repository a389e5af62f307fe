import Verif.Proof.RoundedRows
import Verif.Proof.BezierShape

/-! Bezier curves with roundings: the table, points, and directions. -/

namespace StepperPaths.Rounded.Acc
open Spec SqrtPoly Coords Curves Context IntegerCurve Props Draw

variable {fl : ℝ → ℝ} {pw : ℝ → ℝ → ℝ} {b : Bezier} {U V M7 κ R r : ℝ} {a : Axis → Fin 3 → ℝ} {k q : ℕ} {b' : Bezier}

/-- A curve whose control points are rounded. -/
structure Control (R : ℝ) (b' b : Bezier) : Prop where
  c1 : ∀ i, App 0 20 (coord b'.c1 i) (coord b.c1 i) R
  c2 : ∀ i, App 2 20 (coord b'.c2 i) (coord b.c2 i) (3 * R)
  p2 : ∀ i, App 1 20 (coord b'.p2 i) (coord b.p2 i) R

theorem control_of (hf : FloatRounding fl) {pos p2 c1 c2 : Vec} (h : BezierRounds (bezierOf pos p2 c1 c2) U V M7 R r a k q) :
    Control R (bezierOfF fl pos p2 c1 c2) (bezierOf pos p2 c1 c2) := by
  have h1 : ∀ i, App 1 20 (coord (bezierOfF fl pos p2 c1 c2).p2 i) (coord (bezierOf pos p2 c1 c2).p2 i) R := by
    intro i
    have := (App.exact (n := 20) (h.p2 i) (.inl h.size)).rnd hf (by norm_num)
    cases i <;> exact this
  refine ⟨fun i => App.exact (h.c1 i) (.inl h.size), fun i => ?_, h1⟩
  have h2 : |coord c2 i| ≤ 2 * R := by
    have a1 := h.c2 i
    have a2 := h.p2 i
    have e : coord c2 i = coord (bezierOf pos p2 c1 c2).c2 i - coord (bezierOf pos p2 c1 c2).p2 i := by
      cases i <;> simp [bezierOf, coord]
    rw [e]
    exact (abs_sub _ _).trans (by linarith)
  have hR := h.size
  have h3 : App 1 20 (coord c2 i) (coord c2 i) (2 * R) :=
    (App.exact (n := 20) h2 (.inl (by linarith [show (0 : ℝ) < 1 / 2 ^ 20 by norm_num]))).mono (by norm_num) le_rfl
  have h4 := ((h1 i).add h3).rnd hf (by norm_num)
  have e : R + 2 * R = 3 * R := by ring
  rw [e] at h4
  cases i <;> exact h4

/-- The bound is replaced by a smaller one. -/
theorem App.shrink {l n : ℕ} {x' x X A : ℝ} (h : App l n x' x X) (hx : |x| ≤ A) (hA : 1 / 2 ^ n ≤ A) (hk : X ≤ k * A) :
    App (l * k) n x' x A := by
  refine ⟨hx, h.err.trans ?_, .inl hA⟩
  have hA0 : 0 ≤ A := (abs_nonneg _).trans hx
  calc g l * X ≤ g l * (k * A) := mul_le_mul_of_nonneg_left hk (g_nonneg _)
    _ = k * g l * A := by ring
    _ ≤ _ := mul_le_mul_of_nonneg_right (g_mul _ _) hA0

/-- The coefficients of the velocity. -/
theorem coeff_app (hf : FloatRounding fl) (h : BezierRounds b U V M7 R r a k q) (hc : Control R b' b) (i : Axis) :
    Apps (6 * k) 20 (derivF fl (coefficientsF fl (coord b'.c1 i) (coord b'.c2 i) (coord b'.p2 i)))
      (derivOf (coefficientsFromControl (coord b.c1 i) (coord b.c2 i) (coord b.p2 i))) [a i 0, a i 1, a i 2] := by
  have hR := h.size
  have hR0 : 0 ≤ R := le_trans (by norm_num) hR
  have three : App 0 0 (3 : ℝ) 3 3 := by exact_mod_cast App.nat 3
  have two : App 0 0 (2 : ℝ) 2 2 := by exact_mod_cast App.nat 2
  have c1 := hc.c1 i
  have c2 := hc.c2 i
  have p2 := hc.p2 i
  have t := h.terms i
  have z := h.tiny i
  have w := h.coeff i
  have a0 := (three.mul c1).rnd hf (by norm_num)
  have a1 := (two.mul (((three.mul ((((two.neg.mul c1).rnd hf (by norm_num)).mono (l := 2) (m := 20) (by norm_num) (by norm_num)).add c2 |>.rnd hf
    (by norm_num))).rnd hf (by norm_num)))).rnd hf (by norm_num)
  have a2 := (three.mul ((((three.mul (((c1.mono (l := 2) (by norm_num) le_rfl).sub c2).rnd hf (by norm_num))).rnd hf (by norm_num)).add
    (p2.mono (by norm_num) (by norm_num))).rnd hf (by norm_num))).rnd hf (by norm_num)
  have w0 := w 0
  have w1 := w 1
  have w2 := w 2
  simp only [velCoeff, Matrix.cons_val_zero, Matrix.cons_val_one, Matrix.cons_val_two, Matrix.cons_val] at w0 w1 w2
  refine .cons ?_ (.cons ?_ (.cons ?_ .nil))
  · refine ((a0.mono (l := 6) (m := 20) (by norm_num) (by norm_num)).shrink w0 (z 0) ?_)
    linarith [t 0]
  · refine ((a1.mono (l := 6) (m := 20) (by norm_num) (by norm_num)).shrink ?_ (z 1) ?_)
    · refine le_trans (le_of_eq ?_) w1
      congr 1; ring
    · linarith [t 1]
  · refine ((a2.mono (l := 6) (m := 20) (by norm_num) (by norm_num)).shrink ?_ (z 2) ?_)
    · refine le_trans (le_of_eq ?_) w2
      congr 1
    · linarith [t 2]

theorem small_of (h : BezierRounds b U V M7 R r a k q) : g ((12 * k + 5 + 35) * q) ≤ 1 / 2 := by
  have h1 : (tableOps k q : ℝ) ≤ 2 ^ 50 := by exact_mod_cast h.few
  have h2 : (tableOps k q : ℝ) = 132 * k * q + 440 * q + 72 * k + 2500 := by simp [tableOps]
  have h3 : (((12 * k + 5 + 35) * q : ℕ) : ℝ) = (12 * k + 5 + 35) * q := by push_cast; ring
  have h4 : (0 : ℝ) ≤ k := Nat.cast_nonneg _
  have h5 : (11 : ℝ) * (((12 * k + 5 + 35) * q : ℕ) : ℝ) ≤ 2 ^ 50 := by
    rw [h3]
    linarith
  refine (g_le (by linarith)).trans ?_
  linarith

/-- The squared speed. -/
theorem square_of (hf : FloatRounding fl) (hp : FloatPow pw) (hb : BezierFits b U M7 κ) (h : BezierRounds b U V M7 R r a k q)
    (hc : Control R b' b) :
    ∃ p' p β, tableF fl pw b' = buildSegmentsF fl pw p' 0 1 9 ∧ b.table = buildSegments p 0 1 9 ∧ 2 ≤ p.length ∧
      (∀ t, polyval p t = (velocity b.c1 b.c2 b.p2 t).x ^ 2 + (velocity b.c1 b.c2 b.p2 t).y ^ 2) ∧
      Square fl pw (12 * k + 5) 40 q U r p' p β := by
  have ax := coeff_app hf h hc .x
  have ay := coeff_app hf h hc .y
  simp only [coord] at ax ay
  simp only [tableF, Bezier.table]
  generalize hx' : derivF fl (coefficientsF fl b'.c1.x b'.c2.x b'.p2.x) = dx' at ax
  generalize hy' : derivF fl (coefficientsF fl b'.c1.y b'.c2.y b'.p2.y) = dy' at ay
  generalize hx : derivOf (coefficientsFromControl b.c1.x b.c2.x b.p2.x) = dx at ax
  generalize hy : derivOf (coefficientsFromControl b.c1.y b.c2.y b.p2.y) = dy at ay
  have lx : dx.length = 3 := by rw [← hx]; rfl
  have ly : dy.length = 3 := by rw [← hy]; rfl
  obtain ⟨xx, exx, vx⟩ := C46_polymul dx dx (by rintro rfl; simp at lx)
  obtain ⟨yy, eyy, vy⟩ := C46_polymul dy dy (by rintro rfl; simp at ly)
  obtain ⟨xx', XX, exx', eXX, axx⟩ := (polymul_app hf (by norm_num) ax ax).some exx
  obtain ⟨yy', YY, eyy', eYY, ayy⟩ := (polymul_app hf (by norm_num) ay ay).some eyy
  have hadd := polyadd_app hf (by norm_num) (axx.mono (l := 12 * k + 4) (m := 40) (by omega) (by norm_num))
    (ayy.mono (l := 12 * k + 4) (m := 40) (by omega) (by norm_num))
  have hlen : (polyadd xx yy).length = 5 := by
    rw [polyadd_length, polymul_length exx, polymul_length eyy, lx, ly, max_self]
  have hval : ∀ t, polyval (polyadd xx yy) t = (velocity b.c1 b.c2 b.p2 t).x ^ 2 + (velocity b.c1 b.c2 b.p2 t).y ^ 2 := by
    intro t
    rw [C46_polyadd, vx, vy, ← hx, ← hy]
    simp only [derivOf, coefficientsFromControl, derivFromCoefficients, polyval, List.foldr_cons, List.foldr_nil, velocity]
    ring
  have hspread : ∀ t, polyval (polyadd XX YY) t = spread a t := by
    intro t
    rw [← toPoly_eval, polyadd_toPoly, Polynomial.eval_add, polymul_toPoly eXX, polymul_toPoly eYY, Polynomial.eval_mul,
      Polynomial.eval_mul, toPoly_eval, toPoly_eval, spread]
    simp only [polyval, List.foldr]
    ring
  have hsq : ∀ t, (velocity b.c1 b.c2 b.p2 t).length ^ 2 = polyval (polyadd xx yy) t := by
    intro t
    rw [hval, Vec.length, Real.sq_sqrt (add_nonneg (mul_self_nonneg _) (mul_self_nonneg _))]; ring
  have hV0 : 8 / 1000000000 ≤ V := by
    have := h.slow
    have hR : 0 ≤ R := le_trans (by norm_num) h.size
    have : 0 ≤ R / 2 ^ 33 := by positivity
    linarith
  refine ⟨polyaddF fl xx' yy', polyadd xx yy, polyadd XX YY, ?_, ?_, by omega, hval, ?_⟩
  · rw [exx', eyy']; exact (Option.bind_some _ _).trans (Option.bind_some _ _)
  · rw [exx, Option.bind_some, eyy, Option.bind_some]
  · refine ⟨hf, hp, hadd, hlen, le_rfl, h.pos, ?_, ?_, ?_, ?_, ?_, small_of h⟩
    · intro t t0 t1
      rw [← hsq]
      have h1 := hV0.trans (h.speed t t0 t1)
      have := mul_self_le_mul_self (by norm_num) h1
      rw [sq]
      refine le_trans ?_ this
      norm_num
    · intro t t0 t1
      rw [← hsq]
      have h1 := (hb.fast t t0 t1).trans h.huge
      have h0 : 0 ≤ (velocity b.c1 b.c2 b.p2 t).length := Real.sqrt_nonneg _
      calc _ ≤ ((2 : ℝ) ^ 30) ^ 2 := by gcongr
        _ = _ := by norm_num
    · intro t t0 t1
      rw [speed_length b hval]
      exact hb.fast t t0 t1
    · intro t t0 t1
      rw [hspread, ← hsq]
      exact h.wide t t0 t1
    · intro t t0 t1
      rw [hspread, hspread, ← hsq]
      exact h.steep t t0 t1

theorem rowError_le (h : BezierRounds b U V M7 R r a k q) (hU : 0 ≤ U) : rowError (12 * k + 5) q U r ≤ tableError k q U r := by
  have hr := h.pos
  have e1 : rowCount (12 * k + 5) q + 2000 ≤ tableOps k q := by
    unfold rowCount seqCount taylorCount evalCount tableOps
    have : 11 * ((12 * k + 5 + 35) * q) = 132 * k * q + 440 * q := by ring
    omega
  have e2 : top U r = U * ∑ n ∈ Finset.range 7, (42 / (125 * r)) ^ n := by
    have h1 : ∀ n : ℕ, (42 / (125 * r)) ^ n = (8 / 5 * (1 / r)) ^ n * (21 / 100) ^ n := by
      intro n
      rw [← mul_pow]
      congr 1
      field_simp
      norm_num
    simp only [top, seqBound, geoList, List.range_succ, List.range_zero, List.map_cons, List.map_nil, List.nil_append,
      List.cons_append, polyval, List.foldr, Finset.sum_range_succ, Finset.sum_range_zero, h1]
    ring
  have h0 : 0 ≤ U * ∑ n ∈ Finset.range 7, (42 / (125 * r)) ^ n := by positivity
  have h2 : (tableOps k q : ℝ) ≤ 2 ^ 52 := by
    have : (tableOps k q : ℝ) ≤ 2 ^ 50 := by exact_mod_cast h.few
    linarith
  unfold rowError tableError
  rw [e2]
  have h3 := (g_mono e1).trans (g_le h2)
  have h4 := mul_le_mul_of_nonneg_right h3 (show 0 ≤ 4 * (U * ∑ n ∈ Finset.range 7, (42 / (125 * r)) ^ n) by positivity)
  refine h4.trans (le_of_eq ?_)
  ring

/-- The computed table. -/
theorem table_rows (hf : FloatRounding fl) (hp : FloatPow pw) (hb : BezierFits b U M7 κ) (h : BezierRounds b U V M7 R r a k q)
    (hc : Control R b' b) :
    ∃ segs δ, tableF fl pw b' = some segs ∧ δ ≤ tableError k q U r + M7 / 10 ^ 7 / 5040 ∧
      ∃ F, FloatRows fl U V δ F segs ∧ ∀ t, F t = bezierArc b t := by
  obtain ⟨p', p, β, e1, e2, hl, hv, hs⟩ := square_of hf hp hb h hc
  obtain ⟨segs, hsegs⟩ := C76_returns b
  rw [e2] at hsegs
  have hsp : speed p = fun u => (velocity b.c1 b.c2 b.p2 u).length := funext (speed_length b hv)
  have hpos : ∀ t ∈ Set.Icc (0 : ℝ) 1, 0 < polyval p t := fun t ht => lt_of_lt_of_le (by positivity) (hs.low t ht.1 ht.2)
  obtain ⟨v, ht⟩ := buildSegments_table (M := M7) hsegs one_pos hpos (by
    rw [hsp]; exact fun t ht => hb.rough t ht.1 ht.2)
  have hM := CurvePath.M7_nonneg hb
  have hU := CurvePath.U_nonneg hb
  have e3 : M7 * (1 / ((9 + 1 : ℕ) : ℝ)) ^ 7 / 5040 = M7 / 10 ^ 7 / 5040 := by norm_num; ring
  rw [e3] at ht
  have hle := rowError_le h hU
  have hR : 0 ≤ R := le_trans (by norm_num) h.size
  have hV : 0 < V := by
    have := h.slow
    have : 0 ≤ R / 2 ^ 33 := by positivity
    linarith
  obtain ⟨segs', e4, hrows⟩ := hs.rows hsegs ht (by positivity) hV (fun t t0 t1 => by rw [speed_length b hv]; exact h.speed t t0 t1)
    (lt_of_le_of_lt (by linarith) h.tame)
  refine ⟨segs', _, by rw [e1, e4], by linarith, arcOf p, hrows, fun t => ?_⟩
  simp only [arcOf, hsp, bezierArc]

/-! ### Points and directions -/

/-- The points of de Casteljau's algorithm, for one coordinate. -/
theorem casteljau_app (hf : FloatRounding fl) {c1' c2' p2' t' c1 c2 p2 t : ℝ} (h1 : App 0 20 c1' c1 R) (h2 : App 2 20 c2' c2 (3 * R))
    (h3 : App 1 20 p2' p2 R) (ht : App 64 0 t' t 1) {p00' p01' p02' p10' p11' p20' p00 p01 p02 p10 p11 p20 : ℝ}
    (e00' : p00' = fl (c1' * t')) (e01' : p01' = fl (c1' + fl (fl (c2' - c1') * t'))) (e02' : p02' = fl (c2' + fl (fl (p2' - c2') * t')))
    (e10' : p10' = fl (p00' + fl (fl (p01' - p00') * t'))) (e11' : p11' = fl (p01' + fl (fl (p02' - p01') * t')))
    (e20' : p20' = fl (p10' + fl (fl (p11' - p10') * t')))
    (e00 : p00 = c1 * t) (e01 : p01 = c1 + (c2 - c1) * t) (e02 : p02 = c2 + (p2 - c2) * t)
    (e10 : p10 = p00 + (p01 - p00) * t) (e11 : p11 = p01 + (p02 - p01) * t) (e20 : p20 = p10 + (p11 - p10) * t) :
    App 203 20 p20' p20 (31 * R) ∧ App 204 20 (fl (p11' - p20')) (p11 - p20) (48 * R) ∧
      App 204 20 (fl (p20' - p10')) (p20 - p10) (48 * R) := by
  have hR : 0 ≤ R := h1.nonneg
  have a00 : App 65 20 p00' p00 R := by
    rw [e00', e00]
    exact ((h1.mul ht).rnd hf (by norm_num)).wide (by linarith)
  have a01 : App 69 20 p01' p01 (5 * R) := by
    rw [e01', e01]
    exact (((h1.mono (l := 68) (by norm_num) le_rfl).add ((((h2.sub (h1.mono (by norm_num) le_rfl)).rnd hf (by norm_num)).mul ht).rnd hf
      (by norm_num))).rnd hf (by norm_num)).wide (by linarith)
  have a02 : App 69 20 p02' p02 (7 * R) := by
    rw [e02', e02]
    exact (((h2.mono (l := 68) (by norm_num) le_rfl).add (((((h3.mono (by norm_num) le_rfl).sub h2).rnd hf (by norm_num)).mul ht).rnd hf
      (by norm_num))).rnd hf (by norm_num)).wide (by linarith)
  have a10 : App 136 20 p10' p10 (7 * R) := by
    rw [e10', e10]
    exact (((a00.mono (l := 135) (by norm_num) le_rfl).add ((((a01.sub (a00.mono (by norm_num) le_rfl)).rnd hf (by norm_num)).mul ht).rnd hf
      (by norm_num))).rnd hf (by norm_num)).wide (by linarith)
  have a11 : App 136 20 p11' p11 (17 * R) := by
    rw [e11', e11]
    exact (((a01.mono (l := 135) (by norm_num) le_rfl).add ((((a02.sub a01).rnd hf (by norm_num)).mul ht).rnd hf
      (by norm_num))).rnd hf (by norm_num)).wide (by linarith)
  have a20 : App 203 20 p20' p20 (31 * R) := by
    rw [e20', e20]
    exact (((a10.mono (l := 202) (by norm_num) le_rfl).add ((((a11.sub a10).rnd hf (by norm_num)).mul ht).rnd hf
      (by norm_num))).rnd hf (by norm_num)).wide (by linarith)
  exact ⟨a20, (((a11.mono (by norm_num) le_rfl).sub a20).rnd hf (by norm_num)).wide (by linarith),
    ((a20.sub (a10.mono (by norm_num) le_rfl)).rnd hf (by norm_num)).wide (by linarith)⟩

/-- The unit vector. -/
theorem unit_near (hf : FloatRounding fl) {d' d : Vec} {η W : ℝ} (hd : ∀ i, |coord d' i - coord d i| ≤ η) (hW : W ≤ d.length)
    (h0 : 0 < W) (hη : 1 / 1000000000 ≤ W - 2 * η) (i : Axis) :
    |coord (vunit fl d') i - coord d.unit i| ≤ 3 * η / W + 14 / 2 ^ 52 := by
  have hη0 : 0 ≤ η := (abs_nonneg _).trans (hd .x)
  have hl := length_near d' d
  have hx := hd .x
  have hy := hd .y
  simp only [coord] at hx hy
  have hl2 : |d'.length - d.length| ≤ 2 * η := by linarith
  obtain ⟨l1, l2⟩ := abs_le.1 hl2
  set L := d.length with hL
  set L' := d'.length with hL'
  have hL0 : 0 < L := by linarith
  have hL1 : 1 / 1000000000 ≤ L' := by linarith
  have hL'0 : 0 < L' := lt_of_lt_of_le (by norm_num) hL1
  have hv := vlength_near hf (d := d') (le_trans (by norm_num) hL1)
  rw [← hL'] at hv
  set ℓ := vlength fl d' with hℓ
  obtain ⟨v1, v2⟩ := abs_le.1 hv
  have hℓ0 : L' * (1 / 2) ≤ ℓ := by linarith
  have hℓ1 : 0 < ℓ := by linarith
  have hc' := le_length d' i
  rw [← hL'] at hc'
  have e1 : coord (vunit fl d') i = fl (coord d' i / ℓ) := by cases i <;> rfl
  have e2 : coord d.unit i = coord d i / L := by cases i <;> rfl
  rw [e1, e2]
  -- the length of the rounded vector
  have s1 : |coord d' i / ℓ - coord d' i / L'| ≤ 12 / 2 ^ 52 := by
    have : coord d' i / ℓ - coord d' i / L' = (coord d' i / L') * ((L' - ℓ) / ℓ) := by field_simp
    rw [this, abs_mul, abs_div, abs_div, abs_of_pos hL'0, abs_of_pos hℓ1, abs_sub_comm L' ℓ]
    have q1 : |coord d' i| / L' ≤ 1 := (div_le_one hL'0).2 hc'
    have q2 : |ℓ - L'| / ℓ ≤ 12 / 2 ^ 52 := by
      rw [div_le_iff₀ hℓ1]
      refine hv.trans ?_
      linarith
    calc _ ≤ 1 * (12 / 2 ^ 52) := mul_le_mul q1 q2 (by positivity) zero_le_one
      _ = _ := one_mul _
  have s2 : |coord d' i / L' - coord d i / L| ≤ 3 * η / L := by
    have : coord d' i / L' - coord d i / L = (coord d' i - coord d i) / L + (coord d' i / L') * ((L - L') / L) := by field_simp; ring
    rw [this]
    refine (abs_add_le _ _).trans ?_
    rw [abs_mul, abs_div, abs_div, abs_div, abs_of_pos hL'0, abs_of_pos hL0, abs_sub_comm L L']
    have q1 : |coord d' i| / L' ≤ 1 := (div_le_one hL'0).2 hc'
    have q2 : |L' - L| / L ≤ 2 * η / L := by gcongr
    have q3 : |coord d' i - coord d i| / L ≤ η / L := by gcongr; exact hd i
    have q4 : |coord d' i| / L' * (|L' - L| / L) ≤ 1 * (2 * η / L) := mul_le_mul q1 q2 (by positivity) zero_le_one
    have : 3 * η / L = η / L + 1 * (2 * η / L) := by ring
    linarith
  have s3 : 3 * η / L ≤ 3 * η / W := by gcongr
  have s4 : |coord d' i / ℓ| ≤ 2 := by
    rw [abs_div, abs_of_pos hℓ1, div_le_iff₀ hℓ1]
    linarith
  have s5 := hf.rel s4 (by norm_num)
  have : fl (coord d' i / ℓ) - coord d i / L = (fl (coord d' i / ℓ) - coord d' i / ℓ) + (coord d' i / ℓ - coord d' i / L') +
      (coord d' i / L' - coord d i / L) := by ring
  rw [this]
  refine (abs_add_le _ _).trans ((add_le_add (abs_add_le _ _) le_rfl).trans ?_)
  have : (2 : ℝ) / 2 ^ 52 + 12 / 2 ^ 52 = 14 / 2 ^ 52 := by norm_num
  linarith

theorem speed_le (h : BezierRounds b U V M7 R r a k q) : V ≤ 6 * R := by
  have h1 := h.speed 0 le_rfl zero_le_one
  have h2 := length_le (velocity b.c1 b.c2 b.p2 0)
  have e : velocity b.c1 b.c2 b.p2 0 = ⟨3 * b.c1.x, 3 * b.c1.y⟩ := by
    ext <;> simp [velocity]
  rw [e] at h2
  simp only [abs_mul] at h2
  rw [← e] at h2
  have hx := h.c1 .x
  have hy := h.c1 .y
  simp only [coord] at hx hy
  rw [abs_of_pos (by norm_num : (0 : ℝ) < 3)] at h2
  linarith

/-- The computed point and direction. -/
theorem value_near (hf : FloatRounding fl) (h : BezierRounds b U V M7 R r a k q) (hc : Control R b' b) {t' t : ℝ} (t0 : 0 ≤ t) (t1 : t ≤ 1)
    (ht : |t' - t| ≤ 64 / 2 ^ 52) (i : Axis) :
    |coord (bezierValueF fl b' t').1 i - coord (bernstein b.c1 b.c2 b.p2 t) i| ≤ 13000 * R / 2 ^ 52 ∧
    |coord (bezierValueF fl b' t').2 i - coord (velocity b.c1 b.c2 b.p2 t).unit i| ≤ R / (V * 2 ^ 32) := by
  have hR := h.size
  have hR0 : 0 ≤ R := le_trans (by norm_num) hR
  have hV : 8 / 1000000000 + R / 2 ^ 33 ≤ V := h.slow
  have hV0 : 0 < V := by
    have : 0 ≤ R / 2 ^ 33 := by positivity
    linarith
  have hV6 := speed_le h
  have at' : App 64 0 t' t 1 := by
    refine ⟨by rwa [abs_of_nonneg t0], ?_, .inl (by norm_num)⟩
    rw [mul_one]
    refine ht.trans ?_
    have := le_g 64
    push_cast at this
    exact this
  have g1 : g 203 ≤ 406 / 2 ^ 52 := (g_le (by norm_num)).trans (by norm_num)
  have g2 : g 204 ≤ 408 / 2 ^ 52 := (g_le (by norm_num)).trans (by norm_num)
  have key : ∀ i, _ := fun i => casteljau_app hf (hc.c1 i) (hc.c2 i) (hc.p2 i) at' rfl rfl rfl rfl rfl rfl rfl rfl rfl rfl rfl rfl
  have ep : ∀ i, |coord (bezierValueF fl b' t').1 i - coord (bernstein b.c1 b.c2 b.p2 t) i| ≤ 13000 * R / 2 ^ 52 := by
    intro i
    have e1 := (key i).1.err
    rw [← C42_point]
    have : g 203 * (31 * R) ≤ 406 / 2 ^ 52 * (31 * R) := mul_le_mul_of_nonneg_right g1 (by linarith)
    have e2 : 406 / 2 ^ 52 * (31 * R) ≤ 13000 * R / 2 ^ 52 := by linarith
    cases i <;> exact e1.trans (this.trans e2)
  refine ⟨ep i, ?_⟩
  -- the two differences
  set η : ℝ := R / 2 ^ 37 with hη
  have hη0 : 0 ≤ η := by positivity
  have gη : g 204 * (48 * R) ≤ η := by
    have : g 204 * (48 * R) ≤ 408 / 2 ^ 52 * (48 * R) := mul_le_mul_of_nonneg_right g2 (by linarith)
    rw [hη]
    linarith
  have hrest : 1 / 1000000000 * (1 + 1 / 10) ≤ V / 7 - 2 * η := by
    rw [hη]
    linarith
  have fin : 3 * η / (V / 7) + 14 / 2 ^ 52 ≤ R / (V * 2 ^ 32) := by
    have f1 : 3 * η / (V / 7) = 21 * η / V := by rw [div_div_eq_mul_div]; ring
    have f2 : R / (V * 2 ^ 32) = (R / 2 ^ 32) / V := by rw [div_div, mul_comm]
    have f3 : (14 : ℝ) / 2 ^ 52 ≤ (84 * R / 2 ^ 52) / V := by
      rw [le_div_iff₀ hV0]
      linarith
    rw [f1, f2]
    calc 21 * η / V + 14 / 2 ^ 52 ≤ 21 * η / V + (84 * R / 2 ^ 52) / V := by linarith
      _ = (21 * η + 84 * R / 2 ^ 52) / V := by rw [add_div]
      _ ≤ _ := by
        gcongr
        rw [hη]
        linarith
  obtain ⟨t2, t3⟩ := abs_le.1 ht
  have small : (64 : ℝ) / 2 ^ 52 ≤ 1 / 1000 := by norm_num
  have hvel := h.speed t t0 t1
  have scaled : ∀ (v : Vec) (s : ℝ), 0 < s → (v * s).length = s * v.length := by
    intro v s hs
    simp only [Vec.length, vec_mul]
    rw [show v.x * s * (v.x * s) + v.y * s * (v.y * s) = s ^ 2 * (v.x * v.x + v.y * v.y) by ring,
      Real.sqrt_mul (by positivity), Real.sqrt_sq hs.le]
  -- a difference that is close to a multiple of the velocity
  have main : ∀ (d' z : Vec) (s : ℝ), 3 / 7 ≤ 3 * s → (∀ i, |coord d' i - coord (velocity b.c1 b.c2 b.p2 t * s) i| ≤ η) →
      |coord (vunit fl (if vlength fl d' < fl (1 / 1000000000) then z else d')) i - coord (velocity b.c1 b.c2 b.p2 t).unit i| ≤ R / (V * 2 ^ 32) := by
    intro d' z s hs hd
    have hs0 : 0 < s := by linarith
    have hW : V / 7 ≤ (velocity b.c1 b.c2 b.p2 t * s).length := by
      rw [scaled _ _ hs0]
      have : s * V ≤ s * (velocity b.c1 b.c2 b.p2 t).length := mul_le_mul_of_nonneg_left hvel hs0.le
      have : 1 / 7 * V ≤ s * V := mul_le_mul_of_nonneg_right (by linarith) hV0.le
      linarith
    have hx := hd .x
    have hy := hd .y
    simp only [coord] at hx hy
    have hl := abs_le.1 (length_near d' (velocity b.c1 b.c2 b.p2 t * s))
    have hd0 : 1 / 1000000000 * (1 + 1 / 10) ≤ d'.length := by linarith [hl.1]
    have hv := abs_le.1 (vlength_near hf (d := d') (le_trans (by norm_num) hd0))
    have hc := abs_le.1 (hf.rel (x := 1 / 1000000000) (M := 1 / 1000000000) (by rw [abs_of_pos (by norm_num)]) (by norm_num))
    rw [if_neg (by
      rw [not_lt]
      have : 6 * d'.length / 2 ^ 52 ≤ d'.length / 1000 := by
        have : 0 ≤ d'.length := Real.sqrt_nonneg _
        linarith
      linarith [hv.1, hc.2])]
    have := unit_near hf hd hW (by positivity) (by linarith) i
    rw [unit_scale _ hs0] at this
    exact this.trans fin
  have e11 : ∀ i, coord (velocity b.c1 b.c2 b.p2 t * ((1 - t) / 3)) i = coord
      ((b.c1 + (b.c2 - b.c1) * t + (b.c2 + (b.p2 - b.c2) * t - (b.c1 + (b.c2 - b.c1) * t)) * t) - (b.bezierValue t).1) i := by
    intro i
    cases i <;> simp only [coord, velocity, Bezier.bezierValue, vec_add, vec_sub, vec_mul] <;> ring
  have e10 : ∀ i, coord (velocity b.c1 b.c2 b.p2 t * (t / 3)) i = coord
      ((b.bezierValue t).1 - (b.c1 * t + (b.c1 + (b.c2 - b.c1) * t - b.c1 * t) * t)) i := by
    intro i
    cases i <;> simp only [coord, velocity, Bezier.bezierValue, vec_add, vec_sub, vec_mul] <;> ring
  unfold bezierValueF
  by_cases c : t' < 1 / 2
  · simp only [if_pos c]
    refine main _ _ ((1 - t) / 3) (by linarith) fun i => ?_
    rw [e11]
    refine le_trans (le_of_eq ?_) ((key i).2.1.err.trans gη)
    cases i <;> rfl
  · simp only [if_neg c]
    refine main _ _ (t / 3) (by linarith) fun i => ?_
    rw [e10]
    refine le_trans (le_of_eq ?_) ((key i).2.2.err.trans gη)
    cases i <;> rfl

theorem value_zero (hf : FloatRounding fl) (b : Bezier) : (bezierValueF fl b 0).1 = ⟨0, 0⟩ := by
  simp [bezierValueF, vadd, vmul, vsub, fl_zero hf]

end StepperPaths.Rounded.Acc
