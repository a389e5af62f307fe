import Verif.Proof.Program
import Mathlib.Analysis.Calculus.Deriv.MeanValue
import Mathlib.Analysis.SpecialFunctions.Trigonometric.Bounds

/-! How closely curves are followed (C88). -/

namespace StepperPaths.Props
open StepperPaths Coords Curves Context IntegerCurve Draw Spec

/-! ### `approx_curve` -/

/-- C88: `approx_curve` follows a curve closely, when from tick to tick the wanted speed changes by at
most `S/4`, the wanted position moves with the wanted speed up to `S/2`, and the axis starts with
similar errors: the position is always within `3.82·S` steps of the wanted one, and the acceleration
is at most `3.01·S`, without a growing part as in C32. -/
theorem C88_follow (aMax vMax : Axis → ℤ) (e : Env) (c c' : Ctx) (start : Vec) (curve : Curve) (v S : ℝ)
    (err : Axis → ℤ) (i : Axis) (h : Reach aMax vMax c) (hS : 1 ≤ S) (hS2 : S ≤ 10000)
    (ha : 301 / 100 * S ≤ aMax i)
    (hV : ∀ k < approxSteps curve v, |wantVel e curve v i (k + 1)| + 214 / 100 * S ≤ vMax i)
    (hP : ∀ k, 1 ≤ k → k < approxSteps curve v →
      |wantPos e start curve v i (k + 1) - wantPos e start curve v i k - 2 * wantVel e curve v i k| ≤ S / 2)
    (hW : ∀ k, 1 ≤ k → k < approxSteps curve v → |wantVel e curve v i (k + 1) - wantVel e curve v i k| ≤ S / 4)
    (hp0 : 0 < approxSteps curve v →
      |wantPos e start curve v i 1 - ((c.channels i).pos : ℝ) - 2 * ((c.channels i).v : ℝ)| ≤ 3 * S)
    (hv0 : 0 < approxSteps curve v → |wantVel e curve v i 1 - ((c.channels i).v : ℝ)| ≤ 3 / 4 * S)
    (hr : approxCurve e c start curve v = some (c', err)) :
    FollowsWithin e start curve v i c'.events (c.channels i).ticks S :=
  Tracking.approxCurve_follows h hS hS2 ha hV hP hW hp0 hv0 hr

/-! ### `draw_curves` -/

/-- When all strokes are gentle. -/
theorem gentle_timeline {e : Env} {v : ℝ} {w : ℤ} {aMax vMax : Axis → ℤ} {es : List Event} {err : Axis → ℤ}
    {t t' : ℕ} {ss : List (Vec × Concat)} {i : Axis} {S : ℝ} (hS : 0 ≤ S)
    (htl : Timeline e v w aMax vMax es err t ss t')
    (hw : err i = 0 ∨ Worst e v w aMax vMax es err t ss t' i)
    (mem : ∀ st ∈ ss, Gentle e st.1 (e.concatInfo st.2) v i (aMax i) (vMax i) S) :
    (err i : ℝ) ≤ 382 / 100 * S + 1 ∧ ∀ τ, t ≤ τ → τ < t' → |accAt i es τ| ≤ aMax i := by
  constructor
  · rcases hw with h0 | ⟨t1, a, b, st, k, -, -, hm, hstr, hk, hk'⟩
    · rw [h0]
      push_cast
      linarith
    · have h1 := (hstr.gentle i S (mem st hm) k hk).1
      have h2 := Tracking.trunc_near (wantPos e st.1 (e.concatInfo st.2) v i (k + 1))
      rw [← hk']
      push_cast
      rw [abs_sub_comm] at h2
      have h3 := abs_add_le ((posAt i es (a + (k + 1)) : ℝ) - wantPos e st.1 (e.concatInfo st.2) v i (k + 1))
        (wantPos e st.1 (e.concatInfo st.2) v i (k + 1) - trunc (wantPos e st.1 (e.concatInfo st.2) v i (k + 1)))
      rw [sub_add_sub_cancel] at h3
      linarith
  · clear hw
    induction htl with
    | nil t =>
      intro τ h1 h2
      omega
    | @cons t a b T st ss hstr _ ih =>
      intro τ h1 h2
      by_cases h3 : τ < a
      · exact hstr.acc i τ h1 h3
      · by_cases h4 : τ < b
        · have hlen := hstr.len
          have := (hstr.gentle i S (mem st (by simp)) (τ - a) (by omega)).2.2
          rw [show a + (τ - a) = τ by omega] at this
          have h5 := this.trans (mem st (by simp)).acc
          exact_mod_cast h5
        · exact ih (fun st hst => mem st (by simp [hst])) τ (by omega) h2

/-- C88: when all strokes are gentle for an axis, the reported error is at most `3.82·S + 1`, and the
axis keeps its acceleration limit at every tick of the drawing. -/
theorem C88_drawing (aMax vMax : Axis → ℤ) (e : Env) (c c' : Ctx) (h : Sync aMax vMax c) (hb : LengthOK e)
    (ha : ∀ i, 1 ≤ aMax i) (hv : ∀ i, 1 ≤ vMax i ∧ vMax i ≤ 2 ^ 59)
    (hc : ∀ i, |(c.channels i).v| ≤ vMax i) (segs : List Seg) (hne : segs ≠ []) (v : ℝ)
    (hsp : ∀ i, |v * e.vScale i| + 1 / 2 ≤ vMax i) (err : Axis → ℤ)
    (hr : drawCurves e c segs v = some (c', err)) (t t' : ℕ) (ht : c.ticks = some t)
    (ht' : c'.ticks = some t')
    (hp : ∀ i, |(c.channels i).pos| + 2 * vMax i * (t' - t : ℤ) ≤ 2 ^ 61)
    (hst : ∀ s, drawPen e c segs v = some s → ∀ st ∈ s.drawn, st.2 ≠ [] →
      ∀ i, |coord st.1 i * e.stepScale i| ≤ 2 ^ 60) (i : Axis) (S : ℝ) (hS : 0 ≤ S)
    (hg : ∀ s, drawPen e c segs v = some s → ∀ st ∈ s.drawn, st.2 ≠ [] →
      Gentle e st.1 (e.concatInfo st.2) v i (aMax i) (vMax i) S) :
    (err i : ℝ) ≤ 382 / 100 * S + 1 ∧ ∀ τ, t ≤ τ → τ < t' → |accAt i c'.events τ| ≤ aMax i := by
  obtain ⟨s, hs, htl, hw, -⟩ := C67_timeline aMax vMax e c c' h hb ha hv hc segs hne v hsp err hr t t' ht ht' hp hst
  refine gentle_timeline hS htl (hw i) (fun st h1 => ?_)
  obtain ⟨h1, h2⟩ := List.mem_filter.1 h1
  exact hg s hs st h1 (by simpa using h2)

/-! ### Which curves are gentle -/

theorem round_pos_steps {curve : Curve} {v : ℝ} {k : ℕ} (hk : k < approxSteps curve v) :
    (k : ℤ) < Draw.round (curve.length / v) := by
  unfold approxSteps satI32 at hk
  split at hk
  · next h => simp at hk; omega
  · split at hk
    · simp at hk
    · omega

theorem coord_le_length (d : Vec) (i : Axis) : |coord d i| ≤ d.length := by
  have h := length_sq d
  have h0 : 0 ≤ d.length := Real.sqrt_nonneg _
  apply abs_le_of_sq_le_sq _ h0
  rw [h]
  cases i
  · simp only [coord]; nlinarith [mul_self_nonneg d.y]
  · simp only [coord]; nlinarith [mul_self_nonneg d.x]

/-- C88: a curve that bends slowly, drawn at a moderate speed, is gentle.  `ℓ` is a bound for the
length of a step, which is not more than `v·(1 + 1/(2n))` for `n` steps. -/
theorem C88_bends (e : Env) (start : Vec) (curve : Curve) (v κ δ m ℓ S : ℝ) (i : Axis) (aMax vMax : ℤ)
    (hb : Bends curve κ δ m) (hκ : 0 ≤ κ) (hδ : 0 ≤ δ) (hv : 0 < v) (hℓ : v + v / (2 * approxSteps curve v) ≤ ℓ)
    (hm : ℓ ≤ m) (h1 : 1 ≤ S) (h2 : S ≤ 10000) (ha : 301 / 100 * S ≤ aMax)
    (hV : v * |e.vScale i| + 214 / 100 * S ≤ vMax)
    (hP : |e.stepScale i| * (κ * ℓ ^ 2 / 2 + δ * ℓ + v / (2 * approxSteps curve v)) ≤ S / 2)
    (hW : |e.vScale i| * v * (κ * ℓ + δ) ≤ S / 4) :
    Gentle e start curve v i aMax vMax S := by
  set n := approxSteps curve v with hn
  set N := Draw.round (curve.length / v) with hN
  set len := curve.length / N with hlen
  -- the length of a step
  have step : ∀ k < n, 0 ≤ len ∧ |len - v| ≤ v / (2 * n) ∧ ((k : ℝ) + 1) * len ≤ curve.length := by
    intro k hk
    have hkN : (k : ℤ) < N := round_pos_steps hk
    have hnN : (n : ℤ) ≤ N := by
      have := round_pos_steps (k := n - 1) (curve := curve) (v := v) (by omega)
      omega
    have hN0 : (0 : ℝ) < N := by
      have : (0 : ℤ) < N := by omega
      exact_mod_cast this
    have hn0 : (0 : ℝ) < n := by
      have : 0 < n := by omega
      exact_mod_cast this
    have hnr : (n : ℝ) ≤ N := by exact_mod_cast hnN
    have hkr : (k : ℝ) + 1 ≤ N := by
      have : (k : ℤ) + 1 ≤ N := hkN
      exact_mod_cast this
    have hr := round_near (curve.length / v)
    rw [← hN] at hr
    have e1 : len - v = -((N : ℝ) - curve.length / v) * (v / N) := by
      rw [hlen]
      field_simp
      ring
    have hL : 0 ≤ curve.length := by
      by_contra hc
      rw [abs_le] at hr
      have : curve.length / v < 0 := div_neg_of_neg_of_pos (by linarith) hv
      have : (1 : ℝ) ≤ N := by exact_mod_cast (by omega : (1 : ℤ) ≤ N)
      linarith [hr.2]
    have hl0 : 0 ≤ len := div_nonneg hL hN0.le
    refine ⟨hl0, ?_, ?_⟩
    · rw [e1, abs_mul, abs_neg, abs_of_pos (div_pos hv hN0)]
      calc |(N : ℝ) - curve.length / v| * (v / N) ≤ 1 / 2 * (v / n) :=
            mul_le_mul hr (div_le_div_of_nonneg_left hv.le hn0 hnr) (div_pos hv hN0).le (by norm_num)
        _ = v / (2 * n) := by field_simp
    · calc ((k : ℝ) + 1) * len ≤ N * len := mul_le_mul_of_nonneg_right hkr hl0
        _ = curve.length := by rw [hlen]; field_simp
  have hvs : e.stepScale i = 2 * e.vScale i := by unfold Env.vScale; ring
  refine ⟨h1, h2, ha, ?_, fun k hk => ?_, fun k hk => ?_, fun k hk => ?_⟩
  · rw [hb.start]
    cases i <;> rfl
  · obtain ⟨q1, q2, q3⟩ := step k hk
    have hle : len ≤ ℓ := by rw [abs_le] at q2; linarith [q2.2]
    have hk0 : (0 : ℝ) ≤ k * len := by positivity
    have hpos := hb.pos (k * len) (((k : ℝ) + 1) * len) hk0 (by linarith) q3 (by linarith) i
    have hu := (coord_le_length _ i).trans (hb.unit (k * len) hk0 (by linarith))
    have e1 : ((k : ℝ) + 1) * len - k * len = len := by ring
    rw [e1] at hpos
    have e2 : wantPos e start curve v i (k + 1) - wantPos e start curve v i k - 2 * wantVel e curve v i k =
        e.stepScale i * ((coord (curve.value (((k : ℝ) + 1) * len)).1 i - coord (curve.value (k * len)).1 i -
          len * coord (curve.value (k * len)).2 i) + (len - v) * coord (curve.value (k * len)).2 i) := by
      unfold wantPos wantVel
      rw [← hN, ← hlen, hvs]
      push_cast
      ring
    rw [e2, abs_mul]
    refine le_trans (mul_le_mul_of_nonneg_left ?_ (abs_nonneg _)) hP
    refine (abs_add_le _ _).trans ?_
    have b1 : |(len - v) * coord (curve.value (k * len)).2 i| ≤ v / (2 * n) := by
      rw [abs_mul]
      calc _ ≤ |len - v| * 1 := mul_le_mul_of_nonneg_left hu (abs_nonneg _)
        _ ≤ _ := by linarith
    have b2 : κ * len ^ 2 / 2 ≤ κ * ℓ ^ 2 / 2 := by gcongr
    have b3 : δ * len ≤ δ * ℓ := by gcongr
    linarith
  · obtain ⟨q1, q2, q3⟩ := step k hk
    have hle : len ≤ ℓ := by rw [abs_le] at q2; linarith [q2.2]
    have hk0 : (0 : ℝ) ≤ k * len := by positivity
    have hdir := hb.dir (k * len) (((k : ℝ) + 1) * len) hk0 (by linarith) q3 (by linarith) i
    have e1 : ((k : ℝ) + 1) * len - k * len = len := by ring
    rw [e1] at hdir
    have e2 : wantVel e curve v i (k + 1) - wantVel e curve v i k =
        e.vScale i * v * (coord (curve.value (((k : ℝ) + 1) * len)).2 i - coord (curve.value (k * len)).2 i) := by
      unfold wantVel
      rw [← hN, ← hlen]
      push_cast
      ring
    rw [e2, abs_mul, abs_mul, abs_of_pos hv]
    refine le_trans (mul_le_mul_of_nonneg_left ?_ (by positivity)) hW
    have b3 : κ * len ≤ κ * ℓ := by gcongr
    linarith
  · obtain ⟨q1, q2, q3⟩ := step k hk
    have hu := (coord_le_length _ i).trans (hb.unit (((k : ℝ) + 1) * len) (by positivity) q3)
    have : |wantVel e curve v i (k + 1)| ≤ v * |e.vScale i| := by
      unfold wantVel
      rw [← hN, ← hlen]
      push_cast
      rw [mul_assoc, abs_mul, abs_mul, abs_of_pos hv]
      exact mul_le_of_le_one_left (by positivity) hu
    linarith

/-- A function whose derivative changes by at most `κ` per unit stays near its tangent. -/
theorem near_tangent {x d : ℝ → ℝ} {κ : ℝ} (hd : ∀ s, HasDerivAt x (d s) s)
    (hk : ∀ p q, p ≤ q → |d q - d p| ≤ κ * (q - p)) {p q : ℝ} (hpq : p ≤ q) :
    |x q - x p - (q - p) * d p| ≤ κ * (q - p) ^ 2 / 2 := by
  have key : ∀ (y f : ℝ → ℝ), (∀ s, HasDerivAt y (f s) s) → (∀ q, p ≤ q → f q - f p ≤ κ * (q - p)) →
      y q - y p - (q - p) * f p ≤ κ * (q - p) ^ 2 / 2 := by
    intro y f hy hf
    have hg : ∀ s, HasDerivAt (fun s => κ * (s - p) ^ 2 / 2 - (y s - y p - (s - p) * f p))
        (κ * (s - p) - (f s - f p)) s := by
      intro s
      have h1 : HasDerivAt (fun s => s - p) 1 s := by simpa using (hasDerivAt_id s).sub_const p
      have h2 := ((h1.pow 2).const_mul κ).div_const 2
      have h3 := ((hy s).sub_const (y p)).sub (h1.mul_const (f p))
      have e1 : κ * (s - p) - (f s - f p) = κ * (((2 : ℕ) : ℝ) * (s - p) ^ (2 - 1) * 1) / 2 - (f s - 1 * f p) := by
        push_cast
        ring
      rw [e1]
      exact h2.sub h3
    have hm := monotoneOn_of_deriv_nonneg (convex_Icc p q)
      (f := fun s => κ * (s - p) ^ 2 / 2 - (y s - y p - (s - p) * f p))
      (fun s _ => (hg s).continuousAt.continuousWithinAt)
      (fun s _ => (hg s).differentiableAt.differentiableWithinAt)
      (fun s hs => by
        rw [interior_Icc] at hs
        rw [(hg s).deriv]
        have := hf s hs.1.le
        linarith)
    have := hm (Set.left_mem_Icc.2 hpq) (Set.right_mem_Icc.2 hpq) hpq
    simp only [sub_self, ne_eq, OfNat.ofNat_ne_zero, not_false_eq_true, zero_pow, mul_zero, zero_div, zero_mul] at this
    linarith
  rw [abs_le]
  constructor
  · have := key (fun s => -x s) (fun s => -d s) (fun s => (hd s).neg)
      (fun q hq => by have := (abs_le.1 (hk p q hq)).1; linarith)
    linarith
  · exact key x d hd (fun q hq => (abs_le.1 (hk p q hq)).2)

/-- A curve with the contract of C43, whose direction changes by at most `κ` per unit of length. -/
theorem bends_of_contract {curve : Curve} {κ m : ℝ} (h : Contract curve)
    (hk : ∀ i p q, p ≤ q → |coord (curve.value q).2 i - coord (curve.value p).2 i| ≤ κ * (q - p)) :
    Bends curve κ 0 m := by
  refine ⟨h.start, fun s _ _ => (h.unit s).le, fun p q _ hpq _ _ i => ?_, fun p q _ hpq _ _ i => ?_⟩
  · rw [add_zero]
    exact hk i p q hpq
  · rw [zero_mul, add_zero]
    cases i
    · exact near_tangent h.derivX (hk .x) hpq
    · exact near_tangent h.derivY (hk .y) hpq

/-- C88: a line does not bend. -/
theorem C88_line (p : Vec) (m : ℝ) : Bends (Line.new p).info 0 0 m :=
  bends_of_contract (C43_line p).1 (fun i p q _ => by simp [Line.info, Line.value])

/-- C88: an arc bends by the inverse of its radius. -/
theorem C88_arc (r a b m : ℝ) (hr : 0 < r) : Bends (Circle.new r a b).info (1 / r) 0 m := by
  refine bends_of_contract (C43_circle r a b hr).1 (fun i p q hpq => ?_)
  have hs : |(Circle.new r a b).angleScale| = 1 / r := by
    simp only [Circle.new]
    split
    · exact abs_of_pos (by positivity)
    · rw [neg_div, abs_neg]
      exact abs_of_pos (by positivity)
  have e1 : |(q * (Circle.new r a b).angleScale + (Circle.new r a b).startAngle) -
      (p * (Circle.new r a b).angleScale + (Circle.new r a b).startAngle)| = 1 / r * (q - p) := by
    rw [add_sub_add_right_eq_sub, ← sub_mul, abs_mul, hs, abs_of_nonneg (by linarith), mul_comm]
  rw [← e1]
  simp only [Circle.info, Circle.value]
  split <;> cases i <;> simp only [coord]
  · rw [neg_sub_neg, abs_sub_comm]; exact Real.abs_sin_sub_sin_le _ _
  · exact Real.abs_cos_sub_cos_le _ _
  · exact Real.abs_sin_sub_sin_le _ _
  · rw [neg_sub_neg, abs_sub_comm]; exact Real.abs_cos_sub_cos_le _ _

/-! ### Joined curves -/

/-- The part of a joined curve for a length. -/
theorem part_of {cs : List Curve} (hne : cs ≠ []) {pos : ℝ} (h1 : pos ≤ lenBefore cs cs.length) :
    ∃ k, k < cs.length ∧ (k = 0 ∨ lenBefore cs k < pos) ∧ pos ≤ lenBefore cs (k + 1) := by
  classical
  have hpos : 0 < cs.length := List.length_pos_iff.2 hne
  have ex : ∃ k, pos ≤ lenBefore cs (k + 1) := ⟨cs.length - 1, by rwa [Nat.sub_add_cancel hpos]⟩
  refine ⟨Nat.find ex, ?_, ?_, Nat.find_spec ex⟩
  · have := Nat.find_min' ex (m := cs.length - 1) (by rwa [Nat.sub_add_cancel hpos])
    omega
  · rcases Nat.eq_zero_or_pos (Nat.find ex) with h | h
    · exact .inl h
    · have := Nat.find_min ex (m := Nat.find ex - 1) (by omega)
      rw [Nat.sub_add_cancel h] at this
      exact .inr (not_le.1 this)

theorem endX_succ (cs : List Curve) (k : ℕ) (h : k < cs.length) :
    endX cs (k + 1) = endX cs k + (cs[k].value cs[k].length).1.x := by
  unfold endX
  rw [List.take_add_one, List.getElem?_eq_getElem h, Option.toList_some, List.map_append, List.sum_append]
  simp

theorem endY_succ (cs : List Curve) (k : ℕ) (h : k < cs.length) :
    endY cs (k + 1) = endY cs k + (cs[k].value cs[k].length).1.y := by
  unfold endY
  rw [List.take_add_one, List.getElem?_eq_getElem h, Option.toList_some, List.map_append, List.sum_append]
  simp

theorem coord_add (a b : Vec) (i : Axis) : coord (a + b) i = coord a i + coord b i := by
  cases i <;> rfl

/-- C88: curves that bend by at most `κ`, joined with kinks of at most `δ`, when the curves between
the first and the last one have at least the length `m`. -/
theorem C88_joined (e : Env) (cs : List Curve) (κ δ m : ℝ) (hne : cs ≠ []) (hδ : 0 ≤ δ) (hm0 : 0 ≤ m)
    (hp : ∀ c ∈ cs, 0 < c.length) (hm : ∀ k (hk : k + 1 < cs.length), 0 < k → m ≤ cs[k].length)
    (hb : ∀ c ∈ cs, Bends c κ 0 m)
    (hj : ∀ k (hk : k + 1 < cs.length), ∀ i,
      |coord (cs[k + 1].value 0).2 i - coord (cs[k].value cs[k].length).2 i| ≤ δ)
    (hf : ∀ pos, FoundAt (glue cs) pos (e.find (glue cs) pos)) :
    Bends (e.concatInfo (glue cs)) κ δ m := by
  have htot : (e.concatInfo (glue cs)).length = lenBefore cs cs.length := by
    have := C45_length cs
    simp only [Env.concatInfo]
    rw [this]
    simp [lenBefore]
  have val : ∀ k (hk : k < cs.length) pos, (k = 0 ∨ lenBefore cs k < pos) → pos ≤ lenBefore cs (k + 1) →
      (e.concatInfo (glue cs)).value pos = (((cs[k].value (pos - lenBefore cs k)).1 + (⟨endX cs k, endY cs k⟩ : Vec)),
        (cs[k].value (pos - lenBefore cs k)).2) := by
    intro k hk pos h1 h2
    have := C45_value cs hp pos k hk h1 (.inr h2) _ (hf pos)
    simp only [Env.concatInfo]
    rw [this]
    rfl
  have hpos : 0 < cs.length := List.length_pos_iff.2 hne
  have l0 : lenBefore cs 0 = 0 := by simp [lenBefore]
  have mono := fun {j k : ℕ} (hjk : j ≤ k) => lenBefore_mono cs (fun c hc => (hp c hc).le) hjk
  -- the two cases
  have two : ∀ p q, 0 ≤ p → p ≤ q → q ≤ lenBefore cs cs.length → q ≤ p + m →
      ∃ a, a < cs.length ∧ (a = 0 ∨ lenBefore cs a < p) ∧ lenBefore cs a ≤ p ∧ p ≤ lenBefore cs (a + 1) ∧
        (q ≤ lenBefore cs (a + 1) ∨
          a + 1 < cs.length ∧ lenBefore cs (a + 1) < q ∧ q ≤ lenBefore cs (a + 2)) := by
    intro p q h0 hpq hq hqm
    obtain ⟨a, ha, a1, a2⟩ := part_of hne (hpq.trans hq)
    refine ⟨a, ha, a1, ?_, a2, ?_⟩
    · rcases a1 with rfl | a1
      · rw [l0]; exact h0
      · exact a1.le
    · by_cases h1 : q ≤ lenBefore cs (a + 1)
      · exact .inl h1
      · right
        have ha1 : a + 1 < cs.length := by
          by_contra hc
          rw [show a + 1 = cs.length by omega] at h1
          exact h1 hq
        refine ⟨ha1, not_le.1 h1, ?_⟩
        by_cases ha2 : a + 2 < cs.length
        · have := hm (a + 1) ha2 (by omega)
          rw [lenBefore_succ cs (a + 1) ha1]
          linarith
        · rw [show a + 2 = cs.length by omega]
          exact hq
  refine ⟨?_, fun s h0 h1 => ?_, fun p q h0 hpq hq hqm i => ?_, fun p q h0 hpq hq hqm i => ?_⟩
  · rw [val 0 hpos 0 (.inl rfl) (by rw [← l0]; exact mono (by omega)), l0, sub_zero,
      (hb _ (List.getElem_mem hpos)).start]
    ext <;> simp [endX, endY]
  · rw [htot] at h1
    obtain ⟨a, ha, a1, a2, a3, -⟩ := two s s h0 le_rfl h1 (by linarith)
    rw [val a ha s a1 a3]
    have := lenBefore_succ cs a ha
    exact (hb _ (List.getElem_mem ha)).unit _ (by linarith) (by linarith)
  · rw [htot] at hq
    obtain ⟨a, ha, a1, a2, a3, hcase⟩ := two p q h0 hpq hq hqm
    have sa := lenBefore_succ cs a ha
    have ba := hb _ (List.getElem_mem ha)
    rw [val a ha p a1 a3]
    rcases hcase with h4 | ⟨hb1, h5, h6⟩
    · rw [val a ha q (a1.imp id (fun h => by linarith)) h4]
      have := ba.dir (p - lenBefore cs a) (q - lenBefore cs a) (by linarith) (by linarith) (by linarith)
        (by linarith) i
      simp only [sub_sub_sub_cancel_right, add_zero] at this ⊢
      linarith
    · have sb := lenBefore_succ cs (a + 1) hb1
      have bb := hb _ (List.getElem_mem hb1)
      rw [val (a + 1) hb1 q (.inr h5) h6]
      have d1 := ba.dir (p - lenBefore cs a) cs[a].length (by linarith) (by linarith) le_rfl (by linarith) i
      have d2 := hj a hb1 i
      have d3 := bb.dir 0 (q - lenBefore cs (a + 1)) le_rfl (by linarith) (by linarith) (by linarith) i
      have hx : cs[a].length - (p - lenBefore cs a) = lenBefore cs (a + 1) - p := by rw [sa]; ring
      rw [hx] at d1
      simp only
      rw [abs_le] at *
      constructor <;> linarith [d1.1, d1.2, d2.1, d2.2, d3.1, d3.2]
  · rw [htot] at hq
    obtain ⟨a, ha, a1, a2, a3, hcase⟩ := two p q h0 hpq hq hqm
    have sa := lenBefore_succ cs a ha
    have ba := hb _ (List.getElem_mem ha)
    rw [val a ha p a1 a3]
    rcases hcase with h4 | ⟨hb1, h5, h6⟩
    · rw [val a ha q (a1.imp id (fun h => by linarith)) h4]
      have := ba.pos (p - lenBefore cs a) (q - lenBefore cs a) (by linarith) (by linarith) (by linarith)
        (by linarith) i
      simp only [sub_sub_sub_cancel_right, zero_mul, add_zero, coord_add, add_sub_add_right_eq_sub] at this ⊢
      have : 0 ≤ δ * (q - p) := mul_nonneg hδ (by linarith)
      linarith
    · have sb := lenBefore_succ cs (a + 1) hb1
      have bb := hb _ (List.getElem_mem hb1)
      rw [val (a + 1) hb1 q (.inr h5) h6]
      have d1 := ba.dir (p - lenBefore cs a) cs[a].length (by linarith) (by linarith) le_rfl (by linarith) i
      have d2 := hj a hb1 i
      have x1 := ba.pos (p - lenBefore cs a) cs[a].length (by linarith) (by linarith) le_rfl (by linarith) i
      have x3 := bb.pos 0 (q - lenBefore cs (a + 1)) le_rfl (by linarith) (by linarith) (by linarith) i
      have hend : coord (⟨endX cs (a + 1), endY cs (a + 1)⟩ : Vec) i =
          coord (⟨endX cs a, endY cs a⟩ : Vec) i + coord (cs[a].value cs[a].length).1 i := by
        cases i
        · exact endX_succ cs a ha
        · exact endY_succ cs a ha
      have hz : coord (cs[a + 1].value 0).1 i = 0 := by
        rw [bb.start]
        cases i <;> rfl
      simp only [coord_add, hend]
      generalize hL : q - lenBefore cs (a + 1) = y at *
      have hx : cs[a].length - (p - lenBefore cs a) = lenBefore cs (a + 1) - p := by rw [sa]; ring
      rw [hx] at d1 x1
      generalize hR : lenBefore cs (a + 1) - p = x at *
      have hqp : q - p = y + x := by rw [← hL, ← hR]; ring
      rw [hqp]
      have hy : 0 ≤ y := by linarith
      have hx0 : 0 ≤ x := by linarith
      rw [zero_mul, add_zero] at x1 x3
      rw [add_zero] at d1
      rw [sub_zero, hz, sub_zero] at x3
      generalize coord (cs[a + 1].value y).1 i = X at *
      generalize coord (cs[a + 1].value 0).2 i = D at *
      generalize coord (cs[a].value (p - lenBefore cs a)).2 i = D0 at *
      generalize coord (cs[a].value cs[a].length).2 i = D1 at *
      generalize coord (cs[a].value cs[a].length).1 i = X1 at *
      generalize coord (cs[a].value (p - lenBefore cs a)).1 i = X0 at *
      have hd : |D - D0| ≤ δ + κ * x := by
        have := abs_add_le (D - D1) (D1 - D0)
        rw [sub_add_sub_cancel] at this
        linarith
      have e1 : X + (coord (⟨endX cs a, endY cs a⟩ : Vec) i + X1) - (X0 + coord (⟨endX cs a, endY cs a⟩ : Vec) i) -
          (y + x) * D0 = (X - y * D) + (X1 - X0 - x * D0) + y * (D - D0) := by ring
      rw [e1]
      have t1 := abs_add_le ((X - y * D) + (X1 - X0 - x * D0)) (y * (D - D0))
      have t2 := abs_add_le (X - y * D) (X1 - X0 - x * D0)
      have t3 : |y * (D - D0)| ≤ y * (δ + κ * x) := by
        rw [abs_mul, abs_of_nonneg hy]
        exact mul_le_mul_of_nonneg_left hd hy
      have t4 : 0 ≤ δ * x := mul_nonneg hδ hx0
      nlinarith

/-- Two directions that are not a corner are close to each other. -/
theorem no_corner_close {a b : Curve} (ha : (a.value a.length).2.length ≤ 1) (hb : (b.value 0).2.length ≤ 1)
    (h : ¬ Corner a b) (i : Axis) :
    |coord (b.value 0).2 i - coord (a.value a.length).2 i| ≤ 873 / 10000 := by
  unfold Corner at h
  have h1 := length_sq (a.value a.length).2
  have h2 := length_sq (b.value 0).2
  have p1 : 0 ≤ (a.value a.length).2.length := Real.sqrt_nonneg _
  have p2 : 0 ≤ (b.value 0).2.length := Real.sqrt_nonneg _
  have s1 : (a.value a.length).2.length ^ 2 ≤ 1 := pow_le_one₀ p1 ha
  have s2 : (b.value 0).2.length ^ 2 ≤ 1 := pow_le_one₀ p2 hb
  generalize (a.value a.length).2 = u at *
  generalize (b.value 0).2 = w at *
  apply abs_le_of_sq_le_sq _ (by norm_num)
  cases i <;> simp only [coord]
  · nlinarith [sq_nonneg (w.y - u.y)]
  · nlinarith [sq_nonneg (w.x - u.x)]

/-- All strokes of a drawing whose curves bend by at most `κ` per unit of length are gentle. -/
theorem strokes_gentle {aMax vMax : Axis → ℤ} {e : Env} {c : Ctx} {segs : List Seg} {v : ℝ} {s : Pen}
    (hs : drawPen e c segs v = some s)
    (hfind : ∀ cs : List Curve, (∀ k ∈ cs, 0 < k.length) → ∀ pos, FoundAt (glue cs) pos (e.find (glue cs) pos))
    {κ S : ℝ} {n : ℕ} {i : Axis} (hκ : 0 ≤ κ) (hv0 : 0 < v) (hn : 1 ≤ n) {st : Vec × Concat} (hmem : st ∈ s.drawn)
    (hst0 : st.2 ≠ []) (b1 : n ≤ approxSteps (e.concatInfo st.2) v)
    (b2 : ∀ k ∈ st.2.map Part.curve, 0 < k.length ∧ Bends k κ 0 (v + v / (2 * n)))
    (b3 : ∀ k ∈ (st.2.map Part.curve).tail.dropLast, v + v / (2 * n) ≤ k.length)
    (h1 : 1 ≤ S) (h2 : S ≤ 10000) (hA : 301 / 100 * S ≤ aMax i) (hV : v * |e.vScale i| + 214 / 100 * S ≤ vMax i)
    (hP : v * |e.vScale i| * ((κ * v * (1 + 1 / (2 * n)) ^ 2 / 2 + 873 / 10000 * (1 + 1 / (2 * n)) +
      1 / (2 * n))) ≤ S / 4)
    (hW : v * |e.vScale i| * (κ * v * (1 + 1 / (2 * n)) + 873 / 10000) ≤ S / 4) :
    Gentle e st.1 (e.concatInfo st.2) v i (aMax i) (vMax i) S := by
  have hn0 : (1 : ℝ) ≤ n := by exact_mod_cast hn
  have hℓ : v + v / (2 * n) = v * (1 + 1 / (2 * n)) := by field_simp
  have hglue := finish_glue (by rwa [drawPen_eq] at hs) (by simp [Pen.init, glue]) (by simp [Pen.init]) st hmem
  have hcorner := C66_no_corner_inside e c segs v s hs st hmem
  have hs0 : (0 : ℝ) ≤ 1 / (2 * n) := by positivity
  have hB : Bends (e.concatInfo st.2) κ (873 / 10000) (v + v / (2 * n)) := by
    rw [hglue]
    refine C88_joined e (st.2.map Part.curve) κ (873 / 10000) (v + v / (2 * n)) (by simpa using hst0) (by norm_num)
      (by positivity) (fun k hk => (b2 k hk).1) (fun k hk h0 => ?_) (fun k hk => (b2 k hk).2) (fun k hk i => ?_)
      (hfind _ (fun k hk => (b2 k hk).1))
    · apply b3
      rw [List.mem_iff_getElem]
      refine ⟨k - 1, by simp at hk ⊢; omega, ?_⟩
      simp only [List.getElem_dropLast, List.getElem_tail]
      congr 1
      omega
    · have m1 := b2 _ (List.getElem_mem (show k < (st.2.map Part.curve).length by omega))
      have m2 := b2 _ (List.getElem_mem hk)
      exact no_corner_close (m1.2.unit _ m1.1.le le_rfl) (m2.2.unit _ le_rfl m2.1.le)
        (List.isChain_iff_getElem.1 hcorner k hk) i
  have hsteps : v / (2 * (approxSteps (e.concatInfo st.2) v : ℝ)) ≤ v / (2 * n) := by
    have : (n : ℝ) ≤ approxSteps (e.concatInfo st.2) v := by exact_mod_cast b1
    gcongr
  have hvs : |e.stepScale i| = 2 * |e.vScale i| := by
    unfold Env.vScale
    rw [abs_div, abs_of_pos (by norm_num : (0 : ℝ) < 2)]
    ring
  refine C88_bends e st.1 (e.concatInfo st.2) v κ (873 / 10000) (v + v / (2 * n)) (v + v / (2 * n)) S i (aMax i)
    (vMax i) hB hκ (by norm_num) hv0 (by linarith) le_rfl h1 h2 hA hV ?_ ?_
  · have e1 : |e.stepScale i| * (κ * (v + v / (2 * n)) ^ 2 / 2 + 873 / 10000 * (v + v / (2 * n)) + v / (2 * n)) =
        2 * (v * |e.vScale i| * ((κ * v * (1 + 1 / (2 * n)) ^ 2 / 2 + 873 / 10000 * (1 + 1 / (2 * n)) +
          1 / (2 * n)))) := by
      rw [hvs, hℓ]
      field_simp
    refine le_trans (mul_le_mul_of_nonneg_left ?_ (abs_nonneg _)) (b := |e.stepScale i| * (κ * (v + v / (2 * n)) ^ 2 / 2 +
      873 / 10000 * (v + v / (2 * n)) + v / (2 * n))) ?_
    · linarith
    · rw [e1]
      linarith
  · refine le_trans (le_of_eq ?_) hW
    rw [hℓ]
    ring

/-- C88: a drawing of curves that bend by at most `κ` per unit of length, in a region the machine can
cross (as in C70).  Strokes last at least `n` ticks and their inner curves are longer than a step.
For any `S` of at least 1 that is, for the speed `u` of an axis in half steps per tick, not less than
about `(0.35 + 4·κ·v + 2/n)·u`, and machine limits above `3.01·S` and `u + 2.14·S`: `draw_curves`
returns, the reported error is at most `3.82·S + 1`, and the limits for the acceleration are kept at
every tick of the drawing. -/
theorem C88_path (aMax vMax : Axis → ℤ) (hM : Machine aMax vMax) (e : Env) (v : ℝ) (c : Ctx)
    (h : Sync aMax vMax c) (hc : ∀ i, |(c.channels i).v| ≤ vMax i) (hsc : ∀ i, e.stepScale i ≠ 0)
    (R : Vec → Prop) (B : Axis → ℝ) (N : ℕ) (ℓ : ℝ) (segs : List Seg) (hne : segs ≠ [])
    (hR : Reachable vMax e v B N) (hI : InRegion e R B ℓ segs) (hℓ : 0 ≤ ℓ) (h0 : R (startOf e c))
    (hl : segs.length * ℓ ≤ v * N)
    (hfind : ∀ cs : List Curve, (∀ k ∈ cs, 0 < k.length) → ∀ pos, FoundAt (glue cs) pos (e.find (glue cs) pos))
    (κ S : ℝ) (n : ℕ) (hκ : 0 ≤ κ) (hn : 1 ≤ n)
    (hb : ∀ s, drawPen e c segs v = some s → ∀ st ∈ s.drawn, st.2 ≠ [] →
      n ≤ approxSteps (e.concatInfo st.2) v ∧
      (∀ k ∈ st.2.map Part.curve, 0 < k.length ∧ Bends k κ 0 (v + v / (2 * n))) ∧
      ∀ k ∈ (st.2.map Part.curve).tail.dropLast, v + v / (2 * n) ≤ k.length)
    (h1 : 1 ≤ S) (h2 : S ≤ 10000) (hA : ∀ i, 301 / 100 * S ≤ aMax i)
    (hV : ∀ i, v * |e.vScale i| + 214 / 100 * S ≤ vMax i)
    (hP : ∀ i, v * |e.vScale i| * ((κ * v * (1 + 1 / (2 * n)) ^ 2 / 2 + 873 / 10000 * (1 + 1 / (2 * n)) +
      1 / (2 * n))) ≤ S / 4)
    (hW : ∀ i, v * |e.vScale i| * (κ * v * (1 + 1 / (2 * n)) + 873 / 10000) ≤ S / 4) :
    ∃ c' err t t', drawCurves e c segs v = some (c', err) ∧ c.ticks = some t ∧ c'.ticks = some t' ∧
      (∀ s, drawPen e c segs v = some s →
        Timeline e v c.curveWeight aMax vMax c'.events err t (strokes s.drawn) t') ∧
      ∀ i, (err i : ℝ) ≤ 382 / 100 * S + 1 ∧ ∀ τ, t ≤ τ → τ < t' → |accAt i c'.events τ| ≤ aMax i := by
  obtain ⟨c', err, hr, -⟩ := C70_returns aMax vMax hM e v c h hc hsc R B N ℓ segs hR hI hℓ h0 hl
  have hr' := hr
  unfold drawCurves at hr'
  rw [if_neg (by simpa using hne)] at hr'
  obtain ⟨s, hs, hr'⟩ := Option.bind_eq_some_iff.1 hr'
  obtain ⟨c1, h3, hr'⟩ := Option.bind_eq_some_iff.1 hr'
  cases hr'
  have hs' := hs
  rw [drawPen_eq] at hs'
  obtain ⟨hsy, hla⟩ := finish_later (s := Pen.init e c) h hs'
  obtain ⟨q1, q2, q3, q4, q5, q6, q7⟩ := weight_now hsy h3
  have hpos : ∀ i, |((c.channels i).pos : ℝ)| ≤ B i + 3 / 2 + 2 * vMax i * N := by
    intro i
    have h1 := hI.box _ h0 i
    have e1 : coord (startOf e c) i * e.stepScale i = (c.channels i).pos := by
      cases i <;> simp only [startOf, coord, Env.coordFromSteps] <;> exact div_mul_cancel₀ _ (hsc _)
    rw [e1] at h1
    have : (0 : ℝ) ≤ 2 * vMax i * N := by
      have : (1 : ℝ) ≤ vMax i := by exact_mod_cast hM.v1 i
      positivity
    linarith
  obtain ⟨l, e1, htl, hw⟩ := Program.finish_played (s := Pen.init e c) hM hR hI hℓ
    ⟨h, hc, hpos, h0, h0, by simp [Pen.init], by simp [Pen.init, Concat.totalLength],
      by simpa [Pen.init, Concat.totalLength] using hl, by simp [Pen.init]⟩ hs'
  have e2 : s.drawn = l := by simpa [Pen.init] using e1
  rw [← e2] at htl hw
  simp only [Pen.init] at htl hw
  have key : ∀ {a b : ℕ} {ss : List (Vec × Concat)},
      Timeline e v c.curveWeight aMax vMax s.ctx.events s.maxErr a ss b → a ≤ b ∧
      (b ≤ (s.ctx.channels .x).ticks → Timeline e v c.curveWeight aMax vMax c'.events s.maxErr a ss b) := by
    intro a b ss hh
    induction hh with
    | nil t => exact ⟨le_rfl, fun _ => .nil t⟩
    | cons S _ ih =>
      refine ⟨by have := S.move; have := S.len; have := ih.1; omega, fun hle => ?_⟩
      have := ih.1
      refine .cons (Stroke.mono S (fun i τ _ => q6 i τ) (fun w τ hτ => ?_) (fun _ => le_rfl)) (ih.2 hle)
      rw [q7, if_pos (by omega)]
  refine ⟨c', s.maxErr, (c.channels .x).ticks, (s.ctx.channels .x).ticks, hr, ticks_of_sync h, ?_, ?_, fun i => ?_⟩
  · rw [← q2]
    exact ticks_of_sync q1
  · intro s2 hs2
    rw [hs] at hs2
    cases hs2
    exact (key htl).2 le_rfl
  · have := gentle_timeline (i := i) (by linarith) htl (hw i le_rfl) (fun st hst => by
      obtain ⟨m1, m2⟩ := List.mem_filter.1 hst
      have m2 : st.2 ≠ [] := by simpa using m2
      obtain ⟨b1, b2, b3⟩ := hb s hs st m1 m2
      exact strokes_gentle hs hfind hκ hR.vpos hn m1 m2 b1 b2 b3 h1 h2 (hA i) (hV i) (hP i) (hW i))
    refine ⟨this.1, fun τ g1 g2 => ?_⟩
    rw [q6]
    exact this.2 τ g1 g2

/-- A circle with a radius of 1000 steps is gentle at one step per tick ... -/
theorem circle_gentle (i : Axis) :
    Gentle unitEnv ⟨0, 0⟩ (Circle.new 1000 0 (2 * Real.pi)).info 1 i 10 100 1 := by
  have hlen : (Circle.new 1000 0 (2 * Real.pi)).info.length = 2000 * Real.pi := by
    simp only [Circle.info, Circle.new, Circle.length, sub_zero]
    rw [abs_of_nonneg (by positivity)]
    ring
  have hn : 3000 ≤ approxSteps (Circle.new 1000 0 (2 * Real.pi)).info 1 := by
    unfold approxSteps
    rw [hlen, div_one]
    have h1 := Draw.round_near (2000 * Real.pi)
    rw [abs_le] at h1
    have h2 := Real.two_le_pi
    have h3 := Real.pi_le_four
    have h4 : ((3000 : ℤ) : ℝ) ≤ Draw.round (2000 * Real.pi) := by push_cast; linarith
    have h5 : (Draw.round (2000 * Real.pi) : ℝ) ≤ ((9000 : ℤ) : ℝ) := by push_cast; linarith
    rw [Int.cast_le] at h4 h5
    unfold satI32
    split_ifs <;> omega
  have hn : (1 : ℝ) / (2 * approxSteps (Circle.new 1000 0 (2 * Real.pi)).info 1) ≤ 1 / 6000 := by
    have : (3000 : ℝ) ≤ approxSteps (Circle.new 1000 0 (2 * Real.pi)).info 1 := by exact_mod_cast hn
    apply one_div_le_one_div_of_le (by norm_num)
    linarith
  refine C88_bends _ _ _ _ (1 / 1000) 0 2 (10002 / 10000) _ _ _ _ (C88_arc _ _ _ _ (by norm_num)) (by norm_num)
    le_rfl (by norm_num) (by linarith) (by norm_num) le_rfl (by norm_num) (by norm_num)
    (by norm_num [unitEnv, Env.vScale]) ?_ (by norm_num [unitEnv, Env.vScale])
  simp only [unitEnv, abs_one, one_mul]
  norm_num
  norm_num at hn
  linarith

/-- ... and `approx_curve` from rest follows it within four steps. -/
example (c' : Ctx) (err : Axis → ℤ) (i : Axis)
    (hr : approxCurve unitEnv (Ctx.new (fun _ => 10) (fun _ => 100)) ⟨0, 0⟩
      (Circle.new 1000 0 (2 * Real.pi)).info 1 = some (c', err)) :
    FollowsWithin unitEnv ⟨0, 0⟩ (Circle.new 1000 0 (2 * Real.pi)).info 1 i c'.events 0 1 := by
  have g := circle_gentle i
  have hv0 : |wantVel unitEnv (Circle.new 1000 0 (2 * Real.pi)).info 1 i 0| ≤ 1 / 2 := by
    cases i <;> simp [wantVel, coord, Circle.info, Circle.value, Circle.new, unitEnv, Env.vScale, Real.pi_pos.le]
  have hp0 : wantPos unitEnv ⟨0, 0⟩ (Circle.new 1000 0 (2 * Real.pi)).info 1 i 0 = 0 := by
    have := g.zero
    simp only [wantPos, Nat.cast_zero, zero_mul, this]
    cases i <;> simp [coord]
  have h := C88_follow (fun _ => 10) (fun _ => 100) unitEnv (Ctx.new (fun _ => 10) (fun _ => 100)) c' ⟨0, 0⟩
    (Circle.new 1000 0 (2 * Real.pi)).info 1 1 err i .new le_rfl (by norm_num) (by norm_num)
    (fun k hk => g.speed k hk) (fun k _ hk => g.moves k hk) (fun k _ hk => g.turns k hk)
    (fun h => by
      have := g.moves 0 h
      rw [hp0] at this
      simp only [Ctx.new, Int.cast_zero, mul_zero, sub_zero, zero_add] at this ⊢
      rw [abs_le] at *
      constructor <;> linarith)
    (fun h => by
      have := g.turns 0 h
      simp only [Ctx.new, Int.cast_zero, sub_zero, zero_add] at this ⊢
      rw [abs_le] at *
      constructor <;> linarith) hr
  exact h

open Classical in
/-- A scale of one step per unit, and a binary search that answers correctly. -/
noncomputable def searchEnv : Env :=
  { unitEnv with find := fun c pos => if h : ∃ i, FoundAt c pos i then h.choose else 0 }

/-- Two lines with a kink of five degrees: the error is at most 4 steps. -/
theorem two_lines : ∃ c' err t', drawCurves searchEnv (Ctx.new (fun _ => 10) (fun _ => 100))
      [.lineTo ⟨100, 0⟩, .lineTo ⟨412, 25⟩] 4 = some (c', err) ∧ c'.ticks = some t' ∧
    ∀ i, err i ≤ 4 ∧ ∀ τ < t', |accAt i c'.events τ| ≤ 10 := by
  have l1 : (⟨100, 0⟩ - ⟨0, 0⟩ : Vec).length = 100 := by
    simp only [Vec.length, vsub]
    rw [show ((100 : ℝ) - 0) * (100 - 0) + (0 - 0) * (0 - 0) = 100 * 100 by norm_num]
    exact Real.sqrt_mul_self (by norm_num)
  have l2 : (⟨412, 25⟩ - ⟨100, 0⟩ : Vec).length = 313 := by
    simp only [Vec.length, vsub]
    rw [show ((412 : ℝ) - 100) * (412 - 100) + (25 - 0) * (25 - 0) = 313 * 313 by norm_num]
    exact Real.sqrt_mul_self (by norm_num)
  have d1 : ∀ s, ((Line.new (⟨100, 0⟩ - ⟨0, 0⟩)).info.value s).2 = ⟨1, 0⟩ := by
    intro s
    simp only [Line.info, Line.value, Line.new, Vec.unit, l1]
    norm_num [vsub]
  have d2 : ∀ s, ((Line.new (⟨412, 25⟩ - ⟨100, 0⟩)).info.value s).2 = ⟨312 / 313, 25 / 313⟩ := by
    intro s
    simp only [Line.info, Line.value, Line.new, Vec.unit, l2]
    norm_num [vsub]
  obtain ⟨c', err, t, t', q1, q2, q3, -, q4⟩ := C88_path (fun _ => 10) (fun _ => 100)
    ⟨by norm_num, by norm_num, by norm_num, by norm_num, by norm_num⟩ searchEnv 4
    (Ctx.new (fun _ => 10) (fun _ => 100)) .new (by simp [Ctx.new]) (by simp [searchEnv, unitEnv])
    (fun p => |p.x| ≤ 1000 ∧ |p.y| ≤ 1000) (fun _ => 1000) 10000 4000 [.lineTo ⟨100, 0⟩, .lineTo ⟨412, 25⟩] (by simp)
    ⟨by norm_num, by norm_num [searchEnv, unitEnv, Env.vScale], by norm_num⟩
    (lines_region searchEnv (fun _ => rfl) _ (by
      simp only [List.mem_cons, List.not_mem_nil, or_false]
      rintro s (rfl | rfl)
      · exact ⟨⟨100, 0⟩, by norm_num, by norm_num, by simp⟩
      · exact ⟨⟨412, 25⟩, by norm_num, by norm_num, by simp⟩)) (by norm_num)
    (by simp [startOf, Ctx.new, Env.coordFromSteps]) (by norm_num)
    (by
      intro cs hcs pos
      have ex := C45_search_possible cs (fun k hk => (hcs k hk).le) pos
      simp only [searchEnv]
      rw [dif_pos ex]
      exact ex.choose_spec)
    0 1 103 le_rfl (by norm_num)
    (by
      intro s hs
      rw [drawPen_eq] at hs
      obtain ⟨s1, g1, hs⟩ := finish_cons.1 hs
      obtain ⟨s2, g2, hs⟩ := finish_cons.1 hs
      rw [finish_nil] at hs
      obtain ⟨_, _, e4⟩ := flush_eq hs
      have i1 : (Pen.init searchEnv (Ctx.new (fun _ => 10) (fun _ => 100))).current = ⟨0, 0⟩ := by
        simp [Pen.init, Ctx.new, Env.coordFromSteps]
      simp only [Pen.step, Env.segInfo, Option.bind_eq_bind, Option.bind_some, i1] at g1
      rcases Draw.add_eq g1 with ⟨⟨d, hd, -⟩, -⟩ | ⟨-, rfl⟩
      · simp [Pen.init] at hd
      simp only [Pen.step, Env.segInfo, Option.bind_eq_bind, Option.bind_some] at g2
      rcases Draw.add_eq g2 with ⟨⟨d, hd, ht⟩, -⟩ | ⟨-, rfl⟩
      · exfalso
        simp only [Option.some.injEq] at hd
        subst hd
        revert ht
        rw [d1, d2]
        norm_num [minCosConnect]
      intro st hst hne
      have hst : st.2 = (Concat.add [] (Line.new (⟨100, 0⟩ - ⟨0, 0⟩)).info).add
          (Line.new (⟨412, 25⟩ - ⟨100, 0⟩)).info := by
        rw [e4] at hst
        rcases List.mem_append.1 hst with hst | hst
        · simp [Pen.init] at hst
        · rw [List.mem_singleton.1 hst]
          rfl
      rw [hst]
      refine ⟨?_, ?_, ?_⟩
      · unfold approxSteps
        rw [show (searchEnv.concatInfo (((Concat.add [] (Line.new (⟨100, 0⟩ - ⟨0, 0⟩)).info).add
            (Line.new (⟨412, 25⟩ - ⟨100, 0⟩)).info))).length = 413 by
          simp only [Env.concatInfo, Concat.totalLength, Concat.add, Line.info, Line.new, l1, l2]
          norm_num]
        have : Draw.round ((413 : ℝ) / 4) = 103 := by
          unfold Draw.round
          rw [if_pos (by norm_num), Int.floor_eq_iff]
          norm_num
        rw [this]
        decide
      · intro k hk
        have : k = (Line.new (⟨100, 0⟩ - ⟨0, 0⟩)).info ∨ k = (Line.new (⟨412, 25⟩ - ⟨100, 0⟩)).info := by
          simpa [Concat.add] using hk
        rcases this with rfl | rfl
        · exact ⟨by simp only [Line.info, Line.new, l1]; norm_num, C88_line _ _⟩
        · exact ⟨by simp only [Line.info, Line.new, l2]; norm_num, C88_line _ _⟩
      · simp [Concat.add])
    le_rfl (by norm_num) (by norm_num) (by norm_num [searchEnv, unitEnv, Env.vScale])
    (by norm_num [searchEnv, unitEnv, Env.vScale]) (by norm_num [searchEnv, unitEnv, Env.vScale])
  refine ⟨c', err, t', q1, q3, fun i => ?_⟩
  have : t = 0 := by
    have : (Ctx.new (fun _ => 10) (fun _ => 100)).ticks = some 0 := rfl
    rw [this] at q2
    exact (Option.some.inj q2).symm
  obtain ⟨q5, q6⟩ := q4 i
  refine ⟨?_, fun τ hτ => q6 τ (by omega) hτ⟩
  have : (err i : ℝ) < 5 := by linarith
  have : err i < 5 := by exact_mod_cast this
  omega

example : ∃ c' err, drawCurves searchEnv (Ctx.new (fun _ => 10) (fun _ => 100))
    [.lineTo ⟨100, 0⟩, .lineTo ⟨412, 25⟩] 4 = some (c', err) ∧ ∀ i, err i ≤ 4 := by
  obtain ⟨c', err, t', h1, -, h2⟩ := two_lines
  exact ⟨c', err, h1, fun i => (h2 i).1⟩

end StepperPaths.Props
