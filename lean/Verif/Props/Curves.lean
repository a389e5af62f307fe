import Verif.Model.Curves
import Verif.Props.Coords
import Mathlib.Analysis.SpecialFunctions.Trigonometric.Deriv

/-! Properties of lines, circle segments and concatenated curves (C43-C45). -/

namespace StepperPaths.Props
open Coords Curves

/-- The contract of `CurveInfo`, curve_approx.rs: the curve starts at the origin, the
direction has length one and is the derivative of the position along the curve. -/
structure Contract (c : Curve) : Prop where
  start : (c.value 0).1 = ⟨0, 0⟩
  unit : ∀ s, (c.value s).2.length = 1
  derivX : ∀ s, HasDerivAt (fun s => (c.value s).1.x) (c.value s).2.x s
  derivY : ∀ s, HasDerivAt (fun s => (c.value s).1.y) (c.value s).2.y s
  length : 0 ≤ c.length

theorem length_pos_iff (v : Vec) : v ≠ ⟨0, 0⟩ ↔ 0 < v.length := by
  constructor
  · intro hu
    have hx : v.x ≠ 0 ∨ v.y ≠ 0 := by
      by_contra hc
      push Not at hc
      exact hu (by ext <;> simp [hc])
    apply Real.sqrt_pos.2
    rcases hx with hx | hx
    · nlinarith [mul_self_pos.2 hx, mul_self_nonneg v.y]
    · nlinarith [mul_self_pos.2 hx, mul_self_nonneg v.x]
  · rintro h rfl
    simp [Vec.length] at h

theorem length_eq_zero_iff (v : Vec) : v.length = 0 ↔ v = ⟨0, 0⟩ := by
  have h0 : 0 ≤ v.length := Real.sqrt_nonneg _
  constructor
  · intro h
    by_contra hc
    exact absurd ((length_pos_iff v).1 hc) (by rw [h]; exact lt_irrefl 0)
  · intro h
    by_contra hc
    exact (length_pos_iff v).2 (lt_of_le_of_ne h0 (Ne.symm hc)) h

theorem length_sq (v : Vec) : v.length ^ 2 = v.x * v.x + v.y * v.y :=
  Real.sq_sqrt (by nlinarith [mul_self_nonneg v.x, mul_self_nonneg v.y])

/-! ### C43 -/

/-- C43: a line satisfies the contract and ends at its end point; its length is the
distance. -/
theorem C43_line (e : Vec) : Contract (Line.new e).info ∧
    ((Line.new e).info.value (Line.new e).info.length).1 = e ∧
    (Line.new e).info.length = e.length := by
  have hd : ∀ (d : ℝ) (s : ℝ), HasDerivAt (fun s => d * s) d s := by
    intro d s
    simpa using (hasDerivAt_id s).const_mul d
  refine ⟨⟨?_, ?_, ?_, ?_, ?_⟩, ?_, rfl⟩
  · simp [Line.info, Line.value]
  · intro s
    simp only [Line.info, Line.value, Line.new]
    split
    · simp [Vec.length]
    · next h => exact (C61_unit e (fun hc => h ((length_eq_zero_iff e).2 hc))).1
  · intro s
    simp only [Line.info, Line.value, vmul]
    exact hd _ _
  · intro s
    simp only [Line.info, Line.value, vmul]
    exact hd _ _
  · exact Real.sqrt_nonneg _
  · simp only [Line.info, Line.value, Line.new]
    split
    · next h =>
      rw [h, (length_eq_zero_iff e).1 h]
      simp
    · next h => exact (C61_unit e (fun hc => h ((length_eq_zero_iff e).2 hc))).2.1

/-- What every circle segment does whose start point is the origin. -/
theorem circle_contract (c : Circle) (hr : 0 < c.radius)
    (hs : c.angleScale = if c.startAngle ≤ c.endAngle then 1 / c.radius else -1 / c.radius)
    (h0 : c.center = ⟨-Real.cos c.startAngle * c.radius, -Real.sin c.startAngle * c.radius⟩) :
    Contract c.info ∧
    (c.info.value c.info.length).1 = (⟨c.radius * Real.cos c.endAngle,
      c.radius * Real.sin c.endAngle⟩ : Vec) + c.center ∧
    ∀ s, ((c.info.value s).1 - c.center).length = c.radius := by
  have ha : ∀ s, HasDerivAt (fun s : ℝ => s * c.angleScale + c.startAngle) c.angleScale s := by
    intro s
    simpa using ((hasDerivAt_id s).mul_const c.angleScale).add_const c.startAngle
  have sq : ∀ a : ℝ, Real.sin a * Real.sin a + Real.cos a * Real.cos a = 1 := by
    intro a
    have := Real.sin_sq_add_cos_sq a
    nlinarith
  refine ⟨⟨?_, ?_, ?_, ?_, ?_⟩, ?_, ?_⟩
  · simp only [Circle.info, Circle.value, h0, vadd, zero_mul, zero_add, Vec.mk.injEq]
    constructor <;> ring
  · intro s
    simp only [Circle.info, Circle.value]
    have := sq (s * c.angleScale + c.startAngle)
    split
    · simp only [Vec.length]
      rw [Real.sqrt_eq_one]
      linarith
    · simp only [Vec.length]
      rw [Real.sqrt_eq_one]
      linarith
  · intro s
    simp only [Circle.info, Circle.value, vadd]
    have := (((Real.hasDerivAt_cos _).comp s (ha s)).mul_const c.radius).add_const c.center.x
    refine this.congr_deriv ?_
    rw [hs]
    split <;> field_simp
  · intro s
    simp only [Circle.info, Circle.value, vadd]
    have := (((Real.hasDerivAt_sin _).comp s (ha s)).mul_const c.radius).add_const c.center.y
    refine this.congr_deriv ?_
    rw [hs]
    split <;> field_simp
  · exact mul_nonneg hr.le (abs_nonneg _)
  · have e : c.length * c.angleScale + c.startAngle = c.endAngle := by
      unfold Circle.length
      rw [hs]
      split
      · next h =>
        rw [abs_of_nonneg (by linarith)]
        field_simp
        ring
      · next h =>
        rw [abs_of_nonpos (by linarith)]
        field_simp
        ring
    simp only [Circle.info, Circle.value, e, vadd]
    ext <;> simp only <;> ring
  · intro s
    simp only [Circle.info, Circle.value, vadd, vsub, add_sub_cancel_right, Vec.length]
    have := sq (s * c.angleScale + c.startAngle)
    rw [show ∀ k s r : ℝ, k * r * (k * r) + s * r * (s * r) = (s * s + k * k) * r ^ 2 by
      intros; ring, this, one_mul, Real.sqrt_sq hr.le]

/-- C43: a circle segment with positive radius satisfies the contract, stays on its circle,
starts at the point at `start_angle` (the origin) and ends at the point at `end_angle`; its
length is the arc length. -/
theorem C43_circle (r a b : ℝ) (hr : 0 < r) :
    Contract (Circle.new r a b).info ∧
    ((Circle.new r a b).info.value (Circle.new r a b).info.length).1 =
      ⟨r * Real.cos b - r * Real.cos a, r * Real.sin b - r * Real.sin a⟩ ∧
    (∀ s, (((Circle.new r a b).info.value s).1 -
      (⟨-(r * Real.cos a), -(r * Real.sin a)⟩ : Vec)).length = r) ∧
    (Circle.new r a b).info.length = r * |b - a| := by
  obtain ⟨h1, h2, h3⟩ := circle_contract (Circle.new r a b) hr rfl rfl
  have e : (Circle.new r a b).center = ⟨-(r * Real.cos a), -(r * Real.sin a)⟩ := by
    ext <;> simp [Circle.new] <;> ring
  refine ⟨h1, ?_, ?_, rfl⟩
  · rw [h2, e]
    ext <;> simp [Circle.new] <;> ring
  · rw [← e]
    exact h3

/-- A half circle of radius 2 that runs clockwise ends at (-4, 0). -/
example : ((Circle.new 2 0 (-Real.pi)).info.value (Circle.new 2 0 (-Real.pi)).info.length).1 =
    ⟨-4, 0⟩ := by
  rw [(C43_circle 2 0 (-Real.pi) (by norm_num)).2.1]
  ext
  · simp; norm_num
  · simp

/-! ### C44 -/

/-- C44: `new_start_direction` builds a segment that starts at the origin in the given
direction and ends at the given point, whenever the direction is not parallel to the
chord; it turns by less than a full circle. -/
theorem C44_start_direction (e d : Vec) (h : d.crossMul e ≠ 0) :
    Contract (Circle.newStartDirection e d).info ∧
    ((Circle.newStartDirection e d).info.value 0) = (⟨0, 0⟩, d.unit) ∧
    ((Circle.newStartDirection e d).info.value (Circle.newStartDirection e d).info.length).1 = e ∧
    |(Circle.newStartDirection e d).endAngle - (Circle.newStartDirection e d).startAngle| <
      2 * Real.pi := by
  have hpi := Real.pi_pos
  have he : e ≠ ⟨0, 0⟩ := by rintro rfl; simp [Vec.crossMul] at h
  have hd : d ≠ ⟨0, 0⟩ := by rintro rfl; simp [Vec.crossMul] at h
  have hel : 0 < e.length := (length_pos_iff e).1 he
  have hdl : 0 < d.length := (length_pos_iff d).1 hd
  obtain ⟨b, hb, hb0⟩ : ∃ b, (e.rotate90ccw.x * (e * (1 / 2 : ℝ)).y -
      (e * (1 / 2 : ℝ)).x * e.rotate90ccw.y) /
      (e.rotate90ccw.x * d.rotate90ccw.y - d.rotate90ccw.x * e.rotate90ccw.y) = b ∧
      2 * b * d.crossMul e = e.length ^ 2 := by
    refine ⟨_, rfl, ?_⟩
    rw [length_sq]
    simp only [Vec.rotate90ccw, vmul]
    have h' : -e.y * d.x - -d.y * e.x ≠ 0 := by
      intro hc
      apply h
      unfold Vec.crossMul
      linarith
    unfold Vec.crossMul
    rw [mul_div_assoc', div_mul_eq_mul_div, div_eq_iff h']
    ring
  have hbne : b ≠ 0 := by
    rintro rfl
    rw [mul_zero, zero_mul] at hb0
    exact (pow_pos hel 2).ne hb0
  -- the centre
  have hc : (Circle.newStartDirection e d).center = d.rotate90ccw * b := by
    unfold Circle.newStartDirection
    simp only
    rw [hb]
  have hr : (Circle.newStartDirection e d).radius = (d.rotate90ccw * b).length := by
    unfold Circle.newStartDirection
    simp only
    rw [hb]
  have hsa : (Circle.newStartDirection e d).startAngle = (-(d.rotate90ccw * b)).angle := by
    unfold Circle.newStartDirection
    simp only
    rw [hb]
  have hea : (Circle.newStartDirection e d).endAngle =
      Circle.endAngleFor d (d.rotate90ccw * b) (-(d.rotate90ccw * b)).angle
        (e - d.rotate90ccw * b).angle := by
    unfold Circle.newStartDirection
    simp only
    rw [hb]
  have hsc : (Circle.newStartDirection e d).angleScale =
      if (Circle.newStartDirection e d).startAngle ≤ (Circle.newStartDirection e d).endAngle
      then 1 / (Circle.newStartDirection e d).radius
      else -1 / (Circle.newStartDirection e d).radius := rfl
  generalize Circle.newStartDirection e d = c at *
  clear hb
  -- lengths
  have hr' : c.radius = |b| * d.length := by
    rw [hr]
    simp only [Vec.length, Vec.rotate90ccw, vmul]
    rw [← Real.sqrt_sq_eq_abs, ← Real.sqrt_mul (sq_nonneg b)]
    congr 1
    ring
  have hr0 : 0 < c.radius := by
    rw [hr']
    exact mul_pos (abs_pos.2 hbne) hdl
  have hn : (-(d.rotate90ccw * b)).length = c.radius := by
    rw [hr]
    simp only [Vec.length, Vec.rotate90ccw, vmul, vneg]
    congr 1
    ring
  have hcd : (e - d.rotate90ccw * b).length = c.radius := by
    rw [hr]
    have h2 := hb0
    rw [length_sq] at h2
    unfold Vec.crossMul at h2
    simp only [Vec.length, Vec.rotate90ccw, vmul, vsub]
    congr 1
    linear_combination -h2
  obtain ⟨s1, s2, -, s3, s4⟩ := C61_polar (-(d.rotate90ccw * b))
  obtain ⟨e1, e2, -, e3, e4⟩ := C61_polar (e - d.rotate90ccw * b)
  rw [hn, ← hsa] at s1 s2
  rw [← hsa] at s3 s4
  rw [hcd] at e1 e2
  rw [← hsa] at hea
  generalize (e - d.rotate90ccw * b).angle = β at *
  -- end angle
  have hcos : Real.cos c.endAngle = Real.cos β ∧ Real.sin c.endAngle = Real.sin β := by
    rw [hea]
    unfold Circle.endAngleFor
    split <;> split <;> simp
  have hne : β ≠ c.startAngle := by
    rintro rfl
    apply he
    have q1 := s1.symm.trans e1
    have q2 := s2.symm.trans e2
    simp only [vneg, vsub, vmul] at q1 q2
    ext
    · show e.x = 0
      linarith
    · show e.y = 0
      linarith
  have hds : d.diffSign (d.rotate90ccw * b) = -(b * d.length ^ 2) := by
    rw [length_sq]
    simp only [Vec.diffSign, Vec.rotate90ccw, vmul]
    ring
  have hdl2 : 0 < d.length ^ 2 := by positivity
  have hord : (0 < b → c.startAngle ≤ c.endAngle) ∧ (b < 0 → ¬ c.startAngle ≤ c.endAngle) ∧
      |c.endAngle - c.startAngle| < 2 * Real.pi := by
    rw [hea]
    unfold Circle.endAngleFor
    simp only [hds, neg_lt_zero]
    refine ⟨fun hb => ?_, fun hb => ?_, ?_⟩
    · rw [if_pos (mul_pos hb hdl2)]
      split <;> linarith
    · rw [if_neg (not_lt.2 (mul_nonpos_of_nonpos_of_nonneg hb.le hdl2.le))]
      split
      · linarith
      · next hh =>
        rw [not_le]
        exact lt_of_le_of_ne (not_lt.1 hh) hne
    · rw [abs_lt]
      split <;> split <;> constructor <;> linarith
  have h0 : c.center = ⟨-Real.cos c.startAngle * c.radius, -Real.sin c.startAngle * c.radius⟩ := by
    rw [hc]
    simp only [vneg, vmul] at s1 s2
    ext <;> simp only [vmul] <;> linarith
  obtain ⟨g1, g2, -⟩ := circle_contract c hr0 hsc h0
  refine ⟨g1, ?_, ?_, hord.2.2⟩
  · refine Prod.ext g1.start ?_
    simp only [Circle.info, Circle.value, zero_mul, zero_add]
    have c1 : Real.cos c.startAngle * c.radius = d.y * b := by
      simp only [vneg, vmul, Vec.rotate90ccw] at s1
      linarith
    have c2 : Real.sin c.startAngle * c.radius = -(d.x * b) := by
      simp only [vneg, vmul, Vec.rotate90ccw] at s2
      linarith
    rcases lt_or_gt_of_ne hbne with hb | hb
    · rw [if_neg (hord.2.1 hb)]
      rw [hr', abs_of_neg hb] at c1 c2
      unfold Vec.unit
      have k1 : Real.cos c.startAngle * d.length = -d.y := by
        apply mul_right_cancel₀ hbne; linarith
      have k2 : Real.sin c.startAngle * d.length = d.x := by
        apply mul_right_cancel₀ hbne; linarith
      ext <;> simp only <;> rw [eq_div_iff hdl.ne'] <;> linarith
    · rw [if_pos (hord.1 hb)]
      rw [hr', abs_of_pos hb] at c1 c2
      unfold Vec.unit
      have k1 : Real.cos c.startAngle * d.length = d.y := by
        apply mul_right_cancel₀ hbne; linarith
      have k2 : Real.sin c.startAngle * d.length = -d.x := by
        apply mul_right_cancel₀ hbne; linarith
      ext <;> simp only <;> rw [eq_div_iff hdl.ne'] <;> linarith
  · rw [g2, hcos.1, hcos.2, e1, e2, hc]
    ext <;> simp

/-- The quarter arc from the origin in direction (1, 0) to (1, 1). -/
example : ((Circle.newStartDirection ⟨1, 1⟩ ⟨2, 0⟩).info.value
    (Circle.newStartDirection ⟨1, 1⟩ ⟨2, 0⟩).info.length).1 = ⟨1, 1⟩ :=
  (C44_start_direction ⟨1, 1⟩ ⟨2, 0⟩ (by norm_num [Vec.crossMul])).2.2.1

/-! ### C45 -/

/-- The curve made of the given parts. -/
noncomputable def glue (cs : List Curve) : Concat := cs.foldl Concat.add []

/-- Length and end point of the first `k` parts. -/
noncomputable def lenBefore (cs : List Curve) (k : ℕ) : ℝ := ((cs.take k).map Curve.length).sum
noncomputable def endX (cs : List Curve) (k : ℕ) : ℝ :=
  ((cs.take k).map fun c => (c.value c.length).1.x).sum
noncomputable def endY (cs : List Curve) (k : ℕ) : ℝ :=
  ((cs.take k).map fun c => (c.value c.length).1.y).sum

/-- Where the last part ends. -/
noncomputable def lastCoord (c : Concat) : Vec :=
  match c.getLast? with
  | none => ⟨0, 0⟩
  | some seg => seg.endCoord

theorem add_eq (c : Concat) (x : Curve) :
    c.add x = c ++ [⟨(x.value x.length).1 + lastCoord c, x.length + c.totalLength, x⟩] := rfl

theorem glue_append (cs : List Curve) (c : Curve) : glue (cs ++ [c]) = (glue cs).add c := by
  simp [glue]

theorem glue_spec (cs : List Curve) : (glue cs).length = cs.length ∧
    ∀ k (h : k < cs.length), (glue cs)[k]? = some ⟨⟨endX cs (k + 1), endY cs (k + 1)⟩,
      lenBefore cs (k + 1), cs[k]⟩ := by
  induction cs using List.reverseRecOn with
  | nil => simp [glue]
  | append_singleton cs c ih =>
    obtain ⟨hl, hi⟩ := ih
    rw [glue_append]
    have hlast : (glue cs).totalLength = lenBefore cs cs.length ∧
        lastCoord (glue cs) = ⟨endX cs cs.length, endY cs cs.length⟩ := by
      unfold Concat.totalLength lastCoord
      rcases Nat.eq_zero_or_pos cs.length with h0 | h0
      · have : cs = [] := List.length_eq_zero_iff.1 h0
        subst this
        simp [glue, lenBefore, endX, endY]
      · have := hi (cs.length - 1) (by omega)
        rw [List.getLast?_eq_getElem?, hl, this]
        simp only
        rw [Nat.sub_add_cancel h0]
        exact ⟨rfl, rfl⟩
    constructor
    · simp [Concat.add, hl]
    · intro k hk
      rw [List.length_append, List.length_singleton] at hk
      rw [add_eq, hlast.1, hlast.2]
      by_cases hk' : k < cs.length
      · rw [List.getElem?_append_left (by omega), hi k hk']
        rw [List.getElem_append_left hk']
        unfold endX endY lenBefore
        rw [List.take_append_of_le_length (by omega)]
      · have : k = cs.length := by omega
        subst this
        rw [List.getElem?_append_right (by omega), hl, Nat.sub_self]
        simp only [List.getElem?_cons_zero, List.getElem_concat_length]
        unfold endX endY lenBefore
        simp only [List.take_length, vadd]
        rw [List.take_of_length_le (by simp)]
        simp [add_comm]

theorem lenBefore_succ (cs : List Curve) (k : ℕ) (h : k < cs.length) :
    lenBefore cs (k + 1) = lenBefore cs k + cs[k].length := by
  unfold lenBefore
  rw [List.take_add_one, List.getElem?_eq_getElem h, Option.toList_some, List.map_append,
    List.sum_append]
  simp

theorem lenBefore_mono (cs : List Curve) (h : ∀ c ∈ cs, 0 ≤ c.length) {j k : ℕ} (hjk : j ≤ k) :
    lenBefore cs j ≤ lenBefore cs k := by
  induction k, hjk using Nat.le_induction with
  | base => exact le_rfl
  | succ k hk ih =>
    by_cases hl : k < cs.length
    · rw [lenBefore_succ cs k hl]
      have := h _ (List.getElem_mem hl)
      linarith
    · have : lenBefore cs (k + 1) = lenBefore cs k := by
        unfold lenBefore
        rw [List.take_of_length_le (by omega), List.take_of_length_le (by omega)]
      rw [this]
      exact ih

theorem lenBefore_strict (cs : List Curve) (h : ∀ c ∈ cs, 0 < c.length) {j k : ℕ} (hjk : j < k)
    (hk : j < cs.length) : lenBefore cs j < lenBefore cs k := by
  have h1 := lenBefore_succ cs j hk
  have h2 := h _ (List.getElem_mem hk)
  have h3 := lenBefore_mono cs (fun c hc => (h c hc).le) (show j + 1 ≤ k by omega)
  linarith

/-- The value when the binary search answers `i`. -/
theorem valueAt_eq (cs : List Curve) (i : ℕ) (pos : ℝ) (k : ℕ) (hk : k < cs.length)
    (hi : min i (cs.length - 1) = k) :
    (glue cs).valueAt i pos = some
      (((cs[k].value (pos - lenBefore cs k)).1 + (⟨endX cs k, endY cs k⟩ : Vec)),
        (cs[k].value (pos - lenBefore cs k)).2) := by
  obtain ⟨hl, hg⟩ := glue_spec cs
  unfold Concat.valueAt
  rw [hl, hi, if_neg (by omega)]
  simp only
  rw [hg k hk]
  rcases Nat.eq_zero_or_pos k with rfl | h0
  · simp [lenBefore, endX, endY]
  · obtain ⟨j, rfl⟩ := Nat.exists_eq_succ_of_ne_zero h0.ne'
    simp only [Nat.succ_eq_add_one, gt_iff_lt, Nat.zero_lt_succ, if_true, Nat.add_sub_cancel]
    rw [hg j (by omega)]
    rfl

/-- C45: the length is the sum of the lengths of the parts. -/
theorem C45_length (cs : List Curve) :
    (glue cs).totalLength = (cs.map Curve.length).sum := by
  obtain ⟨hl, hg⟩ := glue_spec cs
  unfold Concat.totalLength
  rcases Nat.eq_zero_or_pos cs.length with h0 | h0
  · have : cs = [] := List.length_eq_zero_iff.1 h0
    subst this
    simp [glue]
  · rw [List.getLast?_eq_getElem?, hl, hg (cs.length - 1) (by omega)]
    simp only
    rw [Nat.sub_add_cancel h0]
    simp [lenBefore]

/-- C45: a position in part `k` is looked up in that part, shifted by the end of the parts
before it; positions before the start and beyond the end use the first and last part.  This
holds for any answer the binary search may give. -/
theorem C45_value (cs : List Curve) (hp : ∀ c ∈ cs, 0 < c.length) (pos : ℝ) (k : ℕ)
    (hk : k < cs.length) (h1 : k = 0 ∨ lenBefore cs k < pos)
    (h2 : k + 1 = cs.length ∨ pos ≤ lenBefore cs (k + 1)) (i : ℕ) (hi : FoundAt (glue cs) pos i) :
    (glue cs).valueAt i pos = some
      (((cs[k].value (pos - lenBefore cs k)).1 + (⟨endX cs k, endY cs k⟩ : Vec)),
        (cs[k].value (pos - lenBefore cs k)).2) := by
  obtain ⟨hl, hg⟩ := glue_spec cs
  apply valueAt_eq
  rcases hi with ⟨s, hs, he⟩ | ⟨hle, hb, ha⟩
  · have hil : i < cs.length := by
      by_contra hc
      rw [List.getElem?_eq_none (by omega)] at hs
      cases hs
    rw [hg i hil] at hs
    cases hs
    simp only at he
    have e1 : ¬ i < k := by
      intro hlt
      rcases h1 with rfl | h1
      · omega
      · have := lenBefore_mono cs (fun c hc => (hp c hc).le) (show i + 1 ≤ k by omega)
        linarith
    have e2 : ¬ k < i := by
      intro hlt
      rcases h2 with h2 | h2
      · omega
      · have := lenBefore_strict cs hp (show k + 1 < i + 1 by omega) (by omega)
        linarith
    omega
  · rw [hl] at hle
    have e1 : ¬ i < k := by
      intro hlt
      rcases h1 with rfl | h1
      · omega
      · have := ha (k - 1) _ (by omega) (hg (k - 1) (by omega))
        simp only at this
        rw [Nat.sub_add_cancel (by omega)] at this
        linarith
    have e2 : i ≤ k ∨ k + 1 = cs.length := by
      rcases h2 with h2 | h2
      · exact .inr h2
      · left
        by_contra hc
        have := hb k _ (by omega) (hg k hk)
        simp only at this
        linarith
    omega

/-- C45: with parts of length zero the search may pick any of several parts, but always one
that contains the position. -/
theorem C45_zero_length (cs : List Curve) (hne : cs ≠ []) (hp : ∀ c ∈ cs, 0 ≤ c.length)
    (pos : ℝ) (hpos : 0 ≤ pos ∧ pos ≤ (cs.map Curve.length).sum) (i : ℕ)
    (hi : FoundAt (glue cs) pos i) :
    ∃ k, ∃ hk : k < cs.length, lenBefore cs k ≤ pos ∧ pos ≤ lenBefore cs (k + 1) ∧
      (glue cs).valueAt i pos = some
      (((cs[k].value (pos - lenBefore cs k)).1 + (⟨endX cs k, endY cs k⟩ : Vec)),
        (cs[k].value (pos - lenBefore cs k)).2) := by
  obtain ⟨hl, hg⟩ := glue_spec cs
  have h0 : 0 < cs.length := List.length_pos_iff.2 hne
  have htot : lenBefore cs cs.length = (cs.map Curve.length).sum := by simp [lenBefore]
  rcases hi with ⟨s, hs, he⟩ | ⟨hle, hb, ha⟩
  · have hil : i < cs.length := by
      by_contra hc
      rw [List.getElem?_eq_none (by omega)] at hs
      cases hs
    rw [hg i hil] at hs
    cases hs
    simp only at he
    refine ⟨i, hil, ?_, he.ge, valueAt_eq _ _ _ _ _ (by omega)⟩
    rw [← he]
    exact lenBefore_mono cs hp (by omega)
  · rw [hl] at hle
    have hb' : i = 0 ∨ lenBefore cs i < pos := by
      rcases Nat.eq_zero_or_pos i with h | h
      · exact .inl h
      · right
        have := hb (i - 1) _ (by omega) (hg (i - 1) (by omega))
        simp only at this
        rwa [Nat.sub_add_cancel h] at this
    have hil : i < cs.length := by
      by_contra hc
      have : i = cs.length := by omega
      subst this
      rcases hb' with h | h
      · omega
      · rw [htot] at h
        linarith [hpos.2]
    refine ⟨i, hil, ?_, ?_, valueAt_eq _ _ _ _ _ (by omega)⟩
    · rcases hb' with rfl | h
      · simpa [lenBefore] using hpos.1
      · exact h.le
    · exact (ha i _ le_rfl (hg i hil)).le

/-- The binary search has an answer, so the two theorems above are not vacuous. -/
theorem C45_search_possible (cs : List Curve) (hp : ∀ c ∈ cs, 0 ≤ c.length) (pos : ℝ) :
    ∃ i, FoundAt (glue cs) pos i := by
  obtain ⟨hl, hg⟩ := glue_spec cs
  by_cases h : ∃ i, i < cs.length ∧ pos ≤ lenBefore cs (i + 1)
  · classical
    have hmin : ∀ {m : ℕ}, m < Nat.find h → _ := fun hm => Nat.find_min h hm
    obtain ⟨hi, hle⟩ := Nat.find_spec h
    generalize Nat.find h = i at *
    refine ⟨i, ?_⟩
    rcases hle.lt_or_eq with hlt | he
    · right
      refine ⟨by omega, fun j s hj hs => ?_, fun j s hj hs => ?_⟩
      · rw [hg j (by omega)] at hs
        cases hs
        have := hmin hj
        push Not at this
        exact this (by omega)
      · have hjl : j < cs.length := by
          by_contra hc
          rw [List.getElem?_eq_none (by omega)] at hs
          cases hs
        rw [hg j hjl] at hs
        cases hs
        simp only
        exact hlt.trans_le (lenBefore_mono cs hp (by omega))
    · left
      exact ⟨_, hg i hi, he.symm⟩
  · push Not at h
    refine ⟨cs.length, .inr ⟨hl.ge, fun j s hj hs => ?_, fun j s hj hs => ?_⟩⟩
    · rw [hg j hj] at hs
      cases hs
      exact h j hj
    · rw [List.getElem?_eq_none (by omega)] at hs
      cases hs

/-- C45: the joints fit: the end of each part is where the next part begins. -/
theorem C45_joined (cs : List Curve) (h0 : ∀ c ∈ cs, (c.value 0).1 = ⟨0, 0⟩) (k : ℕ)
    (hk : k + 1 < cs.length) :
    (cs[k].value cs[k].length).1 + (⟨endX cs k, endY cs k⟩ : Vec) =
      (cs[k + 1].value 0).1 + (⟨endX cs (k + 1), endY cs (k + 1)⟩ : Vec) := by
  rw [h0 _ (List.getElem_mem hk)]
  have : k < cs.length := by omega
  unfold endX endY
  rw [List.take_add_one, List.getElem?_eq_getElem this, Option.toList_some, List.map_append,
    List.map_append, List.sum_append, List.sum_append]
  ext <;> simp [add_comm]

/-- Two lines: half-way through the second one. -/
example (i : ℕ)
    (hi : FoundAt (glue [(Line.new ⟨3, 4⟩).info, (Line.new ⟨0, 2⟩).info]) 6 i) :
    (glue [(Line.new ⟨3, 4⟩).info, (Line.new ⟨0, 2⟩).info]).valueAt i 6 =
      some (⟨3, 5⟩, ⟨0, 1⟩) := by
  have l1 : Vec.length ⟨3, 4⟩ = 5 := by
    rw [Vec.length, Real.sqrt_eq_iff_mul_self_eq (by norm_num) (by norm_num)]
    norm_num
  have l2 : Vec.length ⟨0, 2⟩ = 2 := by
    rw [Vec.length, Real.sqrt_eq_iff_mul_self_eq (by norm_num) (by norm_num)]
    norm_num
  rw [C45_value _ (by simp [Line.info, Line.new, l1, l2]) 6 1 (by simp)
    (.inr (by norm_num [lenBefore, Line.info, Line.new, l1])) (.inl (by simp)) i hi]
  have e := (C43_line ⟨3, 4⟩).2.1
  simp [lenBefore, endX, endY, e]
  norm_num [Line.info, Line.new, Line.value, l1, l2, Vec.unit]

end StepperPaths.Props
