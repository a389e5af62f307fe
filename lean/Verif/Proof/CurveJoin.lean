import Verif.Proof.CurveShape

/-! Lines and curves joined with rounding: how far the computed points are from the given ones. -/

namespace StepperPaths.Rounded.CurvePath
open Coords Curves Context IntegerCurve Spec Props Draw

/-- A line or curve, where it starts, and how it is computed. -/
structure Piece where
  start : Vec
  shape : Shape
  curve : Curve

def Piece.placed (x : Piece) : Vec × Shape := (x.start, x.shape)

/-- The length of the first `j` pieces, and where they lead. -/
noncomputable def lenTo (l : List Piece) (j : ℕ) : ℝ := ((l.take j).map (fun x => x.shape.len)).sum
noncomputable def sumTo (l : List Piece) (j : ℕ) (i : Axis) : ℝ :=
  ((l.take j).map (fun x => coord (x.shape.pt x.shape.len) i)).sum

/-- The pieces as computed. -/
def computed (l : List Piece) : List Curve := l.map Piece.curve

theorem lenTo_zero (l : List Piece) : lenTo l 0 = 0 := by simp [lenTo]
theorem sumTo_zero (l : List Piece) (i : Axis) : sumTo l 0 i = 0 := by simp [sumTo]

theorem lenTo_succ (l : List Piece) (j : ℕ) (h : j < l.length) : lenTo l (j + 1) = lenTo l j + l[j].shape.len := by
  unfold lenTo
  rw [take_succ_get l j h, List.map_append, List.sum_append, List.map_singleton, List.sum_singleton]

theorem sumTo_succ (l : List Piece) (j : ℕ) (h : j < l.length) (i : Axis) :
    sumTo l (j + 1) i = sumTo l j i + coord (l[j].shape.pt l[j].shape.len) i := by
  unfold sumTo
  rw [take_succ_get l j h, List.map_append, List.sum_append, List.map_singleton, List.sum_singleton]

theorem computed_length (l : List Piece) : (computed l).length = l.length := by simp [computed]

/-- What is known of pieces that are joined. -/
structure Run (M v D ε κ : ℝ) (N : ℕ) (l : List Piece) : Prop where
  ne : l ≠ []
  count : l.length ≤ N
  tiny : 1 / 2 ^ 40 ≤ v
  long : ∀ x ∈ l, 2 * v ≤ x.shape.len
  total : lenTo l l.length ≤ M
  ticks : M ≤ 2 ^ 29 * v
  tol : 64 * M / 2 ^ 52 ≤ D
  fine : N * D ≤ v / 1024
  bend : 0 ≤ κ
  smooth : ∀ x ∈ l, x.shape.Smooth κ
  near : ∀ x ∈ l, Near x.curve x.shape D ε (v / 100)

section
variable {M v D ε κ : ℝ} {N : ℕ} {l : List Piece}

theorem Run.pos (h : Run M v D ε κ N l) : 0 < v := lt_of_lt_of_le (by norm_num) h.tiny

theorem Run.seg_long (h : Run M v D ε κ N l) {j : ℕ} (hj : j < l.length) : 2 * v ≤ l[j].shape.len :=
  h.long _ (List.getElem_mem hj)

theorem Run.mono (h : Run M v D ε κ N l) {j k : ℕ} (hjk : j ≤ k) (hk : k ≤ l.length) : lenTo l j ≤ lenTo l k := by
  induction k, hjk using Nat.le_induction with
  | base => exact le_rfl
  | succ k _ ih =>
    rw [lenTo_succ l k (by omega)]
    have := ih (by omega)
    have := h.seg_long (j := k) (by omega)
    have := h.pos
    linarith

theorem Run.nonneg (h : Run M v D ε κ N l) {j : ℕ} (hj : j ≤ l.length) : 0 ≤ lenTo l j := by
  rw [← lenTo_zero l]
  exact h.mono (Nat.zero_le _) hj

theorem Run.smooth_at (h : Run M v D ε κ N l) {j : ℕ} (hj : j < l.length) : l[j].shape.Smooth κ :=
  h.smooth _ (List.getElem_mem hj)

theorem Run.near_at (h : Run M v D ε κ N l) {j : ℕ} (hj : j < l.length) : Near l[j].curve l[j].shape D ε (v / 100) :=
  h.near _ (List.getElem_mem hj)

theorem Run.end_abs (h : Run M v D ε κ N l) {j : ℕ} (hj : j < l.length) (i : Axis) :
    |coord (l[j].shape.pt l[j].shape.len) i| ≤ l[j].shape.len := by
  have h1 := (h.smooth_at hj).le i l[j].shape.len
  have := h.seg_long hj
  have := h.pos
  rwa [abs_of_nonneg (a := l[j].shape.len) (by linarith)] at h1

theorem Run.sum_le (h : Run M v D ε κ N l) (j : ℕ) (hj : j ≤ l.length) (i : Axis) : |sumTo l j i| ≤ lenTo l j := by
  induction j with
  | zero => rw [sumTo_zero, lenTo_zero, abs_zero]
  | succ j ih =>
    rw [sumTo_succ l j (by omega), lenTo_succ l j (by omega)]
    exact (abs_add_le _ _).trans (add_le_add (ih (by omega)) (h.end_abs (by omega) i))

theorem Run.len_le (h : Run M v D ε κ N l) {j : ℕ} (hj : j ≤ l.length) : lenTo l j ≤ M := (h.mono hj le_rfl).trans h.total

theorem Run.seg_le (h : Run M v D ε κ N l) {j : ℕ} (hj : j < l.length) : l[j].shape.len ≤ M := by
  have h1 := h.len_le (j := j + 1) hj
  rw [lenTo_succ l j hj] at h1
  have := h.nonneg hj.le
  linarith

theorem Run.M_pos (h : Run M v D ε κ N l) : 2 * v ≤ M := by
  have h0 : 0 < l.length := List.length_pos_iff.2 h.ne
  exact (h.seg_long h0).trans (h.seg_le h0)

theorem Run.D_pos (h : Run M v D ε κ N l) : 0 < D := by
  have := h.tol
  have := h.M_pos
  have := h.pos
  have : 0 < 64 * M / 2 ^ 52 := by
    have : 0 < M := by linarith
    positivity
  linarith

theorem Run.N_pos (h : Run M v D ε κ N l) : (1 : ℝ) ≤ N := by
  have h0 : 0 < l.length := List.length_pos_iff.2 h.ne
  have := h.count
  have : 1 ≤ N := by omega
  exact_mod_cast this

/-- The accumulated errors are small. -/
theorem Run.small (h : Run M v D ε κ N l) {j : ℕ} (hj : j ≤ l.length) : (j : ℝ) * D ≤ v / 1024 := by
  refine le_trans ?_ h.fine
  apply mul_le_mul_of_nonneg_right _ h.D_pos.le
  exact_mod_cast hj.trans h.count

theorem Run.D_le (h : Run M v D ε κ N l) : D ≤ v / 1024 := by
  have := h.small (j := 1) (List.length_pos_iff.2 h.ne)
  simpa using this

theorem Run.len_near {fl : ℝ → ℝ} (R : FloatRounding fl) (h : Run M v D ε κ N l) {j : ℕ} (hj : j ≤ l.length) :
    |lenAt fl (computed l) j - lenTo l j| ≤ 9 / 8 * (j * D) := by
  induction j with
  | zero => rw [lenAt_zero, lenTo_zero]; simp
  | succ j ih =>
    have ih := ih (by omega)
    have hL := (h.near_at (j := j) hj).len
    have hj' : j < (computed l).length := by rw [computed_length]; exact hj
    have hM := h.M_pos
    have hv := h.pos
    have hs := h.small (j := j) (by omega)
    have hD := h.D_le
    have ht := h.tol
    have h1 := h.len_le (j := j) (by omega)
    have h2 := h.nonneg (j := j) (by omega)
    have h3 := h.seg_le (j := j) hj
    have h4 := h.seg_long (j := j) hj
    have h5 := h.tiny
    rw [lenAt_succ fl _ j hj', lenTo_succ l j hj]
    have eg : (computed l)[j] = l[j].curve := by simp [computed]
    rw [eg]
    obtain ⟨a1, a2⟩ := abs_le.1 ih
    obtain ⟨b1, b2⟩ := abs_le.1 hL
    have hr := R.rel (x := l[j].curve.length + lenAt fl (computed l) j) (M := 3 * M)
      (by rw [abs_le]; constructor <;> linarith) (le_trans (by norm_num) (show 1 / 2 ^ 40 ≤ 3 * M by linarith))
    obtain ⟨c1, c2⟩ := abs_le.1 hr
    have e1 : (9 / 8 : ℝ) * (((j + 1 : ℕ) : ℝ) * D) = 9 / 8 * (j * D) + 9 / 8 * D := by
      push_cast
      ring
    rw [e1, abs_le]
    constructor <;> linarith

theorem Run.end_near {fl : ℝ → ℝ} (R : FloatRounding fl) (h : Run M v D ε κ N l) {j : ℕ} (hj : j ≤ l.length) (i : Axis) :
    |coord (endAt fl (computed l) j) i - sumTo l j i| ≤ 13 / 4 * (j * D) := by
  induction j with
  | zero => rw [endAt_zero, sumTo_zero]; cases i <;> simp [coord]
  | succ j ih =>
    have ih := ih (by omega)
    have hn := h.near_at (j := j) hj
    have hL := hn.len
    have hj' : j < (computed l).length := by rw [computed_length]; exact hj
    have hM := h.M_pos
    have hv := h.pos
    have hs := h.small (j := j) (by omega)
    have hD := h.D_le
    have ht := h.tol
    have h1 := h.len_le (j := j) (by omega)
    have h3 := h.seg_le (j := j) hj
    have h4 := h.seg_long (j := j) hj
    have h5 := h.tiny
    have h6 := h.sum_le j (by omega) i
    have h7 := h.end_abs hj i
    rw [endAt_succ fl _ j hj', sumTo_succ l j hj]
    have eg : (computed l)[j] = l[j].curve := by simp [computed]
    rw [eg]
    obtain ⟨b1, b2⟩ := abs_le.1 hL
    have e1 := hn.pt l[j].curve.length (by linarith) (by linarith) i
    have e2 := (h.smooth_at hj).lip i l[j].shape.len l[j].curve.length
    have e3 : coord (vadd fl (l[j].curve.value l[j].curve.length).1 (endAt fl (computed l) j)) i =
        fl (coord (l[j].curve.value l[j].curve.length).1 i + coord (endAt fl (computed l) j) i) := by
      cases i <;> rfl
    rw [e3]
    have e5 : beyond l[j].shape.len l[j].curve.length ≤ D := by
      unfold beyond
      rw [max_le_iff, max_le_iff]
      refine ⟨h.D_pos.le, ?_, ?_⟩ <;> linarith
    generalize beyond l[j].shape.len l[j].curve.length = bd at *
    generalize coord (l[j].curve.value l[j].curve.length).1 i = y at *
    generalize coord (l[j].shape.pt l[j].curve.length) i = z at *
    generalize coord (l[j].shape.pt l[j].shape.len) i = z' at *
    obtain ⟨a1, a2⟩ := abs_le.1 ih
    obtain ⟨c1, c2⟩ := abs_le.1 e1
    obtain ⟨d1, d2⟩ := abs_le.1 (e2.trans hL)
    obtain ⟨f1, f2⟩ := abs_le.1 h6
    obtain ⟨g1, g2⟩ := abs_le.1 h7
    have hr := R.rel (x := y + coord (endAt fl (computed l) j) i) (M := 4 * M)
      (by rw [abs_le]; constructor <;> linarith) (le_trans (by norm_num) (show 1 / 2 ^ 40 ≤ 4 * M by linarith))
    obtain ⟨k1, k2⟩ := abs_le.1 hr
    have e4 : (13 / 4 : ℝ) * (((j + 1 : ℕ) : ℝ) * D) = 13 / 4 * (j * D) + 13 / 4 * D := by
      push_cast
      ring
    rw [e4, abs_le]
    constructor <;> linarith

/-- The end lengths increase. -/
theorem Run.increasing {fl : ℝ → ℝ} (R : FloatRounding fl) (h : Run M v D ε κ N l)
    {j : ℕ} (hj : j < l.length) : lenAt fl (computed l) j + v ≤ lenAt fl (computed l) (j + 1) := by
  have a := h.len_near R (j := j) hj.le
  have b := h.len_near R (j := j + 1) hj
  have c := h.small (j := j + 1) hj
  have d := h.small (j := j) hj.le
  rw [lenTo_succ l j hj] at b
  have e := h.seg_long hj
  obtain ⟨a1, a2⟩ := abs_le.1 a
  obtain ⟨b1, b2⟩ := abs_le.1 b
  have := h.pos
  linarith

/-- A point at the length `pos`: it is on the `i`-th piece, at the length `x`. -/
theorem Run.point {fl : ℝ → ℝ} (R : FloatRounding fl) (h : Run M v D ε κ N l)
    {idx : ℕ} {pos : ℝ} (hf : FoundAt (glue fl (computed l)) pos idx) (h0 : 0 ≤ pos)
    (h1 : pos ≤ lenAt fl (computed l) l.length + D / 8) :
    ∃ i, ∃ hi : i < l.length, lenTo l i ≤ pos + v / 256 ∧ pos ≤ lenTo l (i + 1) + v / 256 ∧ (pos = 0 → i = 0) ∧
    ∃ x, |x - (pos - lenTo l i)| ≤ 9 / 8 * (N * D) ∧
    ∃ val u : Vec, concatValue fl (glue fl (computed l)) idx pos = some (val, u) ∧
    (∀ a, |coord u a - coord (l[i].shape.dir x) a| ≤ ε) ∧
    (∀ a, |coord val a - (sumTo l i a + coord (l[i].shape.pt (pos - lenTo l i)) a)| ≤ 53 / 8 * (N * D)) ∧
    (pos = 0 → val = ⟨0, 0⟩) := by
  have hne : computed l ≠ [] := by
    have := h.ne
    simpa [computed] using this
  have hv := h.pos
  obtain ⟨hi, hval⟩ := value_at fl (computed l) idx pos hne
  obtain ⟨f1, f2⟩ := found_at hne (fun j hj => by
    have := h.increasing R (j := j) (by rwa [computed_length] at hj)
    linarith) hf
  generalize min idx ((computed l).length - 1) = i at *
  have hi' : i < l.length := by rwa [computed_length] at hi
  have hn := h.near_at hi'
  have n0 := h.len_near R (j := i) hi'.le
  have n1 := h.len_near R (j := i + 1) hi'
  have s0 := h.small (j := i) hi'.le
  have s1 := h.small (j := i + 1) hi'
  have sl := h.seg_long hi'
  have sM := h.seg_le hi'
  have ls := lenTo_succ l i hi'
  have lM := h.len_le (j := i) hi'.le
  have lp := h.nonneg (j := i) hi'.le
  have hM := h.M_pos
  have ht := h.tiny
  have htol := h.tol
  have hD := h.D_le
  have hDp := h.D_pos
  have eg : (computed l)[i] = l[i].curve := by simp [computed]
  rw [eg] at hval
  obtain ⟨a1, a2⟩ := abs_le.1 n0
  obtain ⟨b1, b2⟩ := abs_le.1 n1
  have hiD : 0 ≤ (i : ℝ) * D := by positivity
  have p1 : lenTo l i ≤ pos + 9 / 8 * (i * D) := by
    rcases f1 with f1 | f1
    · rw [f1, lenTo_zero]; push_cast; linarith
    · linarith
  have p2 : pos ≤ lenTo l (i + 1) + 9 / 8 * (i * D) + 10 / 8 * D := by
    have e1 : (9 / 8 : ℝ) * (((i + 1 : ℕ) : ℝ) * D) = 9 / 8 * (i * D) + 9 / 8 * D := by
      push_cast
      ring
    rw [e1] at b1 b2
    rcases f2 with f2 | f2
    · rw [computed_length] at f2
      rw [← f2] at h1
      linarith
    · linarith
  have hx := R.rel (x := pos - lenAt fl (computed l) i) (M := 3 * M)
    (by rw [abs_le]; constructor <;> linarith) (le_trans (by norm_num) (show 1 / 2 ^ 40 ≤ 3 * M by linarith))
  obtain ⟨c1, c2⟩ := abs_le.1 hx
  set x := fl (pos - lenAt fl (computed l) i) with hxd
  have hiN : (i : ℝ) * D + D ≤ N * D := by
    have h3 : (i : ℝ) + 1 ≤ N := by
      have := h.count
      have : i + 1 ≤ N := by omega
      exact_mod_cast this
    nlinarith
  have e0 : |x - (pos - lenTo l i)| ≤ 9 / 8 * (i * D) + 3 / 64 * D := by
    rw [abs_le]; constructor <;> linarith
  have e0' : |x - (pos - lenTo l i)| ≤ 9 / 8 * (N * D) := e0.trans (by linarith)
  have hx1 : -(v / 100) ≤ x := by
    have := (abs_le.1 e0).1
    linarith
  have hx2 : x ≤ l[i].shape.len + v / 100 := by
    have := (abs_le.1 e0).2
    linarith
  have hi0 : pos = 0 → i = 0 := by
    intro hp
    rcases f1 with f1 | f1
    · exact f1
    · by_contra hne0
      have q := h.increasing R (j := i - 1) (by omega)
      have q1 := h.len_near R (j := i - 1) (by omega)
      have q2 := h.nonneg (j := i - 1) (by omega)
      have q3 := h.small (j := i - 1) (by omega)
      rw [show i - 1 + 1 = i by omega] at q
      have := (abs_le.1 q1).1
      linarith
  refine ⟨i, hi', by linarith, by linarith, hi0, x, e0', _, (l[i].curve.value x).2, hval, fun a => hn.dir x hx1 hx2 a, ?_, ?_⟩
  · intro a
    have e1 := hn.pt x hx1 hx2 a
    have e2 := ((h.smooth_at hi').lip a (pos - lenTo l i) x).trans e0
    have e3 := h.end_near R (j := i) hi'.le a
    have e4 := h.sum_le i hi'.le a
    have e5 := (h.smooth_at hi').le a x
    have e6 : coord (vadd fl (l[i].curve.value x).1 (endAt fl (computed l) i)) a =
        fl (coord (l[i].curve.value x).1 a + coord (endAt fl (computed l) i) a) := by
      cases a <;> rfl
    have e7 : |x| ≤ 2 * l[i].shape.len := by rw [abs_le]; constructor <;> linarith
    have e8 : beyond l[i].shape.len x ≤ 9 / 4 * (i * D) + 13 / 10 * D := by
      obtain ⟨x1, x2⟩ := abs_le.1 e0
      unfold beyond
      rw [max_le_iff, max_le_iff]
      refine ⟨?_, ?_, ?_⟩ <;> linarith
    rw [e6]
    generalize beyond l[i].shape.len x = bd at *
    generalize coord (l[i].curve.value x).1 a = y at *
    generalize coord (l[i].shape.pt x) a = z at *
    generalize coord (l[i].shape.pt (pos - lenTo l i)) a = z' at *
    obtain ⟨g1, g2⟩ := abs_le.1 e1
    obtain ⟨h1, h2⟩ := abs_le.1 e2
    obtain ⟨i1, i2⟩ := abs_le.1 e3
    obtain ⟨j1, j2⟩ := abs_le.1 e4
    obtain ⟨k1, k2⟩ := abs_le.1 (e5.trans e7)
    have hr := R.rel (x := y + coord (endAt fl (computed l) i) a) (M := 4 * M)
      (by rw [abs_le]; constructor <;> linarith) (le_trans (by norm_num) (show 1 / 2 ^ 40 ≤ 4 * M by linarith))
    obtain ⟨l1, l2⟩ := abs_le.1 hr
    rw [abs_le]
    constructor <;> linarith
  · intro hp
    have hi0 := hi0 hp
    have hx0 : x = 0 := by rw [hxd, hp, hi0, lenAt_zero, sub_zero, R.zero]
    rw [hx0, hn.start, hi0, endAt_zero]
    simp [vadd, R.zero]

/-! ### Ticks -/

theorem Run.chain {fl : ℝ → ℝ} (R : FloatRounding fl) (h : Run M v D ε κ N l) : Increasing (glue fl (computed l)) := by
  unfold Increasing
  rw [List.isChain_iff_getElem]
  intro j hj
  rw [glue_length] at hj
  have h1 := List.getElem_eq_iff (h := by rw [glue_length]; omega) |>.2 (glue_get fl (computed l) j (by omega))
  have h2 := List.getElem_eq_iff (h := by rw [glue_length]; omega) |>.2 (glue_get fl (computed l) (j + 1) (by omega))
  rw [h1, h2]
  have := h.increasing R (j := j + 1) (by rw [computed_length] at hj; omega)
  have := h.pos
  simp only
  linarith

theorem Run.total_near {fl : ℝ → ℝ} (R : FloatRounding fl) (h : Run M v D ε κ N l) :
    |lenAt fl (computed l) l.length - lenTo l l.length| ≤ v / 512 := by
  have h1 := h.len_near R (j := l.length) le_rfl
  have h2 := h.small (j := l.length) le_rfl
  have := h.pos
  refine h1.trans ?_
  linarith

theorem info_length (fl : ℝ → ℝ) (e : Env) (l : List Piece) :
    (concatInfo fl e (glue fl (computed l))).length = lenAt fl (computed l) l.length := by
  show (glue fl (computed l)).totalLength = _
  rw [glue_total, computed_length]

theorem Run.tick_count {fl : ℝ → ℝ} (R : FloatRounding fl) (h : Run M v D ε κ N l) (e : Env) :
    Draw.round (fl (lenAt fl (computed l) l.length / v)) = approxSteps fl (concatInfo fl e (glue fl (computed l))) v ∧
    |(approxSteps fl (concatInfo fl e (glue fl (computed l))) v : ℝ) - lenAt fl (computed l) l.length / v| ≤
      1 / 2 + 1 / 2 ^ 18 ∧
    2 ≤ approxSteps fl (concatInfo fl e (glue fl (computed l))) v ∧
    approxSteps fl (concatInfo fl e (glue fl (computed l))) v ≤ 2 ^ 31 := by
  have hv := h.pos
  have hl : 0 < l.length := List.length_pos_iff.2 h.ne
  have t := h.total_near R
  have t1 := h.total
  have t2 := h.ticks
  have t3 : 2 * v ≤ lenTo l l.length := by
    have a := h.mono (j := 1) hl le_rfl
    rw [lenTo_succ l 0 hl, lenTo_zero] at a
    have := h.seg_long hl
    linarith
  obtain ⟨u1, u2⟩ := abs_le.1 t
  set T := lenAt fl (computed l) l.length with hT
  have hc := count_near R (L := T) (ℓ := T) hv (by linarith) (by linarith) (by
    rw [sub_self, abs_zero]
    have : 0 < T := by linarith
    positivity)
  have q1 : 19 / 10 ≤ T / v := by rw [le_div_iff₀ hv]; linarith
  have q2 : T / v ≤ 2 ^ 30 := by rw [div_le_iff₀ hv]; linarith
  set n := Draw.round (fl (T / v)) with hn
  obtain ⟨a1, a2⟩ := abs_le.1 hc
  have h1 : (1 : ℝ) < n := by linarith
  have h2 : (n : ℝ) < 2 ^ 30 + 1 := by linarith
  have h1' : 1 < n := by exact_mod_cast h1
  have h2' : n < 2 ^ 30 + 1 := by exact_mod_cast h2
  have e1 : n = approxSteps fl (concatInfo fl e (glue fl (computed l))) v := by
    unfold approxSteps
    rw [info_length, ← hT, ← hn]
    unfold satI32
    rw [if_neg (by omega), if_neg (by omega)]
    omega
  refine ⟨e1, ?_, by omega, by omega⟩
  have : ((approxSteps fl (concatInfo fl e (glue fl (computed l))) v : ℤ) : ℝ) = n := by rw [e1]
  rw [Int.cast_natCast] at this
  rw [this]
  exact hc

/-- From a point to steps. -/
theorem scaled {fl : ℝ → ℝ} (R : FloatRounding fl) {y s F M g E : ℝ} (hy : |y - F| ≤ E)
    (hF : |F| ≤ 3 * M) (hs : |s| ≤ M) (hE : E ≤ M / 2) (hM : 1 / 2 ^ 40 ≤ M) (hg : 1 / 2 ^ 40 ≤ g)
    (hB : M * g ≤ 2 ^ 39) (hEg : E * g ≤ 7 / 512) : |fl (fl (y + s) * g) - (s + F) * g| ≤ 1 / 60 := by
  have hg0 : 0 < g := lt_of_lt_of_le (by norm_num) hg
  obtain ⟨a1, a2⟩ := abs_le.1 hy
  obtain ⟨b1, b2⟩ := abs_le.1 hF
  obtain ⟨c1, c2⟩ := abs_le.1 hs
  have hr := R.rel (x := y + s) (M := 5 * M)
    (by rw [abs_le]; constructor <;> linarith) (le_trans (by norm_num) (show 1 / 2 ^ 40 ≤ 5 * M by linarith))
  obtain ⟨l1, l2⟩ := abs_le.1 hr
  generalize fl (y + s) = Y at *
  have e7 : |Y - (s + F)| ≤ E + 5 * M / 2 ^ 52 := by
    rw [abs_le]; constructor <;> linarith
  obtain ⟨m1, m2⟩ := abs_le.1 e7
  have hY2 : |Y| ≤ 6 * M := by rw [abs_le]; constructor <;> linarith
  have hMg : 1 / 2 ^ 40 * (1 / 2 ^ 40) ≤ M * g := mul_le_mul hM hg (by norm_num) (by linarith)
  have e8 := R.rel (x := Y * g) (M := 6 * (M * g)) (by
      rw [abs_mul, abs_of_pos hg0, ← mul_assoc]
      exact mul_le_mul_of_nonneg_right hY2 hg0.le)
    (by
      refine le_trans ?_ (show 1 / 2 ^ 40 * (1 / 2 ^ 40) ≤ 6 * (M * g) by linarith)
      norm_num)
  have e9 : |Y * g - (s + F) * g| ≤ E * g + 5 * (M * g) / 2 ^ 52 := by
    rw [← sub_mul, abs_mul, abs_of_pos hg0]
    exact (mul_le_mul_of_nonneg_right e7 hg0.le).trans (le_of_eq (by ring))
  obtain ⟨o1, o2⟩ := abs_le.1 e8
  obtain ⟨r1, r2⟩ := abs_le.1 e9
  rw [abs_le]
  constructor <;> linarith

/-- The computed speed. -/
theorem speed_at {fl : ℝ → ℝ} (R : FloatRounding fl) {u w v g ε : ℝ} (hu : |u - w| ≤ ε) (hw : |w| ≤ 1) (hε : ε ≤ 1 / 2)
    (hv : 1 / 2 ^ 80 ≤ v) (hg : 1 / 2 ^ 80 ≤ g) (hB : v * g ≤ 2 ^ 31) (hεg : ε * v * g ≤ 1 / 2 ^ 16) :
    |fl (fl (u * v) * fl (g / 2)) - w * v * g / 2| ≤ 1 / 2 ^ 15 := by
  have hv0 : 0 < v := lt_of_lt_of_le (by norm_num) hv
  have hg0 : 0 < g := lt_of_lt_of_le (by norm_num) hg
  have hu2 : |u| ≤ 3 / 2 := by
    obtain ⟨a1, a2⟩ := abs_le.1 hu
    obtain ⟨b1, b2⟩ := abs_le.1 hw
    rw [abs_le]; constructor <;> linarith
  have hε0 : 0 ≤ ε := (abs_nonneg _).trans hu
  have e1 : |u * v * (g / 2) - w * v * g / 2| ≤ ε * v * g / 2 := by
    rw [show u * v * (g / 2) - w * v * g / 2 = (u - w) * (v * g / 2) by ring, abs_mul,
      abs_of_pos (show 0 < v * g / 2 by positivity)]
    exact (mul_le_mul_of_nonneg_right hu (by positivity)).trans (le_of_eq (by ring))
  have huv : |u * v| ≤ 2 * v := by
    rw [abs_mul, abs_of_pos hv0]
    exact mul_le_mul_of_nonneg_right (by linarith) hv0.le
  have e2 := R.rel (x := u * v) (M := 2 * v) huv (by refine le_trans ?_ (show 1 / 2 ^ 80 ≤ 2 * v by linarith); norm_num)
  have e4 := R.rel (x := g / 2) (M := g) (by rw [abs_of_pos (by positivity)]; linarith)
    (by refine le_trans ?_ hg; norm_num)
  set W := fl (u * v) with hW
  set G := fl (g / 2) with hG
  have hGg : |G| ≤ g := by
    obtain ⟨d1, d2⟩ := abs_le.1 e4
    rw [abs_le]; constructor <;> linarith
  have hWv : |W| ≤ 3 * v := by
    obtain ⟨d1, d2⟩ := abs_le.1 e2
    obtain ⟨b1, b2⟩ := abs_le.1 huv
    rw [abs_le]; constructor <;> linarith
  have e5 : |W * G - u * v * (g / 2)| ≤ 4 * (v * g) / 2 ^ 52 := by
    have q1 : |(W - u * v) * G| ≤ 2 * (v * g) / 2 ^ 52 := by
      rw [abs_mul]
      exact (mul_le_mul e2 hGg (abs_nonneg _) (by positivity)).trans (le_of_eq (by ring))
    have q2 : |u * v * (G - g / 2)| ≤ 2 * (v * g) / 2 ^ 52 := by
      rw [abs_mul]
      exact (mul_le_mul huv e4 (abs_nonneg _) (by positivity)).trans (le_of_eq (by ring))
    rw [show W * G - u * v * (g / 2) = (W - u * v) * G + u * v * (G - g / 2) by ring]
    refine (abs_add_le _ _).trans ?_
    linarith
  have e6 := R.rel (x := W * G) (M := 3 * (v * g)) (by
      rw [abs_mul]
      exact (mul_le_mul hWv hGg (abs_nonneg _) (by positivity)).trans (le_of_eq (by ring)))
    (by
      have : 1 / 2 ^ 80 * (1 / 2 ^ 80) ≤ v * g := mul_le_mul hv hg (by norm_num) hv0.le
      refine le_trans ?_ (show 1 / 2 ^ 80 * (1 / 2 ^ 80) ≤ 3 * (v * g) by
        have : 0 ≤ v * g := by positivity
        linarith)
      norm_num)
  obtain ⟨a1, a2⟩ := abs_le.1 e1
  obtain ⟨b1, b2⟩ := abs_le.1 e5
  obtain ⟨c1, c2⟩ := abs_le.1 e6
  rw [abs_le]; constructor <;> linarith

/-- Where the axis should be after `k` ticks, and how fast. -/
theorem Run.tick {fl : ℝ → ℝ} (R : FloatRounding fl) (h : Run M v D ε κ N l)
    {e : Env} (hf : Searches e) {start : Vec} {a : Axis}
    (hs : |coord start a| ≤ M) (hg : 1 / 2 ^ 40 ≤ e.stepScale a) (hB : M * e.stepScale a ≤ 2 ^ 39)
    (hDg : N * D * e.stepScale a ≤ 1 / 1024) (hε : ε ≤ 1 / 2) (hεg : ε * v * e.stepScale a ≤ 1 / 2 ^ 16)
    (hvg : v * e.stepScale a ≤ 2 ^ 31) {k n : ℕ}
    (hn : approxSteps fl (concatInfo fl e (glue fl (computed l))) v = n) (hk : k ≤ n) :
    ∃ i, ∃ hi : i < l.length, lenTo l i ≤ k * (lenAt fl (computed l) l.length / n) + v / 250 ∧
      k * (lenAt fl (computed l) l.length / n) ≤ lenTo l (i + 1) + v / 250 ∧
      |floatPos fl e start (concatInfo fl e (glue fl (computed l))) v a k -
        (coord start a + (sumTo l i a + coord (l[i].shape.pt
          (k * (lenAt fl (computed l) l.length / n) - lenTo l i)) a)) * e.stepScale a| ≤ 1 / 60 ∧
      |floatVel fl e (concatInfo fl e (glue fl (computed l))) v a k -
        coord (l[i].shape.dir (k * (lenAt fl (computed l) l.length / n) - lenTo l i)) a * v * e.stepScale a / 2| ≤
          1 / 2 ^ 15 + κ * v * v * e.stepScale a / 1024 ∧
      (k = 0 → i = 0 ∧ floatPos fl e start (concatInfo fl e (glue fl (computed l))) v a k =
        fl (fl (coord start a) * e.stepScale a)) := by
  obtain ⟨c1, c2, c3, c4⟩ := h.tick_count R e
  rw [hn] at c1 c2 c3 c4
  have hv := h.pos
  have ht := h.tiny
  have htot := h.total_near R
  have htM := h.total
  have hMt := h.ticks
  have hMv := h.M_pos
  have htol := h.tol
  have hDp := h.D_pos
  have hfine := h.fine
  have hκ := h.bend
  have hN := h.N_pos
  set T := lenAt fl (computed l) l.length with hT
  set g := e.stepScale a with hgd
  have hg0 : 0 < g := lt_of_lt_of_le (by norm_num) hg
  obtain ⟨t1, t2⟩ := abs_le.1 htot
  obtain ⟨d1, d2, d3, d4⟩ := tick_near R c3 c4 hk c2 ht (M := M) (by linarith) hMt
  have hDN : D ≤ N * D := le_mul_of_one_le_left hDp.le hN
  have kt : k * (T / n) ≤ T := by
    have hnp : (0 : ℝ) < n := by
      have : 0 < n := by omega
      exact_mod_cast this
    have hkr : (k : ℝ) ≤ n := by exact_mod_cast hk
    have hT0 : 0 ≤ T := by
      have h0 : 0 < l.length := List.length_pos_iff.2 h.ne
      have a := h.mono (j := 1) h0 le_rfl
      rw [lenTo_succ l 0 h0, lenTo_zero] at a
      have := h.seg_long h0
      linarith
    rw [mul_div_assoc', div_le_iff₀ hnp]
    nlinarith
  obtain ⟨p1, p2⟩ := abs_le.1 d2
  obtain ⟨i, hi, q1, q2, q3, x, hx, val, u, hval, hu, hpt, hz⟩ := h.point R
    (hf _ (h.chain R) (fl (k * fl (T / n)))) d3 (by linarith)
  set pos := fl (k * fl (T / n)) with hpos
  have hv1 : (concatInfo fl e (glue fl (computed l))).value pos = (val, u) := by
    simp only [concatInfo]
    rw [hval]
    rfl
  have eP : floatPos fl e start (concatInfo fl e (glue fl (computed l))) v a k =
      fl (fl (coord val a + coord start a) * g) := by
    unfold floatPos
    rw [info_length, ← hT, c1, Int.cast_natCast, ← hpos, hv1]
  have eV : floatVel fl e (concatInfo fl e (glue fl (computed l))) v a k = fl (fl (coord u a * v) * fl (g / 2)) := by
    unfold floatVel
    rw [info_length, ← hT, c1, Int.cast_natCast, ← hpos, hv1]
  refine ⟨i, hi, by linarith, by linarith, ?_, ?_, ?_⟩
  · rw [eP]
    have e1 := hpt a
    have e2 := (h.smooth_at hi).lip a (k * (T / n) - lenTo l i) (pos - lenTo l i)
    rw [show pos - lenTo l i - (k * (T / n) - lenTo l i) = pos - k * (T / n) by ring] at e2
    have e3 := h.sum_le i hi.le a
    have e4 := h.len_le (j := i) hi.le
    have e5 := (h.smooth_at hi).le a (k * (T / n) - lenTo l i)
    have e5' : |k * (T / n) - lenTo l i| ≤ M + v := by
      have := lenTo_succ l i hi
      have := h.seg_le hi
      have := h.nonneg hi.le
      rw [abs_le]; constructor <;> linarith
    have e6 : |coord val a - (sumTo l i a + coord (l[i].shape.pt (k * (T / n) - lenTo l i)) a)| ≤ 27 / 4 * (N * D) := by
      have := abs_sub_le (coord val a) (sumTo l i a + coord (l[i].shape.pt (pos - lenTo l i)) a)
        (sumTo l i a + coord (l[i].shape.pt (k * (T / n) - lenTo l i)) a)
      rw [add_sub_add_left_eq_sub] at this
      linarith
    have e7 : |sumTo l i a + coord (l[i].shape.pt (k * (T / n) - lenTo l i)) a| ≤ 3 * M := by
      refine (abs_add_le _ _).trans ?_
      linarith
    exact scaled R e6 e7 hs (by linarith) (by linarith) hg hB (by linarith)
  · rw [eV]
    have e1 := speed_at R (hu a) ((h.smooth_at hi).dir_le a x) hε (le_trans (by norm_num) ht) (le_trans (by norm_num) hg) hvg hεg
    have e2 := (h.smooth_at hi).bends a x (k * (T / n) - lenTo l i)
    have e3 : |x - (k * (T / n) - lenTo l i)| ≤ v / 512 := by
      obtain ⟨x1, x2⟩ := abs_le.1 hx
      rw [abs_le]; constructor <;> linarith
    have e4 : |coord (l[i].shape.dir x) a * v * g / 2 - coord (l[i].shape.dir (k * (T / n) - lenTo l i)) a * v * g / 2| ≤
        κ * v * v * g / 1024 := by
      rw [show coord (l[i].shape.dir x) a * v * g / 2 - coord (l[i].shape.dir (k * (T / n) - lenTo l i)) a * v * g / 2 =
        (coord (l[i].shape.dir x) a - coord (l[i].shape.dir (k * (T / n) - lenTo l i)) a) * (v * g / 2) by ring, abs_mul,
        abs_of_pos (show 0 < v * g / 2 by positivity)]
      calc _ ≤ κ * (v / 512) * (v * g / 2) := by
            apply mul_le_mul_of_nonneg_right _ (by positivity)
            exact e2.trans (mul_le_mul_of_nonneg_left e3 hκ)
        _ = _ := by ring
    obtain ⟨a1, a2⟩ := abs_le.1 e1
    obtain ⟨b1, b2⟩ := abs_le.1 e4
    rw [abs_le]; constructor <;> linarith
  · intro h0
    have hp0 := d4 h0
    refine ⟨q3 hp0, ?_⟩
    rw [eP, hz hp0]
    cases a <;> simp [coord, hgd]

end

end StepperPaths.Rounded.CurvePath
