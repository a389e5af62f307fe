import Verif.Proof.RoundedPath
import Verif.Proof.RoundedReturns

/-! Lines joined with rounding: how far the computed points are from the given ones. -/

namespace StepperPaths.Rounded
open Coords Curves Context IntegerCurve Spec Props Draw

/-! ### `ConcatCurve` -/

/-- The end of the curves added so far. -/
def endOf (c : Concat) : Vec :=
  match c.getLast? with
  | none => ⟨0, 0⟩
  | some seg => seg.endCoord

theorem concatAdd_eq (fl : ℝ → ℝ) (c : Concat) (k : Curve) :
    concatAdd fl c k = c ++ [⟨vadd fl (k.value k.length).1 (endOf c), fl (k.length + c.totalLength), k⟩] := rfl

/-- Length and end of the first `j` curves. -/
noncomputable def lenAt (fl : ℝ → ℝ) (cs : List Curve) (j : ℕ) : ℝ := (glue fl (cs.take j)).totalLength
noncomputable def endAt (fl : ℝ → ℝ) (cs : List Curve) (j : ℕ) : Vec := endOf (glue fl (cs.take j))

theorem glue_append (fl : ℝ → ℝ) (cs : List Curve) (k : Curve) :
    glue fl (cs ++ [k]) = concatAdd fl (glue fl cs) k := by
  simp [glue]

theorem take_succ_get {α : Type*} (l : List α) (j : ℕ) (h : j < l.length) : l.take (j + 1) = l.take j ++ [l[j]] := by
  rw [List.take_add_one, List.getElem?_eq_getElem h]
  rfl

theorem lenAt_zero (fl : ℝ → ℝ) (cs : List Curve) : lenAt fl cs 0 = 0 := by
  simp [lenAt, glue, Concat.totalLength]

theorem endAt_zero (fl : ℝ → ℝ) (cs : List Curve) : endAt fl cs 0 = ⟨0, 0⟩ := by
  simp [endAt, glue, endOf]

theorem lenAt_succ (fl : ℝ → ℝ) (cs : List Curve) (j : ℕ) (h : j < cs.length) :
    lenAt fl cs (j + 1) = fl (cs[j].length + lenAt fl cs j) := by
  unfold lenAt
  rw [take_succ_get cs j h, glue_append, concatAdd_eq]
  simp [Concat.totalLength]

theorem endAt_succ (fl : ℝ → ℝ) (cs : List Curve) (j : ℕ) (h : j < cs.length) :
    endAt fl cs (j + 1) = vadd fl (cs[j].value cs[j].length).1 (endAt fl cs j) := by
  unfold endAt
  rw [take_succ_get cs j h, glue_append, concatAdd_eq]
  simp [endOf]

theorem glue_length (fl : ℝ → ℝ) (cs : List Curve) : (glue fl cs).length = cs.length := by
  induction cs using List.reverseRecOn with
  | nil => rfl
  | append_singleton cs k ih => rw [glue_append, concatAdd_eq]; simp [ih]

theorem glue_get (fl : ℝ → ℝ) (cs : List Curve) (j : ℕ) (h : j < cs.length) :
    (glue fl cs)[j]? = some ⟨endAt fl cs (j + 1), lenAt fl cs (j + 1), cs[j]⟩ := by
  induction cs using List.reverseRecOn with
  | nil => simp at h
  | append_singleton cs k ih =>
    rw [glue_append, concatAdd_eq]
    by_cases hj : j < cs.length
    · rw [List.getElem?_append_left (by rw [glue_length]; exact hj), ih hj]
      simp only [List.getElem_append_left hj]
      unfold endAt lenAt
      rw [List.take_append_of_le_length (by omega)]
    · have e1 : j = cs.length := by simp at h; omega
      subst e1
      rw [List.getElem?_append_right (by rw [glue_length])]
      simp only [glue_length, Nat.sub_self, List.getElem?_cons_zero]
      unfold endAt lenAt
      rw [show (cs ++ [k]).take (cs.length + 1) = cs ++ [k] by simp, glue_append, concatAdd_eq]
      simp [endOf, Concat.totalLength]

theorem glue_total (fl : ℝ → ℝ) (cs : List Curve) : (glue fl cs).totalLength = lenAt fl cs cs.length := by
  unfold lenAt
  rw [List.take_length]

/-- `ConcatCurve::value` when the search answers `idx`. -/
theorem value_at (fl : ℝ → ℝ) (cs : List Curve) (idx : ℕ) (pos : ℝ) (hne : cs ≠ []) :
    ∃ h : min idx (cs.length - 1) < cs.length,
    concatValue fl (glue fl cs) idx pos = some
      (vadd fl (cs[min idx (cs.length - 1)].value (fl (pos - lenAt fl cs (min idx (cs.length - 1))))).1
        (endAt fl cs (min idx (cs.length - 1))),
       (cs[min idx (cs.length - 1)].value (fl (pos - lenAt fl cs (min idx (cs.length - 1))))).2) := by
  have h0 : 0 < cs.length := List.length_pos_iff.2 hne
  have h : min idx (cs.length - 1) < cs.length := by omega
  refine ⟨h, ?_⟩
  generalize hi : min idx (cs.length - 1) = i at *
  unfold concatValue
  simp only [glue_length, hi]
  rw [if_neg (by omega), glue_get fl cs i h]
  simp only [Option.bind_eq_bind, Option.bind_some]
  by_cases hi0 : i > 0
  · rw [if_pos hi0, glue_get fl cs (i - 1) (by omega)]
    simp only [Option.bind_some, show i - 1 + 1 = i by omega]
    rfl
  · rw [if_neg hi0]
    obtain rfl : i = 0 := by omega
    simp only [lenAt_zero, endAt_zero]
    rfl

/-- The end lengths increase. -/
def Increasing (K : Concat) : Prop := List.IsChain (fun a b => a.endLen < b.endLen) K

/-- Where the search leads. -/
theorem found_at {fl : ℝ → ℝ} {cs : List Curve} {idx : ℕ} {pos : ℝ} (hne : cs ≠ [])
    (hinc : ∀ j < cs.length, lenAt fl cs j < lenAt fl cs (j + 1)) (hf : FoundAt (glue fl cs) pos idx) :
    (min idx (cs.length - 1) = 0 ∨ lenAt fl cs (min idx (cs.length - 1)) < pos) ∧
    (min idx (cs.length - 1) + 1 = cs.length ∨ pos ≤ lenAt fl cs (min idx (cs.length - 1) + 1)) := by
  have h0 : 0 < cs.length := List.length_pos_iff.2 hne
  rcases hf with ⟨s, h1, h2⟩ | ⟨h1, h2, h3⟩
  · have hl : idx < cs.length := by
      by_contra hc
      rw [List.getElem?_eq_none (by rw [glue_length]; omega)] at h1
      cases h1
    rw [glue_get fl cs idx hl] at h1
    cases h1
    simp only at h2
    rw [show min idx (cs.length - 1) = idx by omega, ← h2]
    exact ⟨.inr (hinc idx hl), .inr le_rfl⟩
  · rw [glue_length] at h1
    constructor
    · by_cases hi : min idx (cs.length - 1) = 0
      · exact .inl hi
      · right
        have := h2 (min idx (cs.length - 1) - 1) _ (by omega) (glue_get fl cs _ (by omega))
        simp only at this
        rwa [show min idx (cs.length - 1) - 1 + 1 = min idx (cs.length - 1) by omega] at this
    · by_cases hi : min idx (cs.length - 1) + 1 = cs.length
      · exact .inl hi
      · right
        have := h3 (min idx (cs.length - 1)) _ (by omega) (glue_get fl cs _ (by omega))
        exact this.le

/-! ### Lines -/

/-- The length of a line, and the length and the vector of the first `j` lines. -/
noncomputable def segLen (x : Vec × Vec) : ℝ := (x.2 - x.1).length
noncomputable def lenTo (l : List (Vec × Vec)) (j : ℕ) : ℝ := ((l.take j).map segLen).sum
noncomputable def sumTo (l : List (Vec × Vec)) (j : ℕ) (i : Axis) : ℝ :=
  ((l.take j).map (fun x => coord (x.2 - x.1) i)).sum

/-- The lines as curves. -/
noncomputable def asLines (fl : ℝ → ℝ) (l : List (Vec × Vec)) : List Curve := l.map (fun x => line fl (vsub fl x.2 x.1))

theorem lenTo_zero (l : List (Vec × Vec)) : lenTo l 0 = 0 := by simp [lenTo]
theorem sumTo_zero (l : List (Vec × Vec)) (i : Axis) : sumTo l 0 i = 0 := by simp [sumTo]

theorem lenTo_succ (l : List (Vec × Vec)) (j : ℕ) (h : j < l.length) : lenTo l (j + 1) = lenTo l j + segLen l[j] := by
  unfold lenTo
  rw [take_succ_get l j h, List.map_append, List.sum_append, List.map_singleton, List.sum_singleton]

theorem sumTo_succ (l : List (Vec × Vec)) (j : ℕ) (h : j < l.length) (i : Axis) :
    sumTo l (j + 1) i = sumTo l j i + coord (l[j].2 - l[j].1) i := by
  unfold sumTo
  rw [take_succ_get l j h, List.map_append, List.sum_append, List.map_singleton, List.sum_singleton]

theorem segLen_nonneg (x : Vec × Vec) : 0 ≤ segLen x := Real.sqrt_nonneg _

theorem lenTo_mono (l : List (Vec × Vec)) {j k : ℕ} (h : j ≤ k) (hk : k ≤ l.length) : lenTo l j ≤ lenTo l k := by
  induction k, h using Nat.le_induction with
  | base => exact le_rfl
  | succ k _ ih =>
    rw [lenTo_succ l k (by omega)]
    have := ih (by omega)
    have := segLen_nonneg l[k]
    linarith

theorem sumTo_le (l : List (Vec × Vec)) (j : ℕ) (h : j ≤ l.length) (i : Axis) : |sumTo l j i| ≤ lenTo l j := by
  induction j with
  | zero => rw [sumTo_zero, lenTo_zero, abs_zero]
  | succ j ih =>
    rw [sumTo_succ l j (by omega), lenTo_succ l j (by omega)]
    refine (abs_add_le _ _).trans (add_le_add (ih (by omega)) (le_length _ _))

/-- Lines that are joined: at most `N`, each at least two ticks long, all together at most `M` long. -/
structure Run (fl : ℝ → ℝ) (M v : ℝ) (N : ℕ) (l : List (Vec × Vec)) : Prop where
  ne : l ≠ []
  count : l.length ≤ N
  tiny : 1 / 2 ^ 40 ≤ v
  long : ∀ x ∈ l, 2 * v ≤ segLen x
  total : lenTo l l.length ≤ M
  ticks : M ≤ 2 ^ 29 * v
  fine : N * M ≤ 2 ^ 39 * v

theorem Run.pos {fl : ℝ → ℝ} {M v : ℝ} {N : ℕ} {l : List (Vec × Vec)} (h : Run fl M v N l) : 0 < v :=
  lt_of_lt_of_le (by norm_num) h.tiny

theorem Run.len_le {fl : ℝ → ℝ} {M v : ℝ} {N : ℕ} {l : List (Vec × Vec)} (h : Run fl M v N l) {j : ℕ}
    (hj : j ≤ l.length) : lenTo l j ≤ M := (lenTo_mono l hj le_rfl).trans h.total

theorem lenTo_nonneg (l : List (Vec × Vec)) {j : ℕ} (hj : j ≤ l.length) : 0 ≤ lenTo l j := by
  rw [← lenTo_zero l]
  exact lenTo_mono l (Nat.zero_le _) hj

theorem Run.seg_le {fl : ℝ → ℝ} {M v : ℝ} {N : ℕ} {l : List (Vec × Vec)} (h : Run fl M v N l) {j : ℕ}
    (hj : j < l.length) : segLen l[j] ≤ M := by
  have h1 := h.len_le (j := j + 1) hj
  rw [lenTo_succ l j hj] at h1
  have := lenTo_nonneg l hj.le
  linarith

theorem Run.seg_long {fl : ℝ → ℝ} {M v : ℝ} {N : ℕ} {l : List (Vec × Vec)} (h : Run fl M v N l) {j : ℕ}
    (hj : j < l.length) : 2 * v ≤ segLen l[j] := h.long _ (List.getElem_mem hj)

theorem Run.M_pos {fl : ℝ → ℝ} {M v : ℝ} {N : ℕ} {l : List (Vec × Vec)} (h : Run fl M v N l) : 2 * v ≤ M := by
  have h0 : 0 < l.length := List.length_pos_iff.2 h.ne
  exact (h.seg_long h0).trans (h.seg_le h0)

/-- The accumulated rounding errors are small. -/
theorem Run.small {fl : ℝ → ℝ} {M v : ℝ} {N : ℕ} {l : List (Vec × Vec)} (h : Run fl M v N l) {j : ℕ}
    (hj : j ≤ l.length) : (j : ℝ) * M / 2 ^ 52 ≤ v / 2 ^ 13 := by
  have h1 : (j : ℝ) * M ≤ N * M := by
    have := h.M_pos
    have := h.pos
    apply mul_le_mul_of_nonneg_right _ (by linarith)
    exact_mod_cast hj.trans h.count
  have h2 := h1.trans h.fine
  rw [div_le_iff₀ (by norm_num)]
  refine h2.trans (le_of_eq (by ring))

/-- One line: its computed length and direction. -/
theorem Run.line {fl : ℝ → ℝ} (R : FloatRounding fl) {M v : ℝ} {N : ℕ} {l : List (Vec × Vec)} (h : Run fl M v N l)
    {j : ℕ} (hj : j < l.length) :
    ∃ hj' : j < (asLines fl l).length,
    |(asLines fl l)[j].length - segLen l[j]| ≤ 9 * segLen l[j] / 2 ^ 52 ∧
    ∃ u : Vec, (∀ i, |coord u i - coord (l[j].2 - l[j].1) i / segLen l[j]| ≤ 13 / 2 ^ 52) ∧
      ∀ x, (asLines fl l)[j].value x = (vmul fl u x, u) := by
  have hl : 1 / 2 ^ 40 ≤ (l[j].2 - l[j].1).length := by
    have h1 := h.seg_long hj
    have h2 := h.tiny
    unfold segLen at h1
    linarith
  obtain ⟨h1, h2⟩ := line_near R hl
  refine ⟨by simpa [asLines] using hj, ?_, vunit fl (vsub fl l[j].2 l[j].1), h2, fun x => ?_⟩
  · simp only [asLines, List.getElem_map, Rounded.line]
    exact h1
  · have hne : vlength fl (vsub fl l[j].2 l[j].1) ≠ 0 := by
      have h3 := (abs_le.1 h1).1
      have : 0 < vlength fl (vsub fl l[j].2 l[j].1) := by
        have : (0 : ℝ) < (l[j].2 - l[j].1).length := lt_of_lt_of_le (by norm_num) hl
        linarith
      exact this.ne'
    simp [asLines, Rounded.line, hne]

theorem dir_le {x : Vec × Vec} (i : Axis) : |coord (x.2 - x.1) i / segLen x| ≤ 1 := by
  rw [abs_div, abs_of_nonneg (segLen_nonneg x)]
  exact div_le_one_of_le₀ (le_length _ _) (segLen_nonneg x)

/-- A point of one line. -/
theorem on_line {fl : ℝ → ℝ} (R : FloatRounding fl) {ℓ u w x : ℝ} (h : 1 / 2 ^ 40 ≤ ℓ) (hw : |w| ≤ 1)
    (hu : |u - w| ≤ 13 / 2 ^ 52) (hx : |x| ≤ 2 * ℓ) : |fl (u * x) - w * x| ≤ 30 * ℓ / 2 ^ 52 := by
  have e1 : |u * x - w * x| ≤ 26 * ℓ / 2 ^ 52 := by
    rw [← sub_mul, abs_mul]
    exact (mul_le_mul hu hx (abs_nonneg _) (by norm_num)).trans (le_of_eq (by ring))
  have e2 : |w * x| ≤ 2 * ℓ := by
    rw [abs_mul]
    exact (mul_le_mul hw hx (abs_nonneg _) (by norm_num)).trans (by rw [one_mul])
  obtain ⟨a1, a2⟩ := abs_le.1 e1
  obtain ⟨b1, b2⟩ := abs_le.1 e2
  have h0 : 0 < ℓ := lt_of_lt_of_le (by norm_num) h
  have e3 := R.rel (x := u * x) (M := 4 * ℓ) (by rw [abs_le]; constructor <;> linarith)
    (le_trans (by norm_num) (show 1 / 2 ^ 40 ≤ 4 * ℓ by linarith))
  obtain ⟨c1, c2⟩ := abs_le.1 e3
  rw [abs_le]
  constructor <;> linarith

theorem asLines_length (fl : ℝ → ℝ) (l : List (Vec × Vec)) : (asLines fl l).length = l.length := by simp [asLines]

theorem Run.len_near {fl : ℝ → ℝ} (R : FloatRounding fl) {M v : ℝ} {N : ℕ} {l : List (Vec × Vec)} (h : Run fl M v N l)
    {j : ℕ} (hj : j ≤ l.length) : |lenAt fl (asLines fl l) j - lenTo l j| ≤ 12 * (j * M / 2 ^ 52) := by
  induction j with
  | zero => rw [lenAt_zero, lenTo_zero]; simp
  | succ j ih =>
    have ih := ih (by omega)
    obtain ⟨hj', hL, -⟩ := h.line R (j := j) hj
    have hM := h.M_pos
    have hv := h.pos
    have hs := h.small (j := j) (by omega)
    have h1 := h.len_le (j := j) (by omega)
    have h2 := lenTo_nonneg l (j := j) (by omega)
    have h3 := h.seg_le (j := j) hj
    have h4 := segLen_nonneg l[j]
    have h5 := h.tiny
    rw [lenAt_succ fl _ j hj', lenTo_succ l j hj]
    obtain ⟨a1, a2⟩ := abs_le.1 ih
    obtain ⟨b1, b2⟩ := abs_le.1 hL
    have hr := R.rel (x := (asLines fl l)[j].length + lenAt fl (asLines fl l) j) (M := 3 * M)
      (by rw [abs_le]; constructor <;> linarith) (le_trans (by norm_num) (show 1 / 2 ^ 40 ≤ 3 * M by linarith))
    obtain ⟨c1, c2⟩ := abs_le.1 hr
    have e1 : (12 : ℝ) * (((j + 1 : ℕ) : ℝ) * M / 2 ^ 52) = 12 * (j * M / 2 ^ 52) + 12 * M / 2 ^ 52 := by
      push_cast
      ring
    rw [e1, abs_le]
    constructor <;> linarith

theorem Run.end_near {fl : ℝ → ℝ} (R : FloatRounding fl) {M v : ℝ} {N : ℕ} {l : List (Vec × Vec)} (h : Run fl M v N l)
    {j : ℕ} (hj : j ≤ l.length) (i : Axis) :
    |coord (endAt fl (asLines fl l) j) i - sumTo l j i| ≤ 44 * (j * M / 2 ^ 52) := by
  induction j with
  | zero => rw [endAt_zero, sumTo_zero]; cases i <;> simp [coord]
  | succ j ih =>
    have ih := ih (by omega)
    obtain ⟨hj', hL, u, hu, hv'⟩ := h.line R (j := j) hj
    have hM := h.M_pos
    have hv := h.pos
    have hs := h.small (j := j) (by omega)
    have h1 := h.len_le (j := j) (by omega)
    have h3 := h.seg_le (j := j) hj
    have h4 := h.seg_long (j := j) hj
    have h5 := h.tiny
    have h6 := sumTo_le l j (by omega) i
    have h7 := le_length (l[j].2 - l[j].1) i
    have h8 : segLen l[j] ≠ 0 := by linarith
    rw [endAt_succ fl _ j hj', sumTo_succ l j hj, hv']
    obtain ⟨b1, b2⟩ := abs_le.1 hL
    generalize hΛ : (asLines fl l)[j].length = L at *
    have e1 := on_line R (ℓ := segLen l[j]) (x := L) (by linarith) (dir_le (x := l[j]) i) (hu i)
      (by rw [abs_le]; constructor <;> linarith)
    have e2 : |coord (l[j].2 - l[j].1) i / segLen l[j] * L - coord (l[j].2 - l[j].1) i| ≤ 9 * segLen l[j] / 2 ^ 52 := by
      rw [show coord (l[j].2 - l[j].1) i / segLen l[j] * L - coord (l[j].2 - l[j].1) i =
        coord (l[j].2 - l[j].1) i / segLen l[j] * (L - segLen l[j]) by field_simp, abs_mul]
      exact (mul_le_mul (dir_le i) hL (abs_nonneg _) (by norm_num)).trans (by rw [one_mul])
    have h7' : |coord (l[j].2 - l[j].1) i| ≤ segLen l[j] := h7
    generalize hD : coord (l[j].2 - l[j].1) i = D at *
    have e3 : coord (vadd fl (vmul fl u L) (endAt fl (asLines fl l) j)) i =
        fl (fl (coord u i * L) + coord (endAt fl (asLines fl l) j) i) := by
      cases i <;> rfl
    rw [e3]
    obtain ⟨a1, a2⟩ := abs_le.1 ih
    obtain ⟨c1, c2⟩ := abs_le.1 e1
    obtain ⟨d1, d2⟩ := abs_le.1 e2
    obtain ⟨f1, f2⟩ := abs_le.1 h6
    obtain ⟨g1, g2⟩ := abs_le.1 h7'
    have hr := R.rel (x := fl (coord u i * L) + coord (endAt fl (asLines fl l) j) i) (M := 4 * M)
      (by rw [abs_le]; constructor <;> linarith) (le_trans (by norm_num) (show 1 / 2 ^ 40 ≤ 4 * M by linarith))
    obtain ⟨k1, k2⟩ := abs_le.1 hr
    have e4 : (44 : ℝ) * (((j + 1 : ℕ) : ℝ) * M / 2 ^ 52) = 44 * (j * M / 2 ^ 52) + 44 * M / 2 ^ 52 := by
      push_cast
      ring
    rw [e4, abs_le]
    constructor <;> linarith

/-- The end lengths increase. -/
theorem Run.increasing {fl : ℝ → ℝ} (R : FloatRounding fl) {M v : ℝ} {N : ℕ} {l : List (Vec × Vec)} (h : Run fl M v N l)
    {j : ℕ} (hj : j < l.length) : lenAt fl (asLines fl l) j + v ≤ lenAt fl (asLines fl l) (j + 1) := by
  have a := h.len_near R (j := j) hj.le
  have b := h.len_near R (j := j + 1) hj
  have c := h.small (j := j + 1) hj
  have d := h.small (j := j) hj.le
  rw [lenTo_succ l j hj] at b
  have e := h.seg_long hj
  obtain ⟨a1, a2⟩ := abs_le.1 a
  obtain ⟨b1, b2⟩ := abs_le.1 b
  have := h.pos
  linarith

/-- A point at the length `pos`: it is on the `i`-th line. -/
theorem Run.point {fl : ℝ → ℝ} (R : FloatRounding fl) {M v : ℝ} {N : ℕ} {l : List (Vec × Vec)} (h : Run fl M v N l)
    {idx : ℕ} {pos : ℝ} (hf : FoundAt (glue fl (asLines fl l)) pos idx) (h0 : 0 ≤ pos)
    (h1 : pos ≤ lenAt fl (asLines fl l) l.length + v / 1024) :
    ∃ i, ∃ hi : i < l.length, lenTo l i ≤ pos + v / 256 ∧ pos ≤ lenTo l (i + 1) + v / 256 ∧ (pos = 0 → i = 0) ∧
    ∃ val u : Vec, concatValue fl (glue fl (asLines fl l)) idx pos = some (val, u) ∧
    (∀ a, |coord u a - coord (l[i].2 - l[i].1) a / segLen l[i]| ≤ 13 / 2 ^ 52) ∧
    (∀ a, |coord val a - (sumTo l i a + coord (l[i].2 - l[i].1) a / segLen l[i] * (pos - lenTo l i))| ≤
      100 * (N * M / 2 ^ 52)) ∧
    (pos = 0 → fl 0 = 0 → val = ⟨0, 0⟩) := by
  have hne : asLines fl l ≠ [] := by
    have := h.ne
    simpa [asLines] using this
  have hv := h.pos
  obtain ⟨hi, hval⟩ := value_at fl (asLines fl l) idx pos hne
  obtain ⟨f1, f2⟩ := found_at hne (fun j hj => by
    have := h.increasing R (j := j) (by rwa [asLines_length] at hj)
    linarith) hf
  generalize min idx ((asLines fl l).length - 1) = i at *
  have hi' : i < l.length := by rwa [asLines_length] at hi
  obtain ⟨_, hL, u, hu, hv'⟩ := h.line R (j := i) hi'
  have n0 := h.len_near R (j := i) hi'.le
  have n1 := h.len_near R (j := i + 1) hi'
  have s0 := h.small (j := i) hi'.le
  have s1 := h.small (j := i + 1) hi'
  have sl := h.seg_long hi'
  have sM := h.seg_le hi'
  have ls := lenTo_succ l i hi'
  have lM := h.len_le (j := i) hi'.le
  have lp := lenTo_nonneg l (j := i) hi'.le
  have hM := h.M_pos
  have ht := h.tiny
  obtain ⟨a1, a2⟩ := abs_le.1 n0
  obtain ⟨b1, b2⟩ := abs_le.1 n1
  have p1 : lenTo l i ≤ pos + v / 512 := by
    rcases f1 with f1 | f1
    · rw [f1, lenTo_zero]; linarith
    · linarith
  have p2 : pos ≤ lenTo l (i + 1) + v / 300 := by
    rcases f2 with f2 | f2
    · rw [asLines_length] at f2
      rw [← f2] at h1
      linarith
    · linarith
  have hx := R.rel (x := pos - lenAt fl (asLines fl l) i) (M := 3 * M)
    (by rw [abs_le]; constructor <;> linarith) (le_trans (by norm_num) (show 1 / 2 ^ 40 ≤ 3 * M by linarith))
  obtain ⟨c1, c2⟩ := abs_le.1 hx
  set x := fl (pos - lenAt fl (asLines fl l) i) with hxd
  have hN : (1 : ℝ) ≤ N := by
    have := h.count
    have : 1 ≤ N := by omega
    exact_mod_cast this
  have hMN : M / 2 ^ 52 ≤ N * M / 2 ^ 52 := by
    apply div_le_div_of_nonneg_right _ (by norm_num)
    have : 0 < M := by linarith
    nlinarith
  have hiN : (i : ℝ) * M / 2 ^ 52 + M / 2 ^ 52 ≤ N * M / 2 ^ 52 := by
    rw [← add_div]
    apply div_le_div_of_nonneg_right _ (by norm_num)
    have h3 : (i : ℝ) + 1 ≤ N := by
      have := h.count
      have : i + 1 ≤ N := by omega
      exact_mod_cast this
    have : 0 < M := by linarith
    nlinarith
  have hMv : M / 2 ^ 52 ≤ v / 2 ^ 22 := by
    have := h.ticks
    rw [div_le_iff₀ (by norm_num)]
    linarith
  have e0 : |x - (pos - lenTo l i)| ≤ 12 * (i * M / 2 ^ 52) + 3 * (M / 2 ^ 52) := by
    rw [abs_le]; constructor <;> linarith
  have hx2 : |x| ≤ 2 * segLen l[i] := by rw [abs_le]; constructor <;> linarith
  refine ⟨i, hi', by linarith, by linarith, ?_, _, u, by rw [hval, hv'], hu, ?_, ?_⟩
  · intro hp
    rcases f1 with f1 | f1
    · exact f1
    · by_contra hne0
      have q := h.increasing R (j := i - 1) (by omega)
      have q1 := h.len_near R (j := i - 1) (by omega)
      have q2 := lenTo_nonneg l (j := i - 1) (by omega)
      have q3 := h.small (j := i - 1) (by omega)
      rw [show i - 1 + 1 = i by omega] at q
      have := (abs_le.1 q1).1
      linarith
  · intro a
    have e1 := on_line R (ℓ := segLen l[i]) (x := x) (by linarith) (dir_le (x := l[i]) a) (hu a) hx2
    have e2 : |coord (l[i].2 - l[i].1) a / segLen l[i] * x - coord (l[i].2 - l[i].1) a / segLen l[i] * (pos - lenTo l i)| ≤
        12 * (i * M / 2 ^ 52) + 3 * (M / 2 ^ 52) := by
      rw [← mul_sub, abs_mul]
      exact (mul_le_mul (dir_le a) e0 (abs_nonneg _) (by norm_num)).trans (by rw [one_mul])
    have e3 := h.end_near R (j := i) hi'.le a
    have e4 := sumTo_le l i hi'.le a
    have e5 : |coord (l[i].2 - l[i].1) a / segLen l[i] * x| ≤ 2 * segLen l[i] := by
      rw [abs_mul]
      exact (mul_le_mul (dir_le a) hx2 (abs_nonneg _) (by norm_num)).trans (by rw [one_mul])
    have e6 : coord (vadd fl (vmul fl u x) (endAt fl (asLines fl l) i)) a =
        fl (fl (coord u a * x) + coord (endAt fl (asLines fl l) i) a) := by
      cases a <;> rfl
    show |coord (vadd fl (vmul fl u x) (endAt fl (asLines fl l) i)) a - _| ≤ _
    rw [e6]
    generalize coord (l[i].2 - l[i].1) a / segLen l[i] * x = wx at *
    generalize coord (l[i].2 - l[i].1) a / segLen l[i] * (pos - lenTo l i) = wp at *
    obtain ⟨g1, g2⟩ := abs_le.1 e1
    obtain ⟨h1, h2⟩ := abs_le.1 e2
    obtain ⟨i1, i2⟩ := abs_le.1 e3
    obtain ⟨j1, j2⟩ := abs_le.1 e4
    obtain ⟨k1, k2⟩ := abs_le.1 e5
    have hr := R.rel (x := fl (coord u a * x) + coord (endAt fl (asLines fl l) i) a) (M := 4 * M)
      (by rw [abs_le]; constructor <;> linarith) (le_trans (by norm_num) (show 1 / 2 ^ 40 ≤ 4 * M by linarith))
    obtain ⟨l1, l2⟩ := abs_le.1 hr
    rw [abs_le]
    constructor <;> linarith
  · intro hp hz
    have hi0 : i = 0 := by
      rcases f1 with f1 | f1
      · exact f1
      · by_contra hne0
        have q := h.increasing R (j := i - 1) (by omega)
        have q1 := h.len_near R (j := i - 1) (by omega)
        have q2 := lenTo_nonneg l (j := i - 1) (by omega)
        have q3 := h.small (j := i - 1) (by omega)
        rw [show i - 1 + 1 = i by omega] at q
        have := (abs_le.1 q1).1
        linarith
    have hx0 : x = 0 := by rw [hxd, hp, hi0, lenAt_zero, sub_zero, hz]
    rw [hx0, hi0, endAt_zero]
    simp [vadd, vmul, hz]

/-! ### Ticks -/

theorem Run.chain {fl : ℝ → ℝ} (R : FloatRounding fl) {M v : ℝ} {N : ℕ} {l : List (Vec × Vec)} (h : Run fl M v N l) :
    Increasing (glue fl (asLines fl l)) := by
  unfold Increasing
  rw [List.isChain_iff_getElem]
  intro j hj
  rw [glue_length] at hj
  have h1 := List.getElem_eq_iff (h := by rw [glue_length]; omega) |>.2 (glue_get fl (asLines fl l) j (by omega))
  have h2 := List.getElem_eq_iff (h := by rw [glue_length]; omega) |>.2 (glue_get fl (asLines fl l) (j + 1) (by omega))
  rw [h1, h2]
  have := h.increasing R (j := j + 1) (by rw [asLines_length] at hj; omega)
  have := h.pos
  simp only
  linarith

theorem Run.total_near {fl : ℝ → ℝ} (R : FloatRounding fl) {M v : ℝ} {N : ℕ} {l : List (Vec × Vec)} (h : Run fl M v N l) :
    |lenAt fl (asLines fl l) l.length - lenTo l l.length| ≤ v / 512 := by
  have h1 := h.len_near R (j := l.length) le_rfl
  have h2 := h.small (j := l.length) le_rfl
  have := h.pos
  refine h1.trans ?_
  linarith

theorem info_length (fl : ℝ → ℝ) (e : Env) (l : List (Vec × Vec)) :
    (concatInfo fl e (glue fl (asLines fl l))).length = lenAt fl (asLines fl l) l.length := by
  show (glue fl (asLines fl l)).totalLength = _
  rw [glue_total, asLines_length]

theorem Run.tick_count {fl : ℝ → ℝ} (R : FloatRounding fl) {M v : ℝ} {N : ℕ} {l : List (Vec × Vec)} (h : Run fl M v N l)
    (e : Env) :
    Draw.round (fl (lenAt fl (asLines fl l) l.length / v)) = approxSteps fl (concatInfo fl e (glue fl (asLines fl l))) v ∧
    |(approxSteps fl (concatInfo fl e (glue fl (asLines fl l))) v : ℝ) - lenAt fl (asLines fl l) l.length / v| ≤
      1 / 2 + 1 / 2 ^ 18 ∧
    2 ≤ approxSteps fl (concatInfo fl e (glue fl (asLines fl l))) v ∧
    approxSteps fl (concatInfo fl e (glue fl (asLines fl l))) v ≤ 2 ^ 31 := by
  have hv := h.pos
  have hl : 0 < l.length := List.length_pos_iff.2 h.ne
  have t := h.total_near R
  have t1 := h.total
  have t2 := h.ticks
  have t3 : 2 * v ≤ lenTo l l.length := by
    have a := lenTo_mono l (j := 1) hl le_rfl
    rw [lenTo_succ l 0 hl, lenTo_zero] at a
    have := h.seg_long hl
    linarith
  obtain ⟨u1, u2⟩ := abs_le.1 t
  set T := lenAt fl (asLines fl l) l.length with hT
  have hc := count_near R (L := T) (ℓ := T) hv (by linarith) (by linarith) (by
    rw [sub_self, abs_zero]
    have : 0 < T := by linarith
    positivity)
  have q1 : 19 / 10 ≤ T / v := by rw [le_div_iff₀ hv]; linarith
  have q2 : T / v ≤ 2 ^ 30 := by rw [div_le_iff₀ hv]; linarith
  set n := Draw.round (fl (T / v)) with hn
  obtain ⟨a1, a2⟩ := abs_le.1 hc
  have h1 : (1 : ℝ) < n := by linarith
  have h2 : (n : ℝ) < 2 ^ 30 + 1 := by linarith
  have h1' : 1 < n := by exact_mod_cast h1
  have h2' : n < 2 ^ 30 + 1 := by exact_mod_cast h2
  have e1 : n = approxSteps fl (concatInfo fl e (glue fl (asLines fl l))) v := by
    unfold approxSteps
    rw [info_length, ← hT, ← hn]
    unfold satI32
    rw [if_neg (by omega), if_neg (by omega)]
    omega
  refine ⟨e1, ?_, by omega, by omega⟩
  have : ((approxSteps fl (concatInfo fl e (glue fl (asLines fl l))) v : ℤ) : ℝ) = n := by rw [e1]
  rw [Int.cast_natCast] at this
  rw [this]
  exact hc

/-- The length after `k` ticks. -/
theorem tick_near {fl : ℝ → ℝ} (R : FloatRounding fl) {T v M : ℝ} {n k : ℕ} (hn : 2 ≤ n) (hn' : n ≤ 2 ^ 31) (hk : k ≤ n)
    (hc : |(n : ℝ) - T / v| ≤ 1 / 2 + 1 / 2 ^ 18) (hv : 1 / 2 ^ 40 ≤ v) (hT : T ≤ 2 * M) (hM : M ≤ 2 ^ 29 * v) :
    |T / n - v| ≤ (1 / 2 + 1 / 2 ^ 18) * v / n ∧
    |fl (k * fl (T / n)) - k * (T / n)| ≤ 7 * M / 2 ^ 52 ∧ 0 ≤ fl (k * fl (T / n)) ∧
    (k = 0 → fl (k * fl (T / n)) = 0) := by
  have hv0 : 0 < v := lt_of_lt_of_le (by norm_num) hv
  have hn0 : (2 : ℝ) ≤ n := by exact_mod_cast hn
  have hnr : (n : ℝ) ≤ 2 ^ 31 := by exact_mod_cast hn'
  have hkr : (k : ℝ) ≤ n := by exact_mod_cast hk
  have hk0 : (0 : ℝ) ≤ k := by positivity
  have hnp : (0 : ℝ) < n := by linarith
  have hTv : T = T / v * v := by field_simp
  obtain ⟨c1, c2⟩ := abs_le.1 hc
  have hT0 : 0 < T := by
    have : 0 < T / v := by linarith
    rw [hTv]; positivity
  have hM0 : 0 < M := by linarith
  have a1 : |T / n - v| ≤ (1 / 2 + 1 / 2 ^ 18) * v / n := by
    rw [show T / n - v = -((n - T / v) * v / n) by field_simp; ring, abs_neg, abs_div, abs_mul, abs_of_pos hv0,
      abs_of_pos hnp]
    gcongr
  have a2 : (1 / 2 + 1 / 2 ^ 18) * v / n ≤ 3 / 10 * v := by
    rw [div_le_iff₀ hnp]
    nlinarith
  obtain ⟨b1, b2⟩ := abs_le.1 a1
  have hlow : 7 / 10 * v ≤ T / n := by linarith
  have e1 : |fl (T / n) - T / n| ≤ T / n / 2 ^ 52 := by
    apply R.rel
    · rw [abs_of_pos (by positivity)]
    · linarith [show (1 : ℝ) / 2 ^ 200 ≤ 7 / 10 * (1 / 2 ^ 40) by norm_num]
  have kt : k * (T / n) ≤ T := by
    rw [mul_div_assoc', div_le_iff₀ hnp]
    nlinarith
  have kt0 : 0 ≤ k * (T / n) := by positivity
  have e2 : |k * fl (T / n) - k * (T / n)| ≤ T / 2 ^ 52 := by
    rw [← mul_sub, abs_mul, abs_of_nonneg hk0]
    calc (k : ℝ) * |fl (T / n) - T / n| ≤ k * (T / n / 2 ^ 52) := by gcongr
      _ = k * (T / n) / 2 ^ 52 := by ring
      _ ≤ _ := by gcongr
  obtain ⟨f1, f2⟩ := abs_le.1 e2
  have hTl : 14 / 10 * v ≤ T := by
    rw [le_div_iff₀ hnp] at hlow
    nlinarith
  have e3 := R.rel (x := k * fl (T / n)) (M := 2 * T) (by rw [abs_le]; constructor <;> linarith)
    (by linarith [show (1 : ℝ) / 2 ^ 200 ≤ 7 / 10 * (1 / 2 ^ 40) by norm_num])
  obtain ⟨g1, g2⟩ := abs_le.1 e3
  have hz : k = 0 → fl (k * fl (T / n)) = 0 := by
    rintro rfl
    have := R.int 0 (by norm_num)
    simpa using this
  refine ⟨a1, ?_, ?_, hz⟩
  · rw [abs_le]; constructor <;> linarith
  · by_cases h0 : k = 0
    · rw [hz h0]
    · have : (1 : ℝ) ≤ k := by
        have : 1 ≤ k := by omega
        exact_mod_cast this
      have h1 : T / n ≤ k * (T / n) := le_mul_of_one_le_left (by positivity) this
      linarith

/-- From a point to steps. -/
theorem scaled_near {fl : ℝ → ℝ} (R : FloatRounding fl) {y s F M g Q : ℝ} (hy : |y - F| ≤ 107 * (Q / 2 ^ 52))
    (hF : |F| ≤ 3 * M) (hs : |s| ≤ M) (hMQ : M ≤ Q) (hQM : Q ≤ 2 ^ 39 * M) (hM : 1 / 2 ^ 40 ≤ M) (hg : 1 / 2 ^ 40 ≤ g)
    (hB : Q * g ≤ 2 ^ 39) : |fl (fl (y + s) * g) - (s + F) * g| ≤ 1 / 64 := by
  have hg0 : 0 < g := lt_of_lt_of_le (by norm_num) hg
  obtain ⟨a1, a2⟩ := abs_le.1 hy
  obtain ⟨b1, b2⟩ := abs_le.1 hF
  obtain ⟨c1, c2⟩ := abs_le.1 hs
  have hr := R.rel (x := y + s) (M := 5 * M)
    (by rw [abs_le]; constructor <;> linarith) (le_trans (by norm_num) (show 1 / 2 ^ 40 ≤ 5 * M by linarith))
  obtain ⟨l1, l2⟩ := abs_le.1 hr
  generalize fl (y + s) = Y at *
  have e7 : |Y - (s + F)| ≤ 112 * (Q / 2 ^ 52) := by
    rw [abs_le]; constructor <;> linarith
  obtain ⟨m1, m2⟩ := abs_le.1 e7
  have hY2 : |Y| ≤ 6 * M := by rw [abs_le]; constructor <;> linarith
  have hMg : 1 / 2 ^ 40 * (1 / 2 ^ 40) ≤ M * g := mul_le_mul hM hg (by norm_num) (by linarith)
  have hMQg : M * g ≤ Q * g := mul_le_mul_of_nonneg_right hMQ hg0.le
  have e8 := R.rel (x := Y * g) (M := 6 * (M * g)) (by
      rw [abs_mul, abs_of_pos hg0, ← mul_assoc]
      exact mul_le_mul_of_nonneg_right hY2 hg0.le)
    (by
      refine le_trans ?_ (show 1 / 2 ^ 40 * (1 / 2 ^ 40) ≤ 6 * (M * g) by linarith)
      norm_num)
  have e9 : |Y * g - (s + F) * g| ≤ 112 * (Q * g) / 2 ^ 52 := by
    rw [← sub_mul, abs_mul, abs_of_pos hg0]
    exact (mul_le_mul_of_nonneg_right e7 hg0.le).trans (le_of_eq (by ring))
  obtain ⟨o1, o2⟩ := abs_le.1 e8
  obtain ⟨r1, r2⟩ := abs_le.1 e9
  rw [abs_le]
  constructor <;> linarith

/-- Where the axis should be after `k` ticks, and how fast. -/
theorem Run.tick {fl : ℝ → ℝ} (R : FloatRounding fl) {M v : ℝ} {N : ℕ} {l : List (Vec × Vec)} (h : Run fl M v N l)
    {e : Env} (hf : ∀ K, Increasing K → ∀ pos, FoundAt K pos (e.find K pos)) {start : Vec} {a : Axis}
    (hs : |coord start a| ≤ M) (hg : 1 / 2 ^ 40 ≤ e.stepScale a) (hB : N * M * e.stepScale a ≤ 2 ^ 39)
    (hvg : v * e.stepScale a ≤ 2 ^ 31) {k n : ℕ}
    (hn : approxSteps fl (concatInfo fl e (glue fl (asLines fl l))) v = n) (hk : k ≤ n) :
    ∃ i, ∃ hi : i < l.length, lenTo l i ≤ k * (lenAt fl (asLines fl l) l.length / n) + v / 250 ∧
      k * (lenAt fl (asLines fl l) l.length / n) ≤ lenTo l (i + 1) + v / 250 ∧
      |floatPos fl e start (concatInfo fl e (glue fl (asLines fl l))) v a k -
        (coord start a + sumTo l i a + coord (l[i].2 - l[i].1) a / segLen l[i] *
          (k * (lenAt fl (asLines fl l) l.length / n) - lenTo l i)) * e.stepScale a| ≤ 1 / 64 ∧
      |floatVel fl e (concatInfo fl e (glue fl (asLines fl l))) v a k -
        coord (l[i].2 - l[i].1) a / segLen l[i] * v * e.stepScale a / 2| ≤ 1 / 2 ^ 16 ∧
      (k = 0 → i = 0 ∧ floatPos fl e start (concatInfo fl e (glue fl (asLines fl l))) v a k =
        fl (fl (coord start a) * e.stepScale a)) := by
  obtain ⟨c1, c2, c3, c4⟩ := h.tick_count R e
  rw [hn] at c1 c2 c3 c4
  have hv := h.pos
  have ht := h.tiny
  have htot := h.total_near R
  have htM := h.total
  have hMt := h.ticks
  have hMv := h.M_pos
  set T := lenAt fl (asLines fl l) l.length with hT
  set g := e.stepScale a with hgd
  have hg0 : 0 < g := lt_of_lt_of_le (by norm_num) hg
  obtain ⟨t1, t2⟩ := abs_le.1 htot
  obtain ⟨d1, d2, d3, d4⟩ := tick_near R c3 c4 hk c2 ht (M := M) (by linarith) hMt
  have hMs : M / 2 ^ 52 ≤ v / 2 ^ 23 := by
    rw [div_le_iff₀ (by norm_num)]
    linarith
  have kt : k * (T / n) ≤ T := by
    have hnp : (0 : ℝ) < n := by
      have : 0 < n := by omega
      exact_mod_cast this
    have hkr : (k : ℝ) ≤ n := by exact_mod_cast hk
    have hT0 : 0 ≤ T := by
      have := lenTo_nonneg l (j := l.length) le_rfl
      have a := h.increasing R (j := l.length - 1) (by have := List.length_pos_iff.2 h.ne; omega)
      have b := h.len_near R (j := l.length - 1) (by omega)
      have c := h.small (j := l.length - 1) (by omega)
      have d := lenTo_nonneg l (j := l.length - 1) (by omega)
      rw [show l.length - 1 + 1 = l.length by have := List.length_pos_iff.2 h.ne; omega] at a
      have := (abs_le.1 b).1
      linarith
    rw [mul_div_assoc', div_le_iff₀ hnp]
    nlinarith
  obtain ⟨p1, p2⟩ := abs_le.1 d2
  obtain ⟨i, hi, q1, q2, q3, val, u, hval, hu, hpt, hz⟩ := h.point R
    (hf _ (h.chain R) (fl (k * fl (T / n)))) d3 (by linarith)
  set pos := fl (k * fl (T / n)) with hpos
  have hv1 : (concatInfo fl e (glue fl (asLines fl l))).value pos = (val, u) := by
    simp only [concatInfo]
    rw [hval]
    rfl
  have eP : floatPos fl e start (concatInfo fl e (glue fl (asLines fl l))) v a k =
      fl (fl (coord val a + coord start a) * g) := by
    unfold floatPos
    rw [info_length, ← hT, c1, Int.cast_natCast, ← hpos, hv1]
  have eV : floatVel fl e (concatInfo fl e (glue fl (asLines fl l))) v a k = fl (fl (coord u a * v) * fl (g / 2)) := by
    unfold floatVel
    rw [info_length, ← hT, c1, Int.cast_natCast, ← hpos, hv1]
  have hN : (1 : ℝ) ≤ N := by
    have := h.count
    have : 1 ≤ N := by omega
    exact_mod_cast this
  have hMN : M / 2 ^ 52 ≤ N * M / 2 ^ 52 := by
    apply div_le_div_of_nonneg_right _ (by norm_num)
    have : 0 < M := by linarith
    nlinarith
  have hQ : N * M / 2 ^ 52 ≤ v / 2 ^ 13 := by
    have := h.fine
    rw [div_le_iff₀ (by norm_num)]
    linarith
  refine ⟨i, hi, by linarith, by linarith, ?_, ?_, ?_⟩
  · rw [eP]
    have e1 := hpt a
    have e2 : |coord (l[i].2 - l[i].1) a / segLen l[i] * (pos - lenTo l i) -
        coord (l[i].2 - l[i].1) a / segLen l[i] * (k * (T / n) - lenTo l i)| ≤ 7 * M / 2 ^ 52 := by
      rw [← mul_sub, abs_mul, show pos - lenTo l i - (k * (T / n) - lenTo l i) = pos - k * (T / n) by ring]
      exact (mul_le_mul (dir_le a) d2 (abs_nonneg _) (by norm_num)).trans (by rw [one_mul])
    have e3 := sumTo_le l i hi.le a
    have e4 := h.len_le (j := i) hi.le
    have e5 : |coord (l[i].2 - l[i].1) a / segLen l[i] * (k * (T / n) - lenTo l i)| ≤ M + v := by
      rw [abs_mul]
      have e6 : |k * (T / n) - lenTo l i| ≤ M + v := by
        have := lenTo_succ l i hi
        have := h.seg_le hi
        rw [abs_le]; constructor <;> linarith
      exact (mul_le_mul (dir_le a) e6 (abs_nonneg _) (by norm_num)).trans (by rw [one_mul])
    have e6 : |coord val a - (sumTo l i a + coord (l[i].2 - l[i].1) a / segLen l[i] * (k * (T / n) - lenTo l i))| ≤
        107 * (N * M / 2 ^ 52) := by
      have := abs_sub_le (coord val a) (sumTo l i a + coord (l[i].2 - l[i].1) a / segLen l[i] * (pos - lenTo l i))
        (sumTo l i a + coord (l[i].2 - l[i].1) a / segLen l[i] * (k * (T / n) - lenTo l i))
      rw [add_sub_add_left_eq_sub] at this
      linarith
    have e7 : |sumTo l i a + coord (l[i].2 - l[i].1) a / segLen l[i] * (k * (T / n) - lenTo l i)| ≤ 3 * M := by
      refine (abs_add_le _ _).trans ?_
      linarith
    have := scaled_near R e6 e7 hs (by nlinarith) (by have := h.fine; linarith) (by linarith) hg hB
    rw [← add_assoc] at this
    exact this
  · rw [eV]
    refine speed_near R (hu a) (dir_le a) (le_trans (by norm_num) ht) (le_trans (by norm_num) hg) hvg
  · intro h0
    have hp0 := d4 h0
    have hz0 : fl 0 = 0 := by
      have := R.int 0 (by norm_num)
      simpa using this
    refine ⟨q3 hp0, ?_⟩
    rw [eP, hz hp0 hz0]
    cases a <;> simp [coord, hgd]

end StepperPaths.Rounded
