import Verif.Proof.RoundedPolyline

/-! Where joined lines lead, and when there is no corner between two of them. -/

namespace StepperPaths.Rounded
open Coords Curves Context IntegerCurve Spec Props Draw

theorem linesLen_eq (l : List (Vec × Vec)) : linesLen l = lenTo l l.length := by
  unfold linesLen lenTo
  rw [List.take_length]
  rfl

theorem lineAt_coord (x : Vec × Vec) (s : ℝ) (a : Axis) : coord (lineAt x s) a = coord x.1 a + dirOf x a * s := by
  unfold dirOf segLen lineAt
  cases a
  · show x.1.x + (x.2.x - x.1.x) * (s / (x.2 - x.1).length) = x.1.x + (x.2.x - x.1.x) / (x.2 - x.1).length * s
    ring
  · show x.1.y + (x.2.y - x.1.y) * (s / (x.2 - x.1).length) = x.1.y + (x.2.y - x.1.y) / (x.2 - x.1).length * s
    ring

theorem lenTo_cons (x : Vec × Vec) (l : List (Vec × Vec)) (j : ℕ) : lenTo (x :: l) (j + 1) = segLen x + lenTo l j := by
  simp only [lenTo, List.take_succ_cons, List.map_cons, List.sum_cons]

/-- The point at the length `s` is on one of the lines. -/
theorem along_spec (l : List (Vec × Vec)) (hne : l ≠ []) {s : ℝ} (h0 : 0 ≤ s) (h1 : s ≤ linesLen l) :
    ∃ i, ∃ hi : i < l.length, lenTo l i ≤ s ∧ s ≤ lenTo l (i + 1) ∧
      ∀ a, coord (alongAt l s) a = coord l[i].1 a + dirOf l[i] a * (s - lenTo l i) := by
  induction l generalizing s with
  | nil => exact absurd rfl hne
  | cons x l ih =>
    cases l with
    | nil =>
      refine ⟨0, by simp, by rw [lenTo_zero]; exact h0, ?_, fun a => ?_⟩
      · rw [linesLen_eq] at h1
        exact h1
      · rw [lenTo_zero, sub_zero]
        exact lineAt_coord x s a
    | cons y l =>
      by_cases hs : s ≤ (x.2 - x.1).length
      · refine ⟨0, by simp, by rw [lenTo_zero]; exact h0, ?_, fun a => ?_⟩
        · rw [lenTo_cons, lenTo_zero, add_zero]
          exact hs
        · rw [lenTo_zero, sub_zero]
          simp only [alongAt, if_pos hs]
          exact lineAt_coord x s a
      · rw [not_le] at hs
        have h2 : linesLen (x :: y :: l) = segLen x + linesLen (y :: l) := by
          simp only [linesLen, List.map_cons, List.sum_cons, segLen]
        obtain ⟨i, hi, q1, q2, q3⟩ := ih (s := s - segLen x) (by simp) (by unfold segLen; linarith) (by linarith)
        refine ⟨i + 1, by simpa using hi, by rw [lenTo_cons]; linarith, by rw [lenTo_cons]; linarith, fun a => ?_⟩
        simp only [alongAt, if_neg (not_le.2 hs)]
        rw [lenTo_cons]
        have := q3 a
        simp only [List.getElem_cons_succ]
        rw [show s - (segLen x + lenTo (y :: l) i) = s - segLen x - lenTo (y :: l) i by ring]
        exact this

/-- The ends of the lines are where the next lines start, up to `r`. -/
def Offsets (l : List (Vec × Vec)) (start : Vec) (r : ℝ) : Prop :=
  ∀ i, ∀ h : i < l.length, ∀ a, |coord start a + sumTo l i a - coord l[i].1 a| ≤ r

/-- The computed points are along the lines. -/
theorem Run.along {fl : ℝ → ℝ} (R : FloatRounding fl) {e : Env} {aMax vMax : Axis → ℤ} {v S M : ℝ} {N m : ℕ}
    (L : FloatLimits e aMax vMax v S M N m) (hv2 : ∀ i, vMax i < 2 ^ 30) (hf : Searches e) {l : List (Vec × Vec)}
    (h : Run fl M v N l) (hb : Bending l) {start : Vec} (hs : ∀ a, |coord start a| ≤ M) {r : ℝ} (ho : Offsets l start r)
    (a : Axis) {k n : ℕ}
    (hn : approxSteps fl (concatInfo fl e (glue fl (asLines fl l))) v = n) (hk : k ≤ n) :
    |floatPos fl e start (concatInfo fl e (glue fl (asLines fl l))) v a k -
      coord (alongAt l (linesLen l * (k / n))) a * e.stepScale a| ≤ 3 / 100 * S + r * e.stepScale a := by
  obtain ⟨-, -, c3, -⟩ := h.tick_count R e
  rw [hn] at c3
  have hn0 : (0 : ℝ) < n := by
    have : 0 < n := by omega
    exact_mod_cast this
  have hkr : (k : ℝ) ≤ n := by exact_mod_cast hk
  have fr0 : (0 : ℝ) ≤ k / n := by positivity
  have fr1 : (k : ℝ) / n ≤ 1 := (div_le_one hn0).2 hkr
  have hv := h.pos
  have hg0 : 0 < e.stepScale a := lt_of_lt_of_le (by norm_num) (L.scale a)
  have hone := L.one
  obtain ⟨j, hj, q1, q2, q3, -, -⟩ := h.tick' R L hv2 hf hs a hn hk
  have htot : |lenAt fl (asLines fl l) l.length - lenTo l l.length| ≤ 12 * (N * M / 2 ^ 52) := by
    refine (h.len_near R (j := l.length) le_rfl).trans ?_
    have : (l.length : ℝ) * M ≤ N * M := by
      have := h.M_pos
      apply mul_le_mul_of_nonneg_right _ (by linarith)
      exact_mod_cast h.count
    have := div_le_div_of_nonneg_right this (show (0 : ℝ) ≤ 2 ^ 52 by norm_num)
    linarith
  have hsmall : 12 * (N * M / 2 ^ 52) ≤ v / 512 := by
    have h1 := h.fine
    have h2 : N * M / 2 ^ 52 ≤ v / 2 ^ 13 := by
      rw [div_le_iff₀ (by norm_num)]
      linarith
    linarith
  have hsteps : 12 * (N * M / 2 ^ 52) * e.stepScale a ≤ 1 / 512 := by
    have h1 := L.range a
    have : 12 * (N * M / 2 ^ 52) * e.stepScale a = 12 / 2 ^ 52 * (N * M * e.stepScale a) := by ring
    rw [this]
    refine (mul_le_mul_of_nonneg_left h1 (by norm_num)).trans (by norm_num)
  set T := lenAt fl (asLines fl l) l.length with hT
  have hΛ : 0 ≤ linesLen l := by rw [linesLen_eq]; exact lenTo_nonneg l le_rfl
  rw [← linesLen_eq] at htot
  set s := linesLen l * (k / n) with hsdef
  have hs0 : 0 ≤ s := mul_nonneg hΛ fr0
  have hs1 : s ≤ linesLen l := mul_le_of_le_one_right hΛ fr1
  have hss : |k * (T / n) - s| ≤ 12 * (N * M / 2 ^ 52) := by
    rw [show k * (T / n) - s = (T - linesLen l) * (k / n) by rw [hsdef]; ring, abs_mul, abs_of_nonneg fr0]
    exact (mul_le_of_le_one_right (abs_nonneg _) fr1).trans htot
  obtain ⟨i, hi, p1, p2, p3⟩ := along_spec l h.ne hs0 hs1
  obtain ⟨s1, s2⟩ := abs_le.1 (hss.trans hsmall)
  have hseg : ∀ i, ∀ hi : i < l.length, 2 * v ≤ segLen l[i] := fun i hi => h.seg_long hi
  -- by the next line
  have b1 : |by_line l j hj a s - by_line l i hi a s| ≤ 874 / 10000 * (v / 100) := by
    by_cases hij : j = i
    · subst hij
      rw [sub_self, abs_zero]
      positivity
    · rcases Nat.lt_or_ge j i with h1 | h1
      · have h2 : i = j + 1 := by
          by_contra hc
          have := lenTo_mono l (j := j + 1 + 1) (k := i) (by omega) hi.le
          have h3 := lenTo_succ l (j + 1) (by omega)
          have := hseg (j + 1) (by omega)
          linarith
        subst h2
        rw [abs_sub_comm, next_line hi (by have := hseg j hj; linarith) a s, abs_mul]
        refine mul_le_mul (hb j hi a) ?_ (abs_nonneg _) (by norm_num)
        rw [abs_le]; constructor <;> linarith
      · have h2 : j = i + 1 := by
          by_contra hc
          have := lenTo_mono l (j := i + 1 + 1) (k := j) (by omega) hj.le
          have h3 := lenTo_succ l (i + 1) (by omega)
          have := hseg (i + 1) (by omega)
          linarith
        subst h2
        rw [next_line hj (by have := hseg i hi; linarith) a s, abs_mul]
        refine mul_le_mul (hb i hj a) ?_ (abs_nonneg _) (by norm_num)
        rw [abs_le]; constructor <;> linarith
  have b2 := (by_line_near hj a (k * (T / n)) s).trans hss
  have b3 : |coord start a + by_line l i hi a s - coord (alongAt l s) a| ≤ r := by
    rw [p3 a]
    unfold by_line
    rw [show coord start a + (sumTo l i a + dirOf l[i] a * (s - lenTo l i)) -
      (coord l[i].1 a + dirOf l[i] a * (s - lenTo l i)) = coord start a + sumTo l i a - coord l[i].1 a by ring]
    exact ho i hi a
  have b4 : |(coord start a + by_line l j hj a (k * (T / n))) * e.stepScale a - coord (alongAt l s) a * e.stepScale a| ≤
      12 * (N * M / 2 ^ 52) * e.stepScale a + 874 / 10000 * (v / 100) * e.stepScale a + r * e.stepScale a := by
    rw [← sub_mul, abs_mul, abs_of_pos hg0, ← add_mul, ← add_mul]
    apply mul_le_mul_of_nonneg_right _ hg0.le
    obtain ⟨x1, x2⟩ := abs_le.1 b1
    obtain ⟨y1, y2⟩ := abs_le.1 b2
    obtain ⟨z1, z2⟩ := abs_le.1 b3
    rw [abs_le]; constructor <;> linarith
  have b5 : 874 / 10000 * (v / 100) * e.stepScale a ≤ 1 / 100 * S := by
    have h1 := L.slow a
    have h2 : 0 ≤ v * e.stepScale a * (11 / (20 * m)) := by positivity
    have h3 : v * e.stepScale a * (88 / 1000 + 11 / (20 * m)) =
      v * e.stepScale a * (88 / 1000) + v * e.stepScale a * (11 / (20 * m)) := by ring
    have h4 : 0 < v * e.stepScale a := by positivity
    linarith
  obtain ⟨x1, x2⟩ := abs_le.1 q3
  obtain ⟨y1, y2⟩ := abs_le.1 b4
  rw [abs_le]; constructor <;> linarith

/-- No corner between two lines. -/
theorem no_corner {fl : ℝ → ℝ} (R : FloatRounding fl) {x y : Vec × Vec} (hx : 1 / 2 ^ 40 ≤ segLen x)
    (hy : 1 / 2 ^ 40 ≤ segLen y)
    (h : ¬ fl (fl (((line fl (vsub fl y.2 y.1)).value 0).2.x *
        ((line fl (vsub fl x.2 x.1)).value (line fl (vsub fl x.2 x.1)).length).2.x) +
      fl (((line fl (vsub fl y.2 y.1)).value 0).2.y *
        ((line fl (vsub fl x.2 x.1)).value (line fl (vsub fl x.2 x.1)).length).2.y)) < fl minCosConnect) (a : Axis) :
    |dirOf y a - dirOf x a| ≤ 874 / 10000 := by
  have key : ∀ {x : Vec × Vec}, 1 / 2 ^ 40 ≤ segLen x → ∀ t a,
      |coord ((line fl (vsub fl x.2 x.1)).value t).2 a - dirOf x a| ≤ 13 / 2 ^ 52 := by
    intro x hx t a
    obtain ⟨h1, h2⟩ := line_near R (p := x.2) (s := x.1) hx
    have hne : vlength fl (vsub fl x.2 x.1) ≠ 0 := by
      have h3 := (abs_le.1 h1).1
      have : 0 < vlength fl (vsub fl x.2 x.1) := by
        have : (0 : ℝ) < (x.2 - x.1).length := lt_of_lt_of_le (by norm_num) hx
        linarith
      exact this.ne'
    simp only [line, if_neg hne]
    exact h2 a
  have unit : ∀ {x : Vec × Vec}, 1 / 2 ^ 40 ≤ segLen x → dirOf x .x * dirOf x .x + dirOf x .y * dirOf x .y = 1 := by
    intro x hx
    have h0 : 0 < segLen x := lt_of_lt_of_le (by norm_num) hx
    have hsq : segLen x * segLen x = (x.2 - x.1).x * (x.2 - x.1).x + (x.2 - x.1).y * (x.2 - x.1).y := by
      unfold segLen Vec.length
      exact Real.mul_self_sqrt (by nlinarith [mul_self_nonneg (x.2 - x.1).x, mul_self_nonneg (x.2 - x.1).y])
    unfold dirOf
    simp only [coord]
    rw [div_mul_div_comm, div_mul_div_comm, ← add_div, ← hsq, div_self (by positivity)]
  have kx := key hx (line fl (vsub fl x.2 x.1)).length
  have ky := key hy 0
  have d1 : ∀ a, |dirOf x a| ≤ 1 := fun a => dir_le a
  have d2 : ∀ a, |dirOf y a| ≤ 1 := fun a => dir_le a
  have hd : HasDirs (line fl (vsub fl x.2 x.1)) (line fl (vsub fl y.2 y.1)) := by
    intro i
    obtain ⟨a1, a2⟩ := abs_le.1 (kx i)
    obtain ⟨b1, b2⟩ := abs_le.1 (ky i)
    obtain ⟨c1, c2⟩ := abs_le.1 (d1 i)
    obtain ⟨e1, e2⟩ := abs_le.1 (d2 i)
    constructor <;> rw [abs_le] <;> norm_num at * <;> constructor <;> linarith
  have hc := (turns_cases R hd).2 h
  unfold cosBetween at hc
  have kx1 := kx .x
  have kx2 := kx .y
  have ky1 := ky .x
  have ky2 := ky .y
  simp only [coord] at kx1 kx2 ky1 ky2
  have prod : ∀ {p q p' q' : ℝ}, |p| ≤ 1 → |q| ≤ 1 → |p' - p| ≤ 13 / 2 ^ 52 → |q' - q| ≤ 13 / 2 ^ 52 →
      p' * q' - p * q ≤ 1 / 10 ^ 12 := by
    intro p q p' q' hp hq hp' hq'
    have e1 : p' * q' - p * q = (p' - p) * q' + p * (q' - q) := by ring
    have hq2 : |q'| ≤ 2 := by
      obtain ⟨a1, a2⟩ := abs_le.1 hq
      obtain ⟨b1, b2⟩ := abs_le.1 hq'
      rw [abs_le]; norm_num at *; constructor <;> linarith
    have e2 : |(p' - p) * q'| ≤ 13 / 2 ^ 52 * 2 := by
      rw [abs_mul]; exact mul_le_mul hp' hq2 (abs_nonneg _) (by norm_num)
    have e3 : |p * (q' - q)| ≤ 1 * (13 / 2 ^ 52) := by
      rw [abs_mul]; exact mul_le_mul hp hq' (abs_nonneg _) (by norm_num)
    have := (abs_le.1 e2).2
    have := (abs_le.1 e3).2
    rw [e1]
    norm_num at *
    linarith
  have p1 := prod (d1 .x) (d2 .x) kx1 ky1
  have p2 := prod (d1 .y) (d2 .y) kx2 ky2
  have ux := unit hx
  have uy := unit hy
  have hdot : 99619 / 100000 - 1 / 10 ^ 10 ≤ dirOf x .x * dirOf y .x + dirOf x .y * dirOf y .y := by
    norm_num at *
    linarith
  have hsq : (dirOf y .x - dirOf x .x) ^ 2 + (dirOf y .y - dirOf x .y) ^ 2 ≤ (874 / 10000) ^ 2 := by
    have : (dirOf y .x - dirOf x .x) ^ 2 + (dirOf y .y - dirOf x .y) ^ 2 =
      2 - 2 * (dirOf x .x * dirOf y .x + dirOf x .y * dirOf y .y) := by
      have e : (dirOf y .x - dirOf x .x) ^ 2 + (dirOf y .y - dirOf x .y) ^ 2 =
          (dirOf y .x * dirOf y .x + dirOf y .y * dirOf y .y) + (dirOf x .x * dirOf x .x + dirOf x .y * dirOf x .y) -
          2 * (dirOf x .x * dirOf y .x + dirOf x .y * dirOf y .y) := by ring
      rw [e, ux, uy]
      ring
    rw [this]
    norm_num at *
    linarith
  apply abs_le_of_sq_le_sq _ (by norm_num)
  cases a
  · nlinarith [sq_nonneg (dirOf y .y - dirOf x .y)]
  · nlinarith [sq_nonneg (dirOf y .x - dirOf x .x)]

end StepperPaths.Rounded
