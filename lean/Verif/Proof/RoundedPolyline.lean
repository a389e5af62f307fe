import Verif.Proof.RoundedJoin
import Verif.Spec.Polyline

/-! Lines joined with rounding are smooth, and where they lead. -/

namespace StepperPaths.Rounded
open Coords Curves Context IntegerCurve Spec Props Draw

/-- The direction of a line. -/
noncomputable def dirOf (x : Vec × Vec) (a : Axis) : ℝ := coord (x.2 - x.1) a / segLen x

/-- There are no corners. -/
def Bending (l : List (Vec × Vec)) : Prop :=
  ∀ i, ∀ h : i + 1 < l.length, ∀ a, |dirOf l[i + 1] a - dirOf l[i] a| ≤ 874 / 10000

/-- The point at the length `s`, by the `i`-th line. -/
noncomputable def by_line (l : List (Vec × Vec)) (i : ℕ) (h : i < l.length) (a : Axis) (s : ℝ) : ℝ :=
  sumTo l i a + dirOf l[i] a * (s - lenTo l i)

theorem next_line {l : List (Vec × Vec)} {i : ℕ} (h : i + 1 < l.length) (h0 : segLen l[i] ≠ 0) (a : Axis) (s : ℝ) :
    by_line l (i + 1) h a s - by_line l i (by omega) a s =
      (dirOf l[i + 1] a - dirOf l[i] a) * (s - lenTo l (i + 1)) := by
  unfold by_line
  rw [sumTo_succ l i (by omega), lenTo_succ l i (by omega)]
  have : coord (l[i].2 - l[i].1) a = dirOf l[i] a * segLen l[i] := by
    unfold dirOf
    field_simp
  rw [this]
  ring

theorem by_line_near {l : List (Vec × Vec)} {i : ℕ} (h : i < l.length) (a : Axis) (s s' : ℝ) :
    |by_line l i h a s - by_line l i h a s'| ≤ |s - s'| := by
  unfold by_line
  rw [show sumTo l i a + dirOf l[i] a * (s - lenTo l i) - (sumTo l i a + dirOf l[i] a * (s' - lenTo l i)) =
    dirOf l[i] a * (s - s') by ring, abs_mul]
  exact mul_le_of_le_one_left (abs_nonneg _) (dir_le a)

/-- `Run.tick` with these. -/
theorem Run.tick' {fl : ℝ → ℝ} (R : FloatRounding fl) {e : Env} {aMax vMax : Axis → ℤ} {v S M : ℝ} {N m : ℕ}
    (L : FloatLimits e aMax vMax v S M N m) (hv2 : ∀ i, vMax i < 2 ^ 30) (hf : Searches e) {l : List (Vec × Vec)}
    (h : Run fl M v N l) {start : Vec} (hs : ∀ a, |coord start a| ≤ M) (a : Axis) {k n : ℕ}
    (hn : approxSteps fl (concatInfo fl e (glue fl (asLines fl l))) v = n) (hk : k ≤ n) :
    ∃ i, ∃ hi : i < l.length, lenTo l i ≤ k * (lenAt fl (asLines fl l) l.length / n) + v / 250 ∧
      k * (lenAt fl (asLines fl l) l.length / n) ≤ lenTo l (i + 1) + v / 250 ∧
      |floatPos fl e start (concatInfo fl e (glue fl (asLines fl l))) v a k -
        (coord start a + by_line l i hi a (k * (lenAt fl (asLines fl l) l.length / n))) * e.stepScale a| ≤ 1 / 64 ∧
      |floatVel fl e (concatInfo fl e (glue fl (asLines fl l))) v a k - dirOf l[i] a * v * e.stepScale a / 2| ≤ 1 / 2 ^ 16 ∧
      (k = 0 → floatPos fl e start (concatInfo fl e (glue fl (asLines fl l))) v a k =
        fl (fl (coord start a) * e.stepScale a)) := by
  have hvg : v * e.stepScale a ≤ 2 ^ 31 := by
    have h1 := L.speed a
    have h2 : (vMax a : ℝ) < 2 ^ 30 := by exact_mod_cast hv2 a
    have := L.one
    linarith
  obtain ⟨i, hi, q1, q2, q3, q4, q5⟩ := h.tick R hf (hs a) (L.scale a) (L.range a) hvg hn hk
  refine ⟨i, hi, q1, q2, ?_, q4, fun h0 => (q5 h0).2⟩
  unfold by_line dirOf
  rw [← add_assoc]
  exact q3

set_option maxHeartbeats 1000000 in
theorem Run.smooth {fl : ℝ → ℝ} (R : FloatRounding fl) {e : Env} {aMax vMax : Axis → ℤ} {v S M : ℝ} {N m : ℕ}
    (L : FloatLimits e aMax vMax v S M N m) (hv2 : ∀ i, vMax i < 2 ^ 30) (hf : Searches e) {l : List (Vec × Vec)}
    (h : Run fl M v N l)
    (hb : Bending l) (hm : ∀ x ∈ l, m * v ≤ segLen x) {start : Vec} (hs : ∀ a, |coord start a| ≤ M) (a : Axis) :
    FloatSmooth (floatPos fl e start (concatInfo fl e (glue fl (asLines fl l))) v a)
      (floatVel fl e (concatInfo fl e (glue fl (asLines fl l))) v a)
      (approxSteps fl (concatInfo fl e (glue fl (asLines fl l))) v) (aMax a) (vMax a) S := by
  obtain ⟨-, c2, c3, c4⟩ := h.tick_count R e
  have T' := fun k hk => h.tick' R L hv2 hf hs a (k := k) rfl hk
  set n := approxSteps fl (concatInfo fl e (glue fl (asLines fl l))) v with hn
  set P := floatPos fl e start (concatInfo fl e (glue fl (asLines fl l))) v a with hP
  set V := floatVel fl e (concatInfo fl e (glue fl (asLines fl l))) v a with hV
  set T := lenAt fl (asLines fl l) l.length with hT
  have hv := h.pos
  have hg0 : 0 < e.stepScale a := lt_of_lt_of_le (by norm_num) (L.scale a)
  have hslow := L.slow a
  have hspeed := L.speed a
  have hone := L.one
  have hrange := L.range a
  have htot := abs_le.1 (h.total_near R)
  rw [← hT] at htot
  have hMv := h.M_pos
  set g := e.stepScale a with hg
  have hvg0 : 0 < v * g := by positivity
  have hm2 : (2 : ℝ) ≤ m := by exact_mod_cast L.two
  -- the number of ticks
  have hl : 0 < l.length := List.length_pos_iff.2 h.ne
  have hmT : m * v ≤ lenTo l l.length := by
    have x := lenTo_mono l (j := 1) hl le_rfl
    rw [lenTo_succ l 0 hl, lenTo_zero] at x
    have := hm _ (List.getElem_mem hl)
    linarith
  have hnm : (m : ℝ) ≤ n := by
    have h1 : m - 1 / 512 ≤ T / v := by
      rw [le_div_iff₀ hv]
      nlinarith [htot.1]
    have h2 := (abs_le.1 c2).1
    have h3 : (m : ℝ) < n + 1 := by linarith
    have h4 : m < n + 1 := by exact_mod_cast h3
    have : m ≤ n := by omega
    exact_mod_cast this
  have hn0 : (0 : ℝ) < n := by linarith
  have hnle : (n : ℝ) ≤ 2 ^ 31 := by exact_mod_cast c4
  obtain ⟨d1, -⟩ := tick_near R c3 c4 (le_refl n) c2 h.tiny (T := T) (M := M) (by linarith [h.total]) h.ticks
  have hinv : (1 / 2 + 1 / 2 ^ 18) * v / n ≤ (501 / 1000) * v / m := by
    gcongr
    norm_num
  have hdv : |T / n - v| ≤ 501 / 1000 * v / m := d1.trans hinv
  have hvm : 501 / 1000 * v / m ≤ 2505 / 10000 * v := by
    rw [div_le_iff₀ (by linarith)]
    nlinarith
  obtain ⟨t1, t2⟩ := abs_le.1 hdv
  set len := T / n with hlen
  have hvslow : v * g * (88 / 1000) ≤ 46 / 100 * S := by
    have : 0 ≤ v * g * (11 / (20 * m)) := by positivity
    linarith [show v * g * (88 / 1000 + 11 / (20 * m)) = v * g * (88 / 1000) + v * g * (11 / (20 * m)) by ring]
  have hseg : ∀ i, ∀ hi : i < l.length, 2 * v ≤ segLen l[i] := fun i hi => h.seg_long hi
  -- from one tick to the next
  have next : ∀ k < n, ∃ i j, ∃ hi : i < l.length, ∃ hj : j < l.length,
      |P k - (coord start a + by_line l i hi a (k * len)) * g| ≤ 1 / 64 ∧
      |P (k + 1) - (coord start a + by_line l j hj a ((k + 1 : ℕ) * len)) * g| ≤ 1 / 64 ∧
      |V k - dirOf l[i] a * v * g / 2| ≤ 1 / 2 ^ 16 ∧ |V (k + 1) - dirOf l[j] a * v * g / 2| ≤ 1 / 2 ^ 16 ∧
      (j = i ∨ j = i + 1) ∧ lenTo l i ≤ k * len + v / 250 ∧ k * len ≤ lenTo l (i + 1) + v / 250 ∧
      lenTo l j ≤ (k + 1 : ℕ) * len + v / 250 := by
    intro k hk
    obtain ⟨i, hi, p1, p2, p3, p4, -⟩ := T' k hk.le
    obtain ⟨j, hj, q1, q2, q3, q4, -⟩ := T' (k + 1) hk
    refine ⟨i, j, hi, hj, p3, q3, p4, q4, ?_, p1, p2, q1⟩
    have e1 : ((k + 1 : ℕ) : ℝ) * len = k * len + len := by push_cast; ring
    rw [e1] at q1 q2
    by_contra hc
    rcases Nat.lt_or_ge j i with h1 | h1
    · have := lenTo_mono l (j := j + 1) (k := i) h1 hi.le
      linarith
    · have h2 : i + 1 < l.length := by omega
      have := lenTo_mono l (j := i + 1 + 1) (k := j) (by omega) hj.le
      have h3 := lenTo_succ l (i + 1) h2
      have := hseg (i + 1) h2
      linarith
  refine ⟨hone, L.big, L.acc a, ?_, ?_, ?_, ?_⟩
  · intro k hk
    obtain ⟨i, j, hi, hj, -, q3, -, -, -, -, -, q1⟩ := next k hk
    have b1 := sumTo_le l j hj.le a
    have b2 := h.len_le (j := j) hj.le
    have b3 := hs a
    have kl : ((k + 1 : ℕ) : ℝ) * len ≤ T := by
      have hk' : ((k + 1 : ℕ) : ℝ) ≤ n := by exact_mod_cast hk
      rw [hlen, mul_div_assoc', div_le_iff₀ hn0]
      have : 0 < T := by
        have : 0 ≤ lenTo l l.length := lenTo_nonneg l le_rfl
        nlinarith [htot.1, L.two]
      nlinarith
    have b4 : |dirOf l[j] a * ((k + 1 : ℕ) * len - lenTo l j)| ≤ 2 * M := by
      rw [abs_mul]
      have : |((k + 1 : ℕ) : ℝ) * len - lenTo l j| ≤ 2 * M := by
        have := h.total
        have := lenTo_nonneg l (j := j) hj.le
        have := htot.2
        rw [abs_le]; constructor <;> linarith
      exact (mul_le_of_le_one_left (abs_nonneg _) (dir_le a)).trans this
    have b5 : |coord start a + by_line l j hj a ((k + 1 : ℕ) * len)| ≤ 4 * M := by
      unfold by_line
      obtain ⟨x1, x2⟩ := abs_le.1 b1
      obtain ⟨y1, y2⟩ := abs_le.1 b3
      obtain ⟨z1, z2⟩ := abs_le.1 b4
      rw [abs_le]; constructor <;> linarith
    have b6 : |(coord start a + by_line l j hj a ((k + 1 : ℕ) * len)) * g| ≤ 2 ^ 41 := by
      rw [abs_mul, abs_of_pos hg0]
      have h1 : |coord start a + by_line l j hj a ((k + 1 : ℕ) * len)| * g ≤ 4 * M * g :=
        mul_le_mul_of_nonneg_right b5 hg0.le
      have h2 : M * g ≤ N * M * g := by
        apply mul_le_mul_of_nonneg_right _ hg0.le
        have : (1 : ℝ) ≤ N := by
          have := h.count
          have : 1 ≤ N := by omega
          exact_mod_cast this
        nlinarith
      linarith
    obtain ⟨x1, x2⟩ := abs_le.1 q3
    obtain ⟨y1, y2⟩ := abs_le.1 b6
    rw [abs_le]; constructor <;> linarith
  · intro k hk
    obtain ⟨i, j, hi, hj, p3, q3, p4, -, hij, p1, p2, q1⟩ := next k hk
    have e1 : ((k + 1 : ℕ) : ℝ) * len = k * len + len := by push_cast; ring
    have b1 : |by_line l j hj a ((k + 1 : ℕ) * len) - by_line l i hi a (k * len) - dirOf l[i] a * v| ≤
        v * (88 / 1000 + 11 / (20 * m)) := by
      have b2 : by_line l i hi a ((k + 1 : ℕ) * len) - by_line l i hi a (k * len) = dirOf l[i] a * len := by
        unfold by_line
        rw [e1]; ring
      have b3 : |dirOf l[i] a * (len - v)| ≤ 501 / 1000 * v / m := by
        rw [abs_mul]
        exact (mul_le_of_le_one_left (abs_nonneg _) (dir_le a)).trans hdv
      have hvm' : v * (88 / 1000 + 11 / (20 * m)) = 88 / 1000 * v + 55 / 100 * (v / m) := by
        field_simp
        ring
      have hvm'' : 501 / 1000 * v / m = 501 / 1000 * (v / m) := by ring
      have hvm0 : 0 < v / m := by positivity
      rw [hvm'] 
      rw [hvm''] at b3 t1 t2
      rcases hij with rfl | rfl
      · rw [b2, ← mul_sub]
        linarith
      · have b4 := next_line hj (by have := hseg i hi; linarith) a ((k + 1 : ℕ) * len)
        have b5 : |(dirOf l[i + 1] a - dirOf l[i] a) * ((k + 1 : ℕ) * len - lenTo l (i + 1))| ≤
            874 / 10000 * (len + v / 250) := by
          rw [abs_mul]
          refine mul_le_mul (hb i hj a) ?_ (abs_nonneg _) (by norm_num)
          rw [e1] at q1 ⊢
          rw [abs_le]; constructor <;> linarith
        rw [show by_line l (i + 1) hj a ((k + 1 : ℕ) * len) - by_line l i hi a (k * len) - dirOf l[i] a * v =
          (by_line l (i + 1) hj a ((k + 1 : ℕ) * len) - by_line l i hi a ((k + 1 : ℕ) * len)) +
          ((by_line l i hi a ((k + 1 : ℕ) * len) - by_line l i hi a (k * len)) - dirOf l[i] a * v) by ring, b4, b2, ← mul_sub]
        refine (abs_add_le _ _).trans ?_
        linarith
    have b2 : |(coord start a + by_line l j hj a ((k + 1 : ℕ) * len)) * g - (coord start a + by_line l i hi a (k * len)) * g -
        2 * (dirOf l[i] a * v * g / 2)| ≤ 46 / 100 * S := by
      rw [show (coord start a + by_line l j hj a ((k + 1 : ℕ) * len)) * g - (coord start a + by_line l i hi a (k * len)) * g -
        2 * (dirOf l[i] a * v * g / 2) =
        (by_line l j hj a ((k + 1 : ℕ) * len) - by_line l i hi a (k * len) - dirOf l[i] a * v) * g by ring, abs_mul,
        abs_of_pos hg0]
      refine (mul_le_mul_of_nonneg_right b1 hg0.le).trans ?_
      linarith [show v * (88 / 1000 + 11 / (20 * m)) * g = v * g * (88 / 1000 + 11 / (20 * (m : ℝ))) by ring]
    obtain ⟨x1, x2⟩ := abs_le.1 p3
    obtain ⟨y1, y2⟩ := abs_le.1 q3
    obtain ⟨z1, z2⟩ := abs_le.1 p4
    obtain ⟨w1, w2⟩ := abs_le.1 b2
    rw [abs_le]; constructor <;> linarith
  · intro k hk
    obtain ⟨i, j, hi, hj, -, -, p4, q4, hij, -⟩ := next k hk
    have b1 : |dirOf l[j] a * v * g / 2 - dirOf l[i] a * v * g / 2| ≤ 23 / 100 * S := by
      rw [show dirOf l[j] a * v * g / 2 - dirOf l[i] a * v * g / 2 = (dirOf l[j] a - dirOf l[i] a) * (v * g / 2) by ring,
        abs_mul, abs_of_pos (a := v * g / 2) (by positivity)]
      rcases hij with rfl | rfl
      · rw [sub_self, abs_zero, zero_mul]; linarith
      · have := mul_le_mul_of_nonneg_right (hb i hj a) (show 0 ≤ v * g / 2 by positivity)
        linarith
    obtain ⟨z1, z2⟩ := abs_le.1 p4
    obtain ⟨w1, w2⟩ := abs_le.1 q4
    obtain ⟨x1, x2⟩ := abs_le.1 b1
    rw [abs_le]; constructor <;> linarith
  · intro k hk
    obtain ⟨i, j, hi, hj, -, -, -, q4, -⟩ := next k hk
    have b1 : |dirOf l[j] a * v * g / 2| ≤ v * g / 2 := by
      rw [show dirOf l[j] a * v * g / 2 = dirOf l[j] a * (v * g / 2) by ring, abs_mul,
        abs_of_pos (a := v * g / 2) (by positivity)]
      exact mul_le_of_le_one_left (by positivity) (dir_le a)
    obtain ⟨w1, w2⟩ := abs_le.1 q4
    obtain ⟨x1, x2⟩ := abs_le.1 b1
    have : |V (k + 1)| ≤ v * g / 2 + 1 / 2 ^ 16 := by rw [abs_le]; constructor <;> linarith
    linarith

end StepperPaths.Rounded
