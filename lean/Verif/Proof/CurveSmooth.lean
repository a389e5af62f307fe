import Verif.Proof.CurveJoin

/-! Lines and curves joined with rounding are smooth, and where they lead. -/

namespace StepperPaths.Rounded.CurvePath
open Coords Curves Context IntegerCurve Spec Props Draw

/-- There are no corners. -/
def Bending (l : List Piece) : Prop :=
  ∀ i, ∀ h : i + 1 < l.length, ∀ a, |coord (l[i + 1].shape.dir 0) a - coord (l[i].shape.dir l[i].shape.len) a| ≤ 88 / 1000

/-- The point at the length `s`, by the `i`-th piece. -/
noncomputable def byCurve (l : List Piece) (i : ℕ) (h : i < l.length) (a : Axis) (s : ℝ) : ℝ :=
  sumTo l i a + coord (l[i].shape.pt (s - lenTo l i)) a

section
variable {M v D ε κ : ℝ} {N : ℕ} {l : List Piece}

theorem Run.next_curve (h : Run M v D ε κ N l) (hb : Bending l) {i : ℕ} (hi : i + 1 < l.length) (a : Axis) (s : ℝ) :
    |byCurve l (i + 1) hi a s - byCurve l i (by omega) a s| ≤
      (88 / 1000 + 2 * κ * |s - lenTo l (i + 1)|) * |s - lenTo l (i + 1)| := by
  have hi' : i < l.length := by omega
  have h1 := joined (h.smooth_at hi') (h.smooth_at hi) h.bend a (hb i hi a) (s - lenTo l (i + 1))
  unfold byCurve
  rw [sumTo_succ l i hi']
  have h2 : l[i].shape.len + (s - lenTo l (i + 1)) = s - lenTo l i := by
    rw [lenTo_succ l i hi']; ring
  rw [h2] at h1
  rwa [show sumTo l i a + coord (l[i].shape.pt l[i].shape.len) a + coord (l[i + 1].shape.pt (s - lenTo l (i + 1))) a -
    (sumTo l i a + coord (l[i].shape.pt (s - lenTo l i)) a) =
    coord (l[i].shape.pt l[i].shape.len) a + coord (l[i + 1].shape.pt (s - lenTo l (i + 1))) a -
      coord (l[i].shape.pt (s - lenTo l i)) a by ring]

theorem Run.by_lip (h : Run M v D ε κ N l) {i : ℕ} (hi : i < l.length) (a : Axis) (s s' : ℝ) :
    |byCurve l i hi a s - byCurve l i hi a s'| ≤ |s - s'| := by
  unfold byCurve
  rw [add_sub_add_left_eq_sub]
  have := (h.smooth_at hi).lip a (s' - lenTo l i) (s - lenTo l i)
  rwa [sub_sub_sub_cancel_right] at this

theorem Run.by_tangent (h : Run M v D ε κ N l) {i : ℕ} (hi : i < l.length) (a : Axis) (s s' : ℝ) :
    |byCurve l i hi a s' - byCurve l i hi a s - coord (l[i].shape.dir (s - lenTo l i)) a * (s' - s)| ≤ κ * |s' - s| * |s' - s| := by
  unfold byCurve
  rw [add_sub_add_left_eq_sub]
  have := (h.smooth_at hi).tangent h.bend a (s - lenTo l i) (s' - lenTo l i)
  rwa [sub_sub_sub_cancel_right] at this

end

/-- `Run.tick` with these. -/
theorem Run.tick' {fl : ℝ → ℝ} (R : FloatRounding fl) {e : Env} {aMax vMax : Axis → ℤ} {v S M D ε κ : ℝ} {N m : ℕ}
    (L : CurveLimits e aMax vMax v S M D ε κ N m) (hv2 : ∀ i, vMax i < 2 ^ 30) (hf : Searches e) {l : List Piece}
    (h : Run M v D ε κ N l) {start : Vec} (hs : ∀ a, |coord start a| ≤ M) (a : Axis) {k n : ℕ}
    (hn : approxSteps fl (concatInfo fl e (glue fl (computed l))) v = n) (hk : k ≤ n) :
    ∃ i, ∃ hi : i < l.length, lenTo l i ≤ k * (lenAt fl (computed l) l.length / n) + v / 250 ∧
      k * (lenAt fl (computed l) l.length / n) ≤ lenTo l (i + 1) + v / 250 ∧
      |floatPos fl e start (concatInfo fl e (glue fl (computed l))) v a k -
        (coord start a + byCurve l i hi a (k * (lenAt fl (computed l) l.length / n))) * e.stepScale a| ≤ 1 / 60 ∧
      |floatVel fl e (concatInfo fl e (glue fl (computed l))) v a k -
        coord (l[i].shape.dir (k * (lenAt fl (computed l) l.length / n) - lenTo l i)) a * v * e.stepScale a / 2| ≤ 1 / 1000 * S ∧
      (k = 0 → floatPos fl e start (concatInfo fl e (glue fl (computed l))) v a k =
        fl (fl (coord start a) * e.stepScale a)) := by
  have hvg : v * e.stepScale a ≤ 2 ^ 31 := by
    have h1 := L.speed a
    have h2 : (vMax a : ℝ) < 2 ^ 30 := by exact_mod_cast hv2 a
    have := L.one
    linarith
  have hg0 : 0 < e.stepScale a := lt_of_lt_of_le (by norm_num) (L.scale a)
  have hv := h.pos
  have hκ := h.bend
  obtain ⟨i, hi, q1, q2, q3, q4, q5⟩ := h.tick R hf (hs a) (L.scale a) (L.range a) (L.steps a)
    (by linarith [L.dirs']) (L.turn a) hvg hn hk
  refine ⟨i, hi, q1, q2, q3, q4.trans ?_, fun h0 => (q5 h0).2⟩
  have h1 := L.slow a
  have h2 : 0 ≤ v * e.stepScale a * (89 / 1000 + 11 / (20 * m)) := by positivity
  have h3 : v * e.stepScale a * (89 / 1000 + 11 / (20 * m) + 5 * (κ * v)) =
    v * e.stepScale a * (89 / 1000 + 11 / (20 * m)) + 5 * (κ * v * v * e.stepScale a) := by ring
  have := L.one
  linarith

set_option maxHeartbeats 1000000 in
theorem Run.smoothed {fl : ℝ → ℝ} (R : FloatRounding fl) {e : Env} {aMax vMax : Axis → ℤ} {v S M D ε κ : ℝ} {N m : ℕ}
    (L : CurveLimits e aMax vMax v S M D ε κ N m) (hv2 : ∀ i, vMax i < 2 ^ 30) (hf : Searches e) {l : List Piece}
    (h : Run M v D ε κ N l)
    (hb : Bending l) (hm : ∀ x ∈ l, m * v ≤ x.shape.len) {start : Vec} (hs : ∀ a, |coord start a| ≤ M) (a : Axis) :
    FloatSmooth (floatPos fl e start (concatInfo fl e (glue fl (computed l))) v a)
      (floatVel fl e (concatInfo fl e (glue fl (computed l))) v a)
      (approxSteps fl (concatInfo fl e (glue fl (computed l))) v) (aMax a) (vMax a) S := by
  obtain ⟨-, c2, c3, c4⟩ := h.tick_count R e
  have T' := fun k hk => h.tick' R L hv2 hf hs a (k := k) rfl hk
  set n := approxSteps fl (concatInfo fl e (glue fl (computed l))) v with hn
  set P := floatPos fl e start (concatInfo fl e (glue fl (computed l))) v a with hP
  set V := floatVel fl e (concatInfo fl e (glue fl (computed l))) v a with hV
  set T := lenAt fl (computed l) l.length with hT
  have hv := h.pos
  have hκ := h.bend
  have hg0 : 0 < e.stepScale a := lt_of_lt_of_le (by norm_num) (L.scale a)
  have hslow := L.slow a
  have hspeed := L.speed a
  have hone := L.one
  have hrange := L.range a
  have htot := abs_le.1 (h.total_near R)
  rw [← hT] at htot
  have hMv := h.M_pos
  set g := e.stepScale a with hg
  have hvg0 : 0 < v * g := by positivity
  have hm2 : (2 : ℝ) ≤ m := by exact_mod_cast L.two
  -- the number of ticks
  have hl : 0 < l.length := List.length_pos_iff.2 h.ne
  have hmT : m * v ≤ lenTo l l.length := by
    have x := h.mono (j := 1) hl le_rfl
    rw [lenTo_succ l 0 hl, lenTo_zero] at x
    have := hm _ (List.getElem_mem hl)
    linarith
  have hnm : (m : ℝ) ≤ n := by
    have h1 : m - 1 / 512 ≤ T / v := by
      rw [le_div_iff₀ hv]
      nlinarith [htot.1]
    have h2 := (abs_le.1 c2).1
    have h3 : (m : ℝ) < n + 1 := by linarith
    have h4 : m < n + 1 := by exact_mod_cast h3
    have : m ≤ n := by omega
    exact_mod_cast this
  have hn0 : (0 : ℝ) < n := by linarith
  obtain ⟨d1, -⟩ := tick_near R c3 c4 (le_refl n) c2 h.tiny (T := T) (M := M) (by linarith [h.total]) h.ticks
  have hinv : (1 / 2 + 1 / 2 ^ 18) * v / n ≤ (501 / 1000) * v / m := by
    gcongr
    norm_num
  have hdv : |T / n - v| ≤ 501 / 1000 * v / m := d1.trans hinv
  have hvm : 501 / 1000 * v / m ≤ 2505 / 10000 * v := by
    rw [div_le_iff₀ (by linarith)]
    nlinarith
  obtain ⟨t1, t2⟩ := abs_le.1 hdv
  set len := T / n with hlen
  have hlen0 : 0 < len := by linarith
  have hlen1 : len ≤ 12505 / 10000 * v := by linarith
  have hκv : 0 ≤ κ * v := by positivity
  have hseg : ∀ i, ∀ hi : i < l.length, 2 * v ≤ l[i].shape.len := fun i hi => h.seg_long hi
  -- from one tick to the next
  have next : ∀ k < n, ∃ i j, ∃ hi : i < l.length, ∃ hj : j < l.length,
      |P k - (coord start a + byCurve l i hi a (k * len)) * g| ≤ 1 / 60 ∧
      |P (k + 1) - (coord start a + byCurve l j hj a ((k + 1 : ℕ) * len)) * g| ≤ 1 / 60 ∧
      |V k - coord (l[i].shape.dir (k * len - lenTo l i)) a * v * g / 2| ≤ 1 / 1000 * S ∧
      |V (k + 1) - coord (l[j].shape.dir ((k + 1 : ℕ) * len - lenTo l j)) a * v * g / 2| ≤ 1 / 1000 * S ∧
      (j = i ∨ j = i + 1) ∧ lenTo l i ≤ k * len + v / 250 ∧ k * len ≤ lenTo l (i + 1) + v / 250 ∧
      lenTo l j ≤ (k + 1 : ℕ) * len + v / 250 := by
    intro k hk
    obtain ⟨i, hi, p1, p2, p3, p4, -⟩ := T' k hk.le
    obtain ⟨j, hj, q1, q2, q3, q4, -⟩ := T' (k + 1) hk
    refine ⟨i, j, hi, hj, p3, q3, p4, q4, ?_, p1, p2, q1⟩
    have e1 : ((k + 1 : ℕ) : ℝ) * len = k * len + len := by push_cast; ring
    rw [e1] at q1 q2
    by_contra hc
    rcases Nat.lt_or_ge j i with h1 | h1
    · have := h.mono (j := j + 1) (k := i) h1 hi.le
      linarith
    · have h2 : i + 1 < l.length := by omega
      have := h.mono (j := i + 1 + 1) (k := j) (by omega) hj.le
      have h3 := lenTo_succ l (i + 1) h2
      have := hseg (i + 1) h2
      linarith
  have small : κ * len * len ≤ 1564 / 1000 * (κ * v) * v := by
    have h1 : len * len ≤ 12505 / 10000 * v * (12505 / 10000 * v) := mul_le_mul hlen1 hlen1 hlen0.le (by positivity)
    have h2 : len * len ≤ 1564 / 1000 * (v * v) := by nlinarith [mul_pos hv hv]
    have h3 := mul_le_mul_of_nonneg_left h2 hκ
    linarith [show κ * len * len = κ * (len * len) by ring, show 1564 / 1000 * (κ * v) * v = κ * (1564 / 1000 * (v * v)) by ring]
  refine ⟨hone, L.big, L.acc a, ?_, ?_, ?_, ?_⟩
  · intro k hk
    obtain ⟨i, j, hi, hj, -, q3, -, -, -, -, -, q1⟩ := next k hk
    have b1 := h.sum_le j hj.le a
    have b2 := h.len_le (j := j) hj.le
    have b3 := hs a
    have kl : ((k + 1 : ℕ) : ℝ) * len ≤ T := by
      have hk' : ((k + 1 : ℕ) : ℝ) ≤ n := by exact_mod_cast hk
      rw [hlen, mul_div_assoc', div_le_iff₀ hn0]
      have : 0 < T := by
        have : 0 ≤ lenTo l l.length := h.nonneg le_rfl
        nlinarith [htot.1, L.two]
      nlinarith
    have b4 : |coord (l[j].shape.pt ((k + 1 : ℕ) * len - lenTo l j)) a| ≤ 2 * M := by
      have : |((k + 1 : ℕ) : ℝ) * len - lenTo l j| ≤ 2 * M := by
        have := h.total
        have := h.nonneg (j := j) hj.le
        have := htot.2
        rw [abs_le]; constructor <;> linarith
      exact ((h.smooth_at hj).le a _).trans this
    have b5 : |coord start a + byCurve l j hj a ((k + 1 : ℕ) * len)| ≤ 4 * M := by
      unfold byCurve
      obtain ⟨x1, x2⟩ := abs_le.1 b1
      obtain ⟨y1, y2⟩ := abs_le.1 b3
      obtain ⟨z1, z2⟩ := abs_le.1 b4
      rw [abs_le]; constructor <;> linarith
    have b6 : |(coord start a + byCurve l j hj a ((k + 1 : ℕ) * len)) * g| ≤ 2 ^ 41 := by
      rw [abs_mul, abs_of_pos hg0]
      have h1 : |coord start a + byCurve l j hj a ((k + 1 : ℕ) * len)| * g ≤ 4 * M * g :=
        mul_le_mul_of_nonneg_right b5 hg0.le
      linarith
    obtain ⟨x1, x2⟩ := abs_le.1 q3
    obtain ⟨y1, y2⟩ := abs_le.1 b6
    rw [abs_le]; constructor <;> linarith
  · intro k hk
    obtain ⟨i, j, hi, hj, p3, q3, p4, -, hij, p1, p2, q1⟩ := next k hk
    have e1 : ((k + 1 : ℕ) : ℝ) * len = k * len + len := by push_cast; ring
    have b1 : |byCurve l j hj a ((k + 1 : ℕ) * len) - byCurve l i hi a (k * len) -
        coord (l[i].shape.dir (k * len - lenTo l i)) a * v| ≤ v * (89 / 1000 + 11 / (20 * m) + 5 * (κ * v)) := by
      have b2 := h.by_tangent hi a (k * len) ((k + 1 : ℕ) * len)
      rw [show ((k + 1 : ℕ) : ℝ) * len - k * len = len by rw [e1]; ring, abs_of_pos hlen0] at b2
      have b3 : |coord (l[i].shape.dir (k * len - lenTo l i)) a * (len - v)| ≤ 501 / 1000 * v / m := by
        rw [abs_mul]
        exact (mul_le_of_le_one_left (abs_nonneg _) ((h.smooth_at hi).dir_le a _)).trans hdv
      have hvm' : v * (89 / 1000 + 11 / (20 * m) + 5 * (κ * v)) = 89 / 1000 * v + 55 / 100 * (v / m) + 5 * (κ * v) * v := by
        field_simp
        ring
      have hvm'' : 501 / 1000 * v / m = 501 / 1000 * (v / m) := by ring
      have hvm0 : 0 < v / m := by positivity
      have hkvv : 0 ≤ κ * v * v := by positivity
      rw [hvm']
      rw [hvm''] at b3 t1 t2
      generalize coord (l[i].shape.dir (k * len - lenTo l i)) a = dr at *
      obtain ⟨x1, x2⟩ := abs_le.1 b2
      obtain ⟨y1, y2⟩ := abs_le.1 b3
      rcases hij with rfl | rfl
      · rw [abs_le]; constructor <;> linarith
      · have b4 := h.next_curve hb hj a ((k + 1 : ℕ) * len)
        have hh : |((k + 1 : ℕ) : ℝ) * len - lenTo l (i + 1)| ≤ len + v / 250 := by
          rw [e1] at q1 ⊢
          rw [abs_le]; constructor <;> linarith
        have b5 : (88 / 1000 + 2 * κ * |((k + 1 : ℕ) : ℝ) * len - lenTo l (i + 1)|) *
            |((k + 1 : ℕ) : ℝ) * len - lenTo l (i + 1)| ≤ 88 / 1000 * (len + v / 250) + 316 / 100 * (κ * v) * v := by
          have hw0 := abs_nonneg (((k + 1 : ℕ) : ℝ) * len - lenTo l (i + 1))
          generalize |((k + 1 : ℕ) : ℝ) * len - lenTo l (i + 1)| = w at *
          have hw1 : w ≤ 1255 / 1000 * v := by linarith
          have hww : w * w ≤ 158 / 100 * (v * v) := by
            have := mul_le_mul hw1 hw1 hw0 (by positivity)
            nlinarith [mul_pos hv hv]
          have := mul_le_mul_of_nonneg_left hww hκ
          linarith [show (88 / 1000 + 2 * κ * w) * w = 88 / 1000 * w + 2 * (κ * (w * w)) by ring,
            show κ * (158 / 100 * (v * v)) = 158 / 100 * (κ * v) * v by ring]
        obtain ⟨z1, z2⟩ := abs_le.1 (b4.trans b5)
        rw [abs_le]; constructor <;> linarith
    have b2 : |(coord start a + byCurve l j hj a ((k + 1 : ℕ) * len)) * g - (coord start a + byCurve l i hi a (k * len)) * g -
        2 * (coord (l[i].shape.dir (k * len - lenTo l i)) a * v * g / 2)| ≤ 46 / 100 * S := by
      rw [show (coord start a + byCurve l j hj a ((k + 1 : ℕ) * len)) * g - (coord start a + byCurve l i hi a (k * len)) * g -
        2 * (coord (l[i].shape.dir (k * len - lenTo l i)) a * v * g / 2) =
        (byCurve l j hj a ((k + 1 : ℕ) * len) - byCurve l i hi a (k * len) -
          coord (l[i].shape.dir (k * len - lenTo l i)) a * v) * g by ring, abs_mul, abs_of_pos hg0]
      refine (mul_le_mul_of_nonneg_right b1 hg0.le).trans ?_
      linarith [show v * (89 / 1000 + 11 / (20 * m) + 5 * (κ * v)) * g =
        v * g * (89 / 1000 + 11 / (20 * (m : ℝ)) + 5 * (κ * v)) by ring]
    obtain ⟨x1, x2⟩ := abs_le.1 p3
    obtain ⟨y1, y2⟩ := abs_le.1 q3
    obtain ⟨z1, z2⟩ := abs_le.1 p4
    obtain ⟨w1, w2⟩ := abs_le.1 b2
    rw [abs_le]; constructor <;> linarith
  · intro k hk
    obtain ⟨i, j, hi, hj, -, -, p4, q4, hij, p1, p2, q1⟩ := next k hk
    have e1 : ((k + 1 : ℕ) : ℝ) * len = k * len + len := by push_cast; ring
    have b0 : |coord (l[j].shape.dir ((k + 1 : ℕ) * len - lenTo l j)) a - coord (l[i].shape.dir (k * len - lenTo l i)) a| ≤
        88 / 1000 + 13 / 10 * (κ * v) := by
      rcases hij with rfl | rfl
      · have := (h.smooth_at hi).bends a ((k + 1 : ℕ) * len - lenTo l j) (k * len - lenTo l j)
        rw [show ((k + 1 : ℕ) : ℝ) * len - lenTo l j - (k * len - lenTo l j) = len by rw [e1]; ring, abs_of_pos hlen0] at this
        have h2 := mul_le_mul_of_nonneg_left hlen1 hκ
        linarith
      · have u1 := (h.smooth_at hj).bends a ((k + 1 : ℕ) * len - lenTo l (i + 1)) 0
        have u2 := (h.smooth_at hi).bends a l[i].shape.len (k * len - lenTo l i)
        have u3 := hb i hj a
        rw [sub_zero] at u1
        have hls := lenTo_succ l i hi
        have u4 : |((k + 1 : ℕ) : ℝ) * len - lenTo l (i + 1)| + |l[i].shape.len - (k * len - lenTo l i)| ≤ 13 / 10 * v := by
          rw [e1] at q1 ⊢
          rcases abs_cases (k * len + len - lenTo l (i + 1)) with ⟨h1, _⟩ | ⟨h1, _⟩ <;>
          rcases abs_cases (l[i].shape.len - (k * len - lenTo l i)) with ⟨h2, _⟩ | ⟨h2, _⟩ <;> rw [h1, h2] <;> linarith
        have u5 := mul_le_mul_of_nonneg_left u4 hκ
        rw [mul_add] at u5
        obtain ⟨x1, x2⟩ := abs_le.1 u1
        obtain ⟨y1, y2⟩ := abs_le.1 u2
        obtain ⟨z1, z2⟩ := abs_le.1 u3
        rw [abs_le]; constructor <;> linarith
    have b1 : |coord (l[j].shape.dir ((k + 1 : ℕ) * len - lenTo l j)) a * v * g / 2 -
        coord (l[i].shape.dir (k * len - lenTo l i)) a * v * g / 2| ≤ 23 / 100 * S := by
      rw [← sub_div, ← sub_mul, ← sub_mul, mul_assoc, mul_div_assoc, abs_mul,
        abs_of_pos (a := v * g / 2) (by positivity)]
      refine (mul_le_mul_of_nonneg_right b0 (by positivity)).trans ?_
      have h1 : 0 ≤ v * g * (11 / (20 * m)) := by positivity
      have h2 : 0 ≤ v * g * (κ * v) := by positivity
      linarith [show v * g * (89 / 1000 + 11 / (20 * m) + 5 * (κ * v)) =
        v * g * (89 / 1000) + v * g * (11 / (20 * (m : ℝ))) + 5 * (v * g * (κ * v)) by ring,
        show (88 / 1000 + 13 / 10 * (κ * v)) * (v * g / 2) = 44 / 1000 * (v * g) + 65 / 100 * (v * g * (κ * v)) by ring]
    obtain ⟨z1, z2⟩ := abs_le.1 p4
    obtain ⟨w1, w2⟩ := abs_le.1 q4
    obtain ⟨x1, x2⟩ := abs_le.1 b1
    rw [abs_le]; constructor <;> linarith
  · intro k hk
    obtain ⟨i, j, hi, hj, -, -, -, q4, -⟩ := next k hk
    have b1 : |coord (l[j].shape.dir ((k + 1 : ℕ) * len - lenTo l j)) a * v * g / 2| ≤ v * g / 2 := by
      rw [mul_assoc, mul_div_assoc, abs_mul, abs_of_pos (a := v * g / 2) (by positivity)]
      exact mul_le_of_le_one_left (by positivity) ((h.smooth_at hj).dir_le a _)
    obtain ⟨w1, w2⟩ := abs_le.1 q4
    obtain ⟨x1, x2⟩ := abs_le.1 b1
    have : |V (k + 1)| ≤ v * g / 2 + 1 / 1000 * S := by rw [abs_le]; constructor <;> linarith
    linarith

/-! ### Where they lead -/

theorem pathLen_eq (l : List Piece) : pathLen (l.map Piece.placed) = lenTo l l.length := by
  unfold pathLen lenTo
  rw [List.take_length, List.map_map]
  rfl

theorem placed_coord (x : Piece) (s : ℝ) (a : Axis) : coord (placedAt x.placed s) a = coord x.start a + coord (x.shape.pt s) a := by
  cases a <;> rfl

theorem lenTo_cons (x : Piece) (l : List Piece) (j : ℕ) : lenTo (x :: l) (j + 1) = x.shape.len + lenTo l j := by
  simp only [lenTo, List.take_succ_cons, List.map_cons, List.sum_cons]

/-- The point at the length `s` is on one of the pieces. -/
theorem path_spec (l : List Piece) (hne : l ≠ []) {s : ℝ} (h0 : 0 ≤ s) (h1 : s ≤ pathLen (l.map Piece.placed)) :
    ∃ i, ∃ hi : i < l.length, lenTo l i ≤ s ∧ s ≤ lenTo l (i + 1) ∧
      ∀ a, coord (pathAt (l.map Piece.placed) s) a = coord l[i].start a + coord (l[i].shape.pt (s - lenTo l i)) a := by
  induction l generalizing s with
  | nil => exact absurd rfl hne
  | cons x l ih =>
    cases l with
    | nil =>
      refine ⟨0, by simp, by rw [lenTo_zero]; exact h0, ?_, fun a => ?_⟩
      · rw [pathLen_eq] at h1
        exact h1
      · rw [lenTo_zero, sub_zero]
        exact placed_coord x s a
    | cons y l =>
      by_cases hs : s ≤ x.shape.len
      · refine ⟨0, by simp, by rw [lenTo_zero]; exact h0, ?_, fun a => ?_⟩
        · rw [lenTo_cons, lenTo_zero, add_zero]
          exact hs
        · rw [lenTo_zero, sub_zero]
          have : pathAt (List.map Piece.placed (x :: y :: l)) s = placedAt x.placed s := by
            simp only [List.map_cons, pathAt]
            exact if_pos hs
          rw [this]
          exact placed_coord x s a
      · have hs' := not_le.1 hs
        have h2 : pathLen ((x :: y :: l).map Piece.placed) = x.shape.len + pathLen ((y :: l).map Piece.placed) := by
          simp only [pathLen, List.map_cons, List.sum_cons, Piece.placed]
        obtain ⟨i, hi, q1, q2, q3⟩ := ih (s := s - x.shape.len) (by simp) (by linarith) (by linarith)
        refine ⟨i + 1, by simpa using hi, by rw [lenTo_cons]; linarith, by rw [lenTo_cons]; linarith, fun a => ?_⟩
        have : pathAt (List.map Piece.placed (x :: y :: l)) s = pathAt (List.map Piece.placed (y :: l)) (s - x.shape.len) := by
          simp only [List.map_cons, pathAt]
          exact if_neg hs
        rw [this, lenTo_cons]
        have := q3 a
        simp only [List.getElem_cons_succ]
        rw [show s - (x.shape.len + lenTo (y :: l) i) = s - x.shape.len - lenTo (y :: l) i by ring]
        exact this

/-- The ends of the pieces are where the next ones start, up to `r`. -/
def Offsets (l : List Piece) (start : Vec) (r : ℝ) : Prop :=
  ∀ i, ∀ h : i < l.length, ∀ a, |coord start a + sumTo l i a - coord l[i].start a| ≤ r

/-- The computed points are along the pieces. -/
theorem Run.along {fl : ℝ → ℝ} (R : FloatRounding fl) {e : Env} {aMax vMax : Axis → ℤ} {v S M D ε κ : ℝ} {N m : ℕ}
    (L : CurveLimits e aMax vMax v S M D ε κ N m) (hv2 : ∀ i, vMax i < 2 ^ 30) (hf : Searches e) {l : List Piece}
    (h : Run M v D ε κ N l) (hb : Bending l) {start : Vec} (hs : ∀ a, |coord start a| ≤ M) {r : ℝ} (ho : Offsets l start r)
    (a : Axis) {k n : ℕ}
    (hn : approxSteps fl (concatInfo fl e (glue fl (computed l))) v = n) (hk : k ≤ n) :
    |floatPos fl e start (concatInfo fl e (glue fl (computed l))) v a k -
      coord (pathAt (l.map Piece.placed) (pathLen (l.map Piece.placed) * (k / n))) a * e.stepScale a| ≤
        3 / 100 * S + r * e.stepScale a := by
  obtain ⟨-, -, c3, -⟩ := h.tick_count R e
  rw [hn] at c3
  have hn0 : (0 : ℝ) < n := by
    have : 0 < n := by omega
    exact_mod_cast this
  have hkr : (k : ℝ) ≤ n := by exact_mod_cast hk
  have fr0 : (0 : ℝ) ≤ k / n := by positivity
  have fr1 : (k : ℝ) / n ≤ 1 := (div_le_one hn0).2 hkr
  have hv := h.pos
  have hκ := h.bend
  have hg0 : 0 < e.stepScale a := lt_of_lt_of_le (by norm_num) (L.scale a)
  have hone := L.one
  obtain ⟨j, hj, q1, q2, q3, -, -⟩ := h.tick' R L hv2 hf hs a hn hk
  have htot : |lenAt fl (computed l) l.length - lenTo l l.length| ≤ 9 / 8 * (N * D) := by
    refine (h.len_near R (j := l.length) le_rfl).trans ?_
    have : (l.length : ℝ) * D ≤ N * D := by
      apply mul_le_mul_of_nonneg_right _ h.D_pos.le
      exact_mod_cast h.count
    linarith
  have hsmall : 9 / 8 * (N * D) ≤ v / 512 := by
    have h1 := h.fine
    linarith
  have hsteps := L.steps a
  set T := lenAt fl (computed l) l.length with hT
  have hΛ : 0 ≤ pathLen (l.map Piece.placed) := by rw [pathLen_eq]; exact h.nonneg le_rfl
  rw [← pathLen_eq] at htot
  set s := pathLen (l.map Piece.placed) * (k / n) with hsdef
  have hs0 : 0 ≤ s := mul_nonneg hΛ fr0
  have hs1 : s ≤ pathLen (l.map Piece.placed) := mul_le_of_le_one_right hΛ fr1
  have hss : |k * (T / n) - s| ≤ 9 / 8 * (N * D) := by
    rw [show k * (T / n) - s = (T - pathLen (l.map Piece.placed)) * (k / n) by rw [hsdef]; ring, abs_mul, abs_of_nonneg fr0]
    exact (mul_le_of_le_one_right (abs_nonneg _) fr1).trans htot
  obtain ⟨i, hi, p1, p2, p3⟩ := path_spec l h.ne hs0 hs1
  obtain ⟨s1, s2⟩ := abs_le.1 (hss.trans hsmall)
  have hseg : ∀ i, ∀ hi : i < l.length, 2 * v ≤ l[i].shape.len := fun i hi => h.seg_long hi
  have hκv := L.bend'
  have near : ∀ w : ℝ, 0 ≤ w → w ≤ v / 100 → (88 / 1000 + 2 * κ * w) * w ≤ 91 / 1000 * (v / 100) := by
    intro w h0 h1
    have h2 : κ * w ≤ κ * (v / 100) := mul_le_mul_of_nonneg_left h1 hκ
    have h3 : 88 / 1000 + 2 * κ * w ≤ 91 / 1000 := by linarith
    exact mul_le_mul h3 h1 h0 (by norm_num)
  -- by the next piece
  have b1 : |byCurve l j hj a s - byCurve l i hi a s| ≤ 91 / 1000 * (v / 100) := by
    by_cases hij : j = i
    · subst hij
      rw [sub_self, abs_zero]
      positivity
    · rcases Nat.lt_or_ge j i with h1 | h1
      · have h2 : i = j + 1 := by
          by_contra hc
          have := h.mono (j := j + 1 + 1) (k := i) (by omega) hi.le
          have h3 := lenTo_succ l (j + 1) (by omega)
          have := hseg (j + 1) (by omega)
          linarith
        subst h2
        rw [abs_sub_comm]
        refine (h.next_curve hb hi a s).trans (near _ (abs_nonneg _) ?_)
        rw [abs_le]; constructor <;> linarith
      · have h2 : j = i + 1 := by
          by_contra hc
          have := h.mono (j := i + 1 + 1) (k := j) (by omega) hj.le
          have h3 := lenTo_succ l (i + 1) (by omega)
          have := hseg (i + 1) (by omega)
          linarith
        subst h2
        refine (h.next_curve hb hj a s).trans (near _ (abs_nonneg _) ?_)
        rw [abs_le]; constructor <;> linarith
  have b2 := (h.by_lip hj a (k * (T / n)) s).trans hss
  have b3 : |coord start a + byCurve l i hi a s - coord (pathAt (l.map Piece.placed) s) a| ≤ r := by
    rw [p3 a]
    unfold byCurve
    rw [show coord start a + (sumTo l i a + coord (l[i].shape.pt (s - lenTo l i)) a) -
      (coord l[i].start a + coord (l[i].shape.pt (s - lenTo l i)) a) = coord start a + sumTo l i a - coord l[i].start a by ring]
    exact ho i hi a
  have b4 : |(coord start a + byCurve l j hj a (k * (T / n))) * e.stepScale a -
      coord (pathAt (l.map Piece.placed) s) a * e.stepScale a| ≤
      9 / 8 * (N * D * e.stepScale a) + 91 / 1000 * (v / 100) * e.stepScale a + r * e.stepScale a := by
    rw [← mul_assoc (9 / 8 : ℝ), ← sub_mul, abs_mul, abs_of_pos hg0, ← add_mul, ← add_mul]
    apply mul_le_mul_of_nonneg_right _ hg0.le
    obtain ⟨x1, x2⟩ := abs_le.1 b1
    obtain ⟨y1, y2⟩ := abs_le.1 b2
    obtain ⟨z1, z2⟩ := abs_le.1 b3
    rw [abs_le]; constructor <;> linarith
  have b5 : 91 / 1000 * (v / 100) * e.stepScale a ≤ 6 / 1000 * S := by
    have h1 := L.slow a
    have h2 : 0 ≤ v * e.stepScale a * (11 / (20 * m)) := by positivity
    have h2' : 0 ≤ v * e.stepScale a * (5 * (κ * v)) := by positivity
    have h3 : v * e.stepScale a * (89 / 1000 + 11 / (20 * m) + 5 * (κ * v)) =
      v * e.stepScale a * (89 / 1000) + v * e.stepScale a * (11 / (20 * m)) + v * e.stepScale a * (5 * (κ * v)) := by ring
    have h4 : 0 < v * e.stepScale a := by positivity
    linarith
  obtain ⟨x1, x2⟩ := abs_le.1 q3
  obtain ⟨y1, y2⟩ := abs_le.1 b4
  rw [abs_le]; constructor <;> linarith

/-- No corner between two pieces. -/
theorem no_corner {fl : ℝ → ℝ} (R : FloatRounding fl) {x y : Piece} {D ε κ w : ℝ} (hx : x.shape.Smooth κ) (hy : y.shape.Smooth κ)
    (nx : Near x.curve x.shape D ε w) (ny : Near y.curve y.shape D ε w) (hDw : D ≤ w) (hlen : D ≤ x.shape.len)
    (hlen' : 0 ≤ y.shape.len) (hε : ε ≤ 1 / 1000000) (hκ : 0 ≤ κ) (hκD : κ * D ≤ 1 / 4000)
    (h : ¬ fl (fl ((y.curve.value 0).2.x * (x.curve.value x.curve.length).2.x) +
      fl ((y.curve.value 0).2.y * (x.curve.value x.curve.length).2.y)) < fl minCosConnect) (a : Axis) :
    |coord (y.shape.dir 0) a - coord (x.shape.dir x.shape.len) a| ≤ 88 / 1000 := by
  obtain ⟨l1, l2⟩ := abs_le.1 nx.len
  have hD0 : 0 ≤ D := (abs_nonneg _).trans nx.len
  have kx := fun i => nx.dir x.curve.length (by linarith) (by linarith) i
  have ky := fun i => ny.dir 0 (by linarith) (by linarith) i
  have d1 : ∀ i, |coord (x.shape.dir x.curve.length) i| ≤ 1 := fun i => hx.dir_le i _
  have d2 : ∀ i, |coord (y.shape.dir 0) i| ≤ 1 := fun i => hy.dir_le i _
  have hd : HasDirs x.curve y.curve := by
    intro i
    obtain ⟨a1, a2⟩ := abs_le.1 (kx i)
    obtain ⟨b1, b2⟩ := abs_le.1 (ky i)
    obtain ⟨c1, c2⟩ := abs_le.1 (d1 i)
    obtain ⟨e1, e2⟩ := abs_le.1 (d2 i)
    constructor <;> rw [abs_le] <;> norm_num at * <;> constructor <;> linarith
  have hc := (turns_cases R hd).2 h
  unfold cosBetween at hc
  have kx1 := kx .x
  have kx2 := kx .y
  have ky1 := ky .x
  have ky2 := ky .y
  have e1 := d1 .x
  have e2 := d1 .y
  have f1 := d2 .x
  have f2 := d2 .y
  have ux := hx.unit x.curve.length
  have uy := hy.unit 0
  have hb := hx.bends a x.curve.length x.shape.len
  have hb' : |coord (x.shape.dir x.curve.length) a - coord (x.shape.dir x.shape.len) a| ≤ 1 / 4000 :=
    hb.trans ((mul_le_mul_of_nonneg_left nx.len hκ).trans hκD)
  have prod : ∀ {p q p' q' : ℝ}, |p| ≤ 1 → |q| ≤ 1 → |p' - p| ≤ ε → |q' - q| ≤ ε →
      p' * q' - p * q ≤ 3 / 1000000 := by
    intro p q p' q' hp hq hp' hq'
    have e1 : p' * q' - p * q = (p' - p) * q' + p * (q' - q) := by ring
    have hq2 : |q'| ≤ 2 := by
      obtain ⟨a1, a2⟩ := abs_le.1 hq
      obtain ⟨b1, b2⟩ := abs_le.1 hq'
      rw [abs_le]; constructor <;> linarith
    have e2 : |(p' - p) * q'| ≤ 1 / 1000000 * 2 := by
      rw [abs_mul]; exact mul_le_mul (hp'.trans hε) hq2 (abs_nonneg _) (by norm_num)
    have e3 : |p * (q' - q)| ≤ 1 * (1 / 1000000) := by
      rw [abs_mul]; exact mul_le_mul hp (hq'.trans hε) (abs_nonneg _) (by norm_num)
    have := (abs_le.1 e2).2
    have := (abs_le.1 e3).2
    rw [e1]
    linarith
  have p1 := prod e1 f1 kx1 ky1
  have p2 := prod e2 f2 kx2 ky2
  have hdiff : |coord (y.shape.dir 0) a - coord (x.shape.dir x.curve.length) a| ≤ 875 / 10000 := by
    have hdot : 99619 / 100000 - 1 / 10 ^ 5 ≤ coord (x.shape.dir x.curve.length) .x * coord (y.shape.dir 0) .x +
        coord (x.shape.dir x.curve.length) .y * coord (y.shape.dir 0) .y := by
      simp only [coord] at *
      norm_num at *
      linarith
    simp only [coord] at hdot
    have hsq : ((y.shape.dir 0).x - (x.shape.dir x.curve.length).x) ^ 2 +
        ((y.shape.dir 0).y - (x.shape.dir x.curve.length).y) ^ 2 ≤ (875 / 10000) ^ 2 := by
      have e : ((y.shape.dir 0).x - (x.shape.dir x.curve.length).x) ^ 2 +
        ((y.shape.dir 0).y - (x.shape.dir x.curve.length).y) ^ 2 =
          ((y.shape.dir 0).x ^ 2 + (y.shape.dir 0).y ^ 2) +
          ((x.shape.dir x.curve.length).x ^ 2 + (x.shape.dir x.curve.length).y ^ 2) -
          2 * ((x.shape.dir x.curve.length).x * (y.shape.dir 0).x + (x.shape.dir x.curve.length).y * (y.shape.dir 0).y) := by ring
      rw [e, ux, uy]
      norm_num at *
      linarith
    apply abs_le_of_sq_le_sq _ (by norm_num)
    cases a
    · simp only [coord]
      nlinarith [sq_nonneg ((y.shape.dir 0).y - (x.shape.dir x.curve.length).y)]
    · simp only [coord]
      nlinarith [sq_nonneg ((y.shape.dir 0).x - (x.shape.dir x.curve.length).x)]
  obtain ⟨a1, a2⟩ := abs_le.1 hdiff
  obtain ⟨b1, b2⟩ := abs_le.1 hb'
  rw [abs_le]; constructor <;> linarith

end StepperPaths.Rounded.CurvePath
