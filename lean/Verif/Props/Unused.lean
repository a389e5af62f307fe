import Verif.Model.Unused
import Mathlib.Tactic.Linarith
import Mathlib.Tactic.FieldSimp
import Mathlib.Tactic.Ring
import Mathlib.Tactic.NormNum
import Mathlib.Tactic.Positivity
import Mathlib.Tactic.LinearCombination

/-!
C119 and C120: the code that is in the repository, but not in the crate.
-/

namespace StepperPaths.Props
open Coords Unused

/-! ### What is to be computed -/

/-- Twice the signed area of the triangle `a b p`: positive if `p` is to the left of the line from `a` to `b`, zero on it. -/
def side (a b p : Vec) : ℝ := (b.x - a.x) * (p.y - a.y) - (b.y - a.y) * (p.x - a.x)

/-- The signed distance of `p` from the line through `a` and `b`. -/
noncomputable def lineDist (a b p : Vec) : ℝ := side a b p / √((b.x - a.x) ^ 2 + (b.y - a.y) ^ 2)

/-- The distance between two points. -/
noncomputable def pointDist (p q : Vec) : ℝ := √((p.x - q.x) ^ 2 + (p.y - q.y) ^ 2)

theorem length_sub (p q : Vec) : (p - q).length = pointDist p q := by
  show √((p.x - q.x) * (p.x - q.x) + (p.y - q.y) * (p.y - q.y)) = _
  unfold pointDist; ring_nf

theorem pointDist_comm (p q : Vec) : pointDist p q = pointDist q p := by
  unfold pointDist; ring_nf

theorem pointDist_pos {p q : Vec} (h : p ≠ q) : 0 < pointDist p q := by
  refine Real.sqrt_pos.mpr ?_
  by_cases hx : p.x = q.x
  · have hy : p.y - q.y ≠ 0 := fun hy => h (Vec.ext hx (by linarith))
    positivity
  · have hx : p.x - q.x ≠ 0 := fun hh => hx (by linarith)
    positivity

/-! ### C119 -/

/-- The point of `incenter_point` has the same signed distance from the three sides of a triangle: twice the area through the
circumference.  So it is the centre of the inscribed circle. -/
theorem C119_incenter (p1 p2 p3 : Vec) (h : side p1 p2 p3 ≠ 0) :
    let r := side p1 p2 p3 / (pointDist p2 p3 + pointDist p1 p3 + pointDist p1 p2)
    lineDist p1 p2 (incenterPoint p1 p2 p3) = r ∧ lineDist p2 p3 (incenterPoint p1 p2 p3) = r ∧
      lineDist p3 p1 (incenterPoint p1 p2 p3) = r ∧ r ≠ 0 := by
  have h12 : p1 ≠ p2 := by rintro rfl; exact h (by unfold side; ring)
  have h13 : p1 ≠ p3 := by rintro rfl; exact h (by unfold side; ring)
  have h23 : p2 ≠ p3 := by rintro rfl; exact h (by unfold side; ring)
  have e : incenterPoint p1 p2 p3 =
      ⟨(p1.x * pointDist p2 p3 + p2.x * pointDist p1 p3 + p3.x * pointDist p1 p2) /
          (pointDist p2 p3 + pointDist p1 p3 + pointDist p1 p2),
       (p1.y * pointDist p2 p3 + p2.y * pointDist p1 p3 + p3.y * pointDist p1 p2) /
          (pointDist p2 p3 + pointDist p1 p3 + pointDist p1 p2)⟩ := by
    unfold incenterPoint; simp only [length_sub]; rfl
  have q1 : √((p2.x - p1.x) ^ 2 + (p2.y - p1.y) ^ 2) = pointDist p1 p2 := pointDist_comm p2 p1
  have q2 : √((p3.x - p2.x) ^ 2 + (p3.y - p2.y) ^ 2) = pointDist p2 p3 := pointDist_comm p3 p2
  have q3 : √((p1.x - p3.x) ^ 2 + (p1.y - p3.y) ^ 2) = pointDist p1 p3 := rfl
  have l1 := pointDist_pos h23
  have l2 := pointDist_pos h13
  have l3 := pointDist_pos h12
  intro r
  simp only [lineDist, q1, q2, q3, e, r]
  generalize pointDist p2 p3 = a at *
  generalize pointDist p1 p3 = b at *
  generalize pointDist p1 p2 = c at *
  have hs : a + b + c ≠ 0 := by positivity
  have := l1.ne'; have := l2.ne'; have := l3.ne'
  refine ⟨?_, ?_, ?_, div_ne_zero h hs⟩ <;> (unfold side; field_simp; ring)

/-- A point of `intersection` is on both lines, and it is the only one. -/
theorem C119_intersection {l1 l2 : Vec × Vec} {p : Vec} (h : intersection l1 l2 = some p) (q : Vec) :
    (side l1.1 l1.2 q = 0 ∧ side l2.1 l2.2 q = 0) ↔ q = p := by
  obtain ⟨⟨a, b⟩, ⟨c, d⟩⟩ := l1
  obtain ⟨⟨e, f⟩, ⟨g, k⟩⟩ := l2
  obtain ⟨u, w⟩ := q
  unfold intersection at h
  simp only at h
  split at h
  · cases h
  · rename_i hd
    have hd' : (0 : ℝ) < (a - c) * (f - k) - (b - d) * (e - g) := lt_trans (by positivity) (not_le.mp hd)
    have hd0 := hd'.ne'
    obtain rfl := Option.some.inj h
    show ((c - a) * (w - b) - (d - b) * (u - a) = 0 ∧ (g - e) * (w - f) - (k - f) * (u - e) = 0) ↔
      Vec.mk u w = ⟨((a * d - b * c) * (e - g) - (e * k - f * g) * (a - c)) / ((a - c) * (f - k) - (b - d) * (e - g)),
        ((a * d - b * c) * (f - k) - (e * k - f * g) * (b - d)) / ((a - c) * (f - k) - (b - d) * (e - g))⟩
    constructor
    · rintro ⟨g1, g2⟩
      ext
      · rw [eq_div_iff hd0]; linear_combination (a - c) * g2 - (e - g) * g1
      · rw [eq_div_iff hd0]; linear_combination (b - d) * g2 - (f - k) * g1
    · intro hq
      obtain ⟨hu, hw⟩ := Vec.mk.inj hq
      rw [eq_div_iff hd0] at hu hw
      constructor
      · refine mul_left_cancel₀ hd0 ?_
        linear_combination (c - a) * hw - (d - b) * hu
      · refine mul_left_cancel₀ hd0 ?_
        linear_combination (g - e) * hw - (k - f) * hu

/-- There is an answer exactly if the second line turns to the left of the first by more than the machine epsilon: lines that
turn to the right, too, are taken to be parallel. -/
theorem C119_refused (l1 l2 : Vec × Vec) :
    intersection l1 l2 = none ↔ (l1.2.x - l1.1.x) * (l2.2.y - l2.1.y) - (l1.2.y - l1.1.y) * (l2.2.x - l2.1.x) ≤ 2⁻¹ ^ 52 := by
  unfold intersection
  simp only
  have : (l1.1 - l1.2).crossMul (l2.1 - l2.2) =
      (l1.2.x - l1.1.x) * (l2.2.y - l2.1.y) - (l1.2.y - l1.1.y) * (l2.2.x - l2.1.x) := by
    show (l1.1.x - l1.2.x) * (l2.1.y - l2.2.y) - (l1.1.y - l1.2.y) * (l2.1.x - l2.2.x) = _
    ring
  rw [this]
  split <;> simp_all

/-- So two lines never have an intersection in both orders. -/
theorem C119_order {l1 l2 : Vec × Vec} {p : Vec} (h : intersection l1 l2 = some p) : intersection l2 l1 = none := by
  rw [C119_refused]
  by_contra hn
  have h1 : ¬ intersection l1 l2 = none := by rw [h]; simp
  rw [C119_refused] at h1
  have : (0 : ℝ) < 2⁻¹ ^ 52 := by positivity
  linarith

/-- `fit_circle` gives no circle exactly if the points are on a line with the origin. -/
theorem C119_line (p2 p3 : Vec) : fitCircle p2 p3 = .line ↔ side ⟨0, 0⟩ p2 p3 = 0 := by
  have e : side ⟨0, 0⟩ p2 p3 = p2.crossMul p3 := by simp [side, Vec.crossMul]
  rw [e]
  unfold fitCircle
  simp only
  split
  · simp_all
  · split <;> simp_all

theorem fit_aux {p2 p3 c : Vec} {r : ℝ} (h : side ⟨0, 0⟩ p2 p3 ≠ 0)
    (hc : c = ⟨(p3.y * p2.scalarMul p2 - p2.y * p3.scalarMul p3) / (p2.crossMul p3 * 2),
      (p2.x * p3.scalarMul p3 - p3.x * p2.scalarMul p2) / (p2.crossMul p3 * 2)⟩) (hr : r = (p2 - c).length) (q : Vec) (s : ℝ) :
    (pointDist ⟨0, 0⟩ q = s ∧ pointDist p2 q = s ∧ pointDist p3 q = s) ↔ q = c ∧ s = r := by
  rw [length_sub] at hr
  have h' : p2.crossMul p3 ≠ 0 := by
    have e : side ⟨0, 0⟩ p2 p3 = p2.crossMul p3 := by simp [side, Vec.crossMul]
    rwa [← e]
  obtain ⟨a, b⟩ := p2
  obtain ⟨d, e⟩ := p3
  obtain ⟨u, w⟩ := q
  simp only [Vec.crossMul, Vec.scalarMul] at h' hc
  have key : ∀ u w : ℝ, (pointDist ⟨0, 0⟩ ⟨u, w⟩ = pointDist ⟨a, b⟩ ⟨u, w⟩ ∧ pointDist ⟨d, e⟩ ⟨u, w⟩ = pointDist ⟨a, b⟩ ⟨u, w⟩) ↔
      Vec.mk u w = c := by
    intro u w
    unfold pointDist
    rw [Real.sqrt_inj (by positivity) (by positivity), Real.sqrt_inj (by positivity) (by positivity), hc]
    simp only
    constructor
    · rintro ⟨g1, g2⟩
      ext
      · show u = _
        rw [eq_div_iff (by simpa using h')]
        linear_combination (e - b) * g1 + b * g2
      · show w = _
        rw [eq_div_iff (by simpa using h')]
        linear_combination (a - d) * g1 - a * g2
    · intro hq
      obtain ⟨hu, hw⟩ := Vec.mk.inj hq
      rw [eq_div_iff (by simpa using h')] at hu hw
      constructor
      · refine mul_left_cancel₀ h' ?_
        linear_combination a * hu + b * hw
      · refine mul_left_cancel₀ h' ?_
        linear_combination (a - d) * hu + (b - e) * hw
  constructor
  · rintro ⟨g1, g2, g3⟩
    have hq := (key u w).mp ⟨g1.trans g2.symm, g3.trans g2.symm⟩
    exact ⟨hq, by rw [hr, ← hq, g2]⟩
  · rintro ⟨hq, rfl⟩
    obtain ⟨k1, k2⟩ := (key u w).mpr hq
    rw [hr, ← hq]
    exact ⟨k1, rfl, k2⟩

/-- A circle that turns to the left: it is the only one through the origin and the two points, and the second point is to the
left of the first. -/
theorem C119_ccw {p2 p3 c : Vec} {r : ℝ} (h : fitCircle p2 p3 = .ccw c r) :
    0 < side ⟨0, 0⟩ p2 p3 ∧
      ∀ q s, (pointDist ⟨0, 0⟩ q = s ∧ pointDist p2 q = s ∧ pointDist p3 q = s) ↔ q = c ∧ s = r := by
  have e : side ⟨0, 0⟩ p2 p3 = p2.crossMul p3 := by simp [side, Vec.crossMul]
  unfold fitCircle at h
  simp only at h
  split at h
  · cases h
  · split at h
    · rename_i h0 h1
      obtain ⟨rfl, rfl⟩ := Circle.ccw.inj h
      exact ⟨by rw [e]; linarith, fit_aux (by rw [e]; intro hh; exact h0 (by rw [hh, zero_mul])) rfl rfl⟩
    · cases h

/-- A circle that turns to the right. -/
theorem C119_cw {p2 p3 c : Vec} {r : ℝ} (h : fitCircle p2 p3 = .cw c r) :
    side ⟨0, 0⟩ p2 p3 < 0 ∧
      ∀ q s, (pointDist ⟨0, 0⟩ q = s ∧ pointDist p2 q = s ∧ pointDist p3 q = s) ↔ q = c ∧ s = r := by
  have e : side ⟨0, 0⟩ p2 p3 = p2.crossMul p3 := by simp [side, Vec.crossMul]
  unfold fitCircle at h
  simp only at h
  split at h
  · cases h
  · split at h
    · cases h
    · rename_i h0 h1
      obtain ⟨rfl, rfl⟩ := Circle.cw.inj h
      refine ⟨?_, fit_aux (by rw [e]; intro hh; exact h0 (by rw [hh, zero_mul])) rfl rfl⟩
      rw [e]
      rcases lt_trichotomy (p2.crossMul p3) 0 with hh | hh | hh
      · exact hh
      · exact absurd (by rw [hh, zero_mul]) h0
      · exact absurd (by linarith) h1

/-- The triangle of sides 3, 4 and 5 has the incentre (1, 1). -/
example : incenterPoint ⟨0, 0⟩ ⟨3, 0⟩ ⟨0, 4⟩ = ⟨1, 1⟩ := by
  unfold incenterPoint
  simp only [length_sub]
  have h1 : pointDist ⟨3, 0⟩ ⟨0, 4⟩ = 5 := by
    unfold pointDist; rw [show ((3 : ℝ) - 0) ^ 2 + (0 - 4) ^ 2 = 5 ^ 2 by norm_num, Real.sqrt_sq (by norm_num)]
  have h2 : pointDist ⟨0, 0⟩ ⟨0, 4⟩ = 4 := by
    unfold pointDist; rw [show ((0 : ℝ) - 0) ^ 2 + (0 - 4) ^ 2 = 4 ^ 2 by norm_num, Real.sqrt_sq (by norm_num)]
  have h3 : pointDist ⟨0, 0⟩ ⟨3, 0⟩ = 3 := by
    unfold pointDist; rw [show ((0 : ℝ) - 3) ^ 2 + (0 - 0) ^ 2 = 3 ^ 2 by norm_num, Real.sqrt_sq (by norm_num)]
  rw [h1, h2, h3]
  show Vec.mk ((0 * 5 + 3 * 4 + 0 * 3) / (5 + 4 + 3)) ((0 * 5 + 0 * 4 + 4 * 3) / (5 + 4 + 3)) = _
  norm_num

/-- Two axes: crossed in one order, parallel in the other. -/
example : intersection (⟨0, 1⟩, ⟨2, 1⟩) (⟨1, 0⟩, ⟨1, 2⟩) = some ⟨1, 1⟩ ∧
    intersection (⟨1, 0⟩, ⟨1, 2⟩) (⟨0, 1⟩, ⟨2, 1⟩) = none := by
  have h : intersection (⟨0, 1⟩, ⟨2, 1⟩) (⟨1, 0⟩, ⟨1, 2⟩) = some ⟨1, 1⟩ := by
    rcases hi : intersection (⟨0, 1⟩, ⟨2, 1⟩) (⟨1, 0⟩, ⟨1, 2⟩) with _ | p
    · rw [C119_refused] at hi; norm_num at hi
    · rw [(C119_intersection hi ⟨1, 1⟩).mp (by constructor <;> norm_num [side])]
  exact ⟨h, C119_order h⟩

/-- The circle through (0, 0), (2, 0) and (2, 2) turns to the left about (1, 1). -/
example : ∃ r, fitCircle ⟨2, 0⟩ ⟨2, 2⟩ = .ccw ⟨1, 1⟩ r := by
  refine ⟨(Vec.mk 2 0 - Vec.mk 1 1).length, ?_⟩
  unfold fitCircle
  norm_num [Vec.crossMul, Vec.scalarMul]

/-! ### C120 -/

/-- Both ways to compute where a list of accelerations leads give the same, for any list. -/
theorem C120_eval (s0 v0 : ℤ) (acc : List ℤ) : evalAccSeq2 s0 v0 acc = evalAccSeq s0 v0 acc := by
  have key : ∀ (acc : List ℤ) (n k : ℕ) (s v w : ℤ), n = k + acc.length →
      evalLoop2 n k acc (s + 2 * acc.length * v, v) = evalAccSeq s v acc := by
    intro acc
    induction acc with
    | nil => intro n k s v w _; simp [evalLoop2, evalAccSeq]
    | cons a rest ih =>
      intro n k s v w hn
      have hn' : n = k + 1 + rest.length := by rw [hn, List.length_cons]; omega
      have := ih n (k + 1) (s + 2 * v + a) (v + a) 0 hn'
      rw [show evalAccSeq s v (a :: rest) = evalAccSeq (s + 2 * v + a) (v + a) rest from rfl, ← this]
      simp only [evalLoop2]
      congr 2
      have e : n - k = rest.length + 1 := by omega
      rw [e, List.length_cons]
      push_cast
      ring
  exact key acc acc.length 0 s0 v0 0 (by simp)

/-- Where a list of accelerations and times leads, as the parts follow each other. -/
theorem evalAccTime_three (s0 v0 a t1 t2 t3 : ℝ) :
    evalAccTime s0 v0 [(a, t1), (0, t2), (-a, t3)] =
      (s0 + 2 * v0 * t1 + a * t1 * t1 + 2 * (v0 + a * t1) * t2 + 2 * (v0 + a * t1) * t3 - a * t3 * t3,
        v0 + a * t1 - a * t3) := by
  simp only [evalAccTime, List.foldl_cons, List.foldl_nil, Prod.mk.injEq]
  constructor <;> ring

/-- Twice the area below the speed, part by part: each part is a trapezium between the speeds at its ends. -/
def twiceArea (v : ℝ) : List (ℝ × ℝ) → ℝ
  | [] => 0
  | (a, dt) :: rest => (v + (v + a * dt)) * dt + twiceArea (v + a * dt) rest

/-- `eval_acc_time` adds twice the area below the speed to the place, and the gains of the parts to the speed. -/
theorem C120_area (s0 v0 : ℝ) (acc : List (ℝ × ℝ)) :
    evalAccTime s0 v0 acc = (s0 + twiceArea v0 acc, v0 + (acc.map fun p => p.1 * p.2).sum) := by
  induction acc generalizing s0 v0 with
  | nil => simp [evalAccTime, twiceArea]
  | cons p rest ih =>
    obtain ⟨a, dt⟩ := p
    rw [show evalAccTime s0 v0 ((a, dt) :: rest) = evalAccTime (s0 + 2 * v0 * dt + a * dt * dt) (v0 + a * dt) rest from rfl, ih]
    simp only [twiceArea, List.map_cons, List.sum_cons, Prod.mk.injEq]
    constructor <;> ring

theorem sqrt_top {s v a : ℝ} (hs : 0 ≤ s) (ha : 0 < a) :
    ∃ x, √(s / (2 * a) + v * v / (a * a)) = x ∧ 0 ≤ x ∧ 2 * a * a * x * x = a * s + 2 * v * v := by
  refine ⟨_, rfl, Real.sqrt_nonneg _, ?_⟩
  have h := Real.mul_self_sqrt (show 0 ≤ s / (2 * a) + v * v / (a * a) from
    add_nonneg (by positivity) (div_nonneg (mul_self_nonneg v) (by positivity)))
  rw [mul_assoc (2 * a * a), h]
  field_simp

/-- What `extend_dist` is for: with its times the distance is covered, and the speed at the end is that of the start. -/
theorem C120_extend {s v a vmax : ℝ} (hs : 0 ≤ s) (ha : 0 < a) (hv : 0 < vmax) :
    evalAccTime 0 v [(a, (extendDist s v a vmax).1), (0, (extendDist s v a vmax).2), (-a, (extendDist s v a vmax).1)] =
      (s, v) := by
  obtain ⟨x, hx, hx0, hxx⟩ := sqrt_top (v := v) hs ha
  have top : v + a * (-v / a + x) = a * x := by field_simp; ring
  rw [evalAccTime_three]
  unfold extendDist
  simp only [hx, top]
  split
  · simp only [Prod.mk.injEq]
    constructor
    · field_simp; ring
    · ring
  · split
    · rename_i h2
      have : 0 ≤ a * x := by positivity
      linarith
    · simp only [Prod.mk.injEq]
      constructor
      · field_simp; linear_combination hxx
      · ring

/-- The constant part is never negative; the time of acceleration is negative exactly if the speed is above the limit already. -/
theorem C120_times {s v a vmax : ℝ} (hs : 0 ≤ s) (ha : 0 < a) (hv : 0 < vmax) :
    0 ≤ (extendDist s v a vmax).2 ∧ ((extendDist s v a vmax).1 < 0 ↔ vmax < v) := by
  obtain ⟨x, hx, hx0, hxx⟩ := sqrt_top (v := v) hs ha
  have top : v + a * (-v / a + x) = a * x := by field_simp; ring
  have hax : 0 ≤ a * x := by positivity
  have hsq : 2 * (a * x) * (a * x) = a * s + 2 * v * v := by linear_combination hxx
  have has : 0 ≤ a * s := by positivity
  unfold extendDist
  simp only [hx, top]
  split
  · rename_i h1
    refine ⟨div_nonneg ?_ (by positivity), ?_⟩
    · have : a * (s - 2 * (v + vmax) * ((vmax - v) / a)) = a * s - 2 * (v + vmax) * (vmax - v) := by field_simp
      have h3 : 0 ≤ a * (s - 2 * (v + vmax) * ((vmax - v) / a)) := by rw [this]; nlinarith
      exact nonneg_of_mul_nonneg_right h3 ha
    · rw [div_lt_iff₀ ha]; constructor <;> intro h <;> linarith
  · rename_i h1
    split
    · rename_i h2; linarith
    · refine ⟨le_refl _, ?_⟩
      have hvx : v ≤ a * x := by
        by_contra hn
        have := not_le.mp hn
        nlinarith
      have e : -v / a + x = (a * x - v) / a := by field_simp; ring
      rw [e, div_lt_iff₀ ha]
      constructor <;> intro h <;> linarith

/-- The speed stays below the limit if it is below it at the start. -/
theorem C120_top {s v a vmax : ℝ} (hs : 0 ≤ s) (ha : 0 < a) (hv : 0 < vmax) (h : v ≤ vmax) :
    0 ≤ (extendDist s v a vmax).1 ∧ v + a * (extendDist s v a vmax).1 ≤ vmax ∧ 0 ≤ v + a * (extendDist s v a vmax).1 := by
  refine ⟨not_lt.mp fun hn => absurd ((C120_times hs ha hv).2.mp hn) (not_lt.mpr h), ?_⟩
  obtain ⟨x, hx, hx0, hxx⟩ := sqrt_top (v := v) hs ha
  have top : v + a * (-v / a + x) = a * x := by field_simp; ring
  have hax : 0 ≤ a * x := by positivity
  unfold extendDist
  simp only [hx, top]
  split
  · have : v + a * ((vmax - v) / a) = vmax := by field_simp; ring
    simp only [this]
    exact ⟨le_refl _, hv.le⟩
  · rename_i h1
    split
    · rename_i h2; linarith
    · simp only [top]
      exact ⟨not_lt.mp h1, hax⟩

theorem speed_between {x c M T t : ℝ} (h0 : |x| ≤ M) (h1 : |x + c * T| ≤ M) (ht : 0 ≤ t) (htT : t ≤ T) : |x + c * t| ≤ M := by
  rw [abs_le] at *
  rcases le_total 0 c with hc | hc
  · have := mul_le_mul_of_nonneg_left htT hc
    have := mul_nonneg hc ht
    constructor <;> linarith
  · have := mul_le_mul_of_nonpos_left htT hc
    have := mul_nonpos_of_nonpos_of_nonneg hc ht
    constructor <;> linarith

theorem path_aux {s0 sn v0 vn M a t1 t2 t3 : ℝ} (h0 : |v0| ≤ M) (hn : |vn| ≤ M) (ht : |v0 + a * t1| ≤ M)
    (he : evalAccTime s0 v0 [(a, t1), (0, t2), (-a, t3)] = (sn, vn)) :
    (∀ t, 0 ≤ t → t ≤ t1 → |v0 + a * t| ≤ M) ∧ (∀ t, 0 ≤ t → t ≤ t3 → |v0 + a * t1 - a * t| ≤ M) := by
  refine ⟨fun t g1 g2 => speed_between h0 ht g1 g2, fun t g1 g2 => ?_⟩
  rw [evalAccTime_three] at he
  have e := (Prod.mk.inj he).2
  have := speed_between (c := -a) ht (T := t3) (by rw [← e] at hn; convert hn using 2; ring) g1 g2
  convert this using 2; ring

/-- The path of `build_optimal_path` leads from `(s0, v0)` to `(sn, vn)` exactly, in times that are not negative, with the
acceleration given and with speeds up to the limit, if the speeds at the ends are. -/
theorem C120_path {s0 sn v0 vn vmax amax : ℤ} (ha : 0 < amax) (hv : 0 < vmax) (h0 : |v0| ≤ vmax) (hn : |vn| ≤ vmax) :
    ∃ a t1 t2 t3, buildOptimalPath s0 sn v0 vn vmax amax = (a, t1, t2, t3) ∧ |a| = amax ∧ 0 ≤ t1 ∧ 0 ≤ t2 ∧ 0 ≤ t3 ∧
      evalAccTime s0 v0 [(a, t1), (0, t2), (-a, t3)] = ((sn : ℝ), (vn : ℝ)) ∧
      (∀ t, 0 ≤ t → t ≤ t1 → |v0 + a * t| ≤ vmax) ∧ (∀ t, 0 ≤ t → t ≤ t3 → |v0 + a * t1 - a * t| ≤ vmax) := by
  have ha' : (0 : ℝ) < amax := by exact_mod_cast ha
  have hv' : (0 : ℝ) < vmax := by exact_mod_cast hv
  have h0' : |(v0 : ℝ)| ≤ vmax := by exact_mod_cast h0
  have hn' : |(vn : ℝ)| ≤ vmax := by exact_mod_cast hn
  obtain ⟨h0a, h0b⟩ := abs_le.mp h0'
  obtain ⟨hna, hnb⟩ := abs_le.mp hn'
  -- all four cases follow from this
  suffices H : ∃ a t1 t2 t3, buildOptimalPath s0 sn v0 vn vmax amax = (a, t1, t2, t3) ∧ |a| = amax ∧ 0 ≤ t1 ∧ 0 ≤ t2 ∧ 0 ≤ t3 ∧
      evalAccTime s0 v0 [(a, t1), (0, t2), (-a, t3)] = ((sn : ℝ), (vn : ℝ)) ∧ |v0 + a * t1| ≤ vmax by
    obtain ⟨a, t1, t2, t3, g1, g2, g3, g4, g5, g6, g7⟩ := H
    exact ⟨a, t1, t2, t3, g1, g2, g3, g4, g5, g6, path_aux h0' hn' g7 g6⟩
  -- what is known of `extend_dist`
  have ext : ∀ S V : ℝ, 0 ≤ S → V ≤ vmax → ∃ p q, extendDist S V amax vmax = (p, q) ∧ 0 ≤ p ∧ 0 ≤ q ∧ 0 ≤ V + amax * p ∧
      V + amax * p ≤ vmax ∧ S = 2 * (2 * V + amax * p) * p + 2 * (V + amax * p) * q := by
    intro S V hS hV
    obtain ⟨g1, g2, g3⟩ := C120_top hS ha' hv' hV
    have g4 := (C120_times (v := V) hS ha' hv').1
    have g5 := C120_extend (v := V) hS ha' hv'
    rw [evalAccTime_three] at g5
    refine ⟨(extendDist S V amax vmax).1, (extendDist S V amax vmax).2, rfl, g1, g4, g3, g2, ?_⟩
    have := (Prod.mk.inj g5).1
    linear_combination -this
  have hdiff : ((vn - v0 : ℤ) : ℝ) = vn - v0 := by push_cast; ring
  have h2 : ((2 * v0 : ℤ) : ℝ) = 2 * v0 := by push_cast; ring
  unfold buildOptimalPath
  simp only [hdiff, h2]
  by_cases hd : vn - v0 ≥ 0
  · have hd' : (0 : ℝ) ≤ vn - v0 := by rw [← hdiff]; exact_mod_cast hd
    have hd0 : 0 ≤ ((vn : ℝ) - v0) / amax := by positivity
    have e0 : (vn : ℝ) = v0 + amax * (((vn : ℝ) - v0) / amax) := by field_simp; ring
    simp only [hd, if_true, gt_iff_lt, ha']
    generalize ((vn : ℝ) - v0) / amax = d at *
    split
    · rename_i hs
      obtain ⟨p, q, g1, g2, g3, g4, g5, g6⟩ := ext (-(sn - (s0 + 2 * v0 * d + amax * d * d))) (-v0) (by linarith) (by linarith)
      rw [g1]
      refine ⟨_, _, _, _, rfl, by rw [abs_neg, abs_of_pos ha'], g2, g3, by linarith, ?_, by rw [abs_le]; constructor <;> linarith⟩
      rw [evalAccTime_three, Prod.mk.injEq]
      constructor
      · linear_combination g6
      · linear_combination -e0
    · rename_i hs
      obtain ⟨p, q, g1, g2, g3, g4, g5, g6⟩ := ext (sn - (s0 + 2 * v0 * d + amax * d * d)) vn (by linarith) (by linarith)
      rw [g1]
      refine ⟨_, _, _, _, rfl, by rw [abs_of_pos ha'], by linarith, g3, g2, ?_, by rw [abs_le]; constructor <;> linarith⟩
      rw [evalAccTime_three, Prod.mk.injEq]
      constructor
      · rw [e0] at g6; linear_combination -g6
      · linear_combination -e0
  · have hd' : (vn : ℝ) - v0 < 0 := by rw [← hdiff]; exact_mod_cast not_le.mp hd
    have hna0 : ¬ (0 : ℝ) < -amax := by linarith
    have e0 : (vn : ℝ) = v0 + -amax * (((vn : ℝ) - v0) / -amax) := by field_simp; ring
    have hd0 : 0 ≤ ((vn : ℝ) - v0) / -amax := div_nonneg_of_nonpos hd'.le (by linarith)
    simp only [hd, if_false, gt_iff_lt, Int.cast_neg, hna0, neg_neg]
    generalize ((vn : ℝ) - v0) / -amax = d at *
    split
    · rename_i hs
      obtain ⟨p, q, g1, g2, g3, g4, g5, g6⟩ := ext (-(sn - (s0 + 2 * v0 * d + -amax * d * d))) (-vn) (by linarith) (by linarith)
      rw [g1]
      refine ⟨_, _, _, _, rfl, by rw [abs_neg, abs_of_pos ha'], by linarith, g3, g2, ?_, by rw [abs_le]; constructor <;> linarith⟩
      rw [evalAccTime_three, Prod.mk.injEq]
      constructor
      · rw [e0] at g6; linear_combination g6
      · linear_combination -e0
    · rename_i hs
      obtain ⟨p, q, g1, g2, g3, g4, g5, g6⟩ := ext (sn - (s0 + 2 * v0 * d + -amax * d * d)) v0 (by linarith) (by linarith)
      rw [g1]
      refine ⟨_, _, _, _, rfl, by rw [abs_of_pos ha'], g2, g3, by linarith, ?_, by rw [abs_le]; constructor <;> linarith⟩
      rw [evalAccTime_three, Prod.mk.injEq]
      constructor
      · linear_combination -g6
      · linear_combination -e0

/-- The list of the test `seq_eval`. -/
example : evalAccSeq 3 7 [3, 3, 4, 3, 13] = (163, 33) ∧ evalAccSeq2 3 7 [3, 3, 4, 3, 13] = (163, 33) := by decide

/-- From rest over 8 units with acceleration 1: two ticks up, two ticks down. -/
example : extendDist 8 0 1 3 = (2, 0) := by
  unfold extendDist
  have h : √((8 : ℝ) / (2 * 1) + 0 * 0 / (1 * 1)) = 2 := by
    rw [show (8 : ℝ) / (2 * 1) + 0 * 0 / (1 * 1) = 2 ^ 2 by norm_num, Real.sqrt_sq (by norm_num)]
  simp only [h]
  norm_num

/-- A value of the test `extend`: at speed 5.7 with the limit 0.1, the time of acceleration is negative. -/
example : (extendDist 6.1 5.7 1.2 0.1).1 < 0 := (C120_times (by norm_num) (by norm_num) (by norm_num)).2.mpr (by norm_num)

/-- A path with all premises met. -/
example : ∃ a t1 t2 t3, buildOptimalPath 0 100 1 (-2) 3 1 = (a, t1, t2, t3) ∧
    evalAccTime (0 : ℤ) (1 : ℤ) [(a, t1), (0, t2), (-a, t3)] = (((100 : ℤ) : ℝ), ((-2 : ℤ) : ℝ)) := by
  obtain ⟨a, t1, t2, t3, h, _, _, _, _, he, _⟩ :=
    C120_path (s0 := 0) (sn := 100) (v0 := 1) (vn := -2) (vmax := 3) (amax := 1) (by norm_num) (by norm_num) (by norm_num) (by norm_num)
  exact ⟨a, t1, t2, t3, h, he⟩

end StepperPaths.Props
