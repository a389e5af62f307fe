import Verif.Model.BezierLength
import Verif.Props.Segments
import Verif.Props.Curves
import Verif.Props.SqrtPoly

/-!
Properties C42 and C76: Bezier curves, `/repo/src/curves/bezier.rs` and
`/repo/src/curves/bezier_curve.rs`, in exact arithmetic.
-/

namespace StepperPaths.Props
open Coords Curves SqrtPoly Set

/-! ### The specification -/

/-- The Bernstein form of a cubic curve from the origin. -/
noncomputable def bernstein (c1 c2 p2 : Vec) (t : ℝ) : Vec :=
  ⟨3 * (1 - t) ^ 2 * t * c1.x + 3 * (1 - t) * t ^ 2 * c2.x + t ^ 3 * p2.x,
   3 * (1 - t) ^ 2 * t * c1.y + 3 * (1 - t) * t ^ 2 * c2.y + t ^ 3 * p2.y⟩

/-- Its derivative. -/
noncomputable def velocity (c1 c2 p2 : Vec) (t : ℝ) : Vec :=
  ⟨3 * (1 - t) ^ 2 * c1.x + 6 * (1 - t) * t * (c2.x - c1.x) + 3 * t ^ 2 * (p2.x - c2.x),
   3 * (1 - t) ^ 2 * c1.y + 6 * (1 - t) * t * (c2.y - c1.y) + 3 * t ^ 2 * (p2.y - c2.y)⟩

theorem bern_deriv (a b c t : ℝ) :
    HasDerivAt (fun t : ℝ => 3 * (1 - t) ^ 2 * t * a + 3 * (1 - t) * t ^ 2 * b + t ^ 3 * c)
      (3 * (1 - t) ^ 2 * a + 6 * (1 - t) * t * (b - a) + 3 * t ^ 2 * (c - b)) t := by
  have h1 : HasDerivAt (fun t : ℝ => (3 * a) * t + (3 * b - 6 * a) * t ^ 2 +
      (3 * a - 3 * b + c) * t ^ 3) (3 * a * 1 + (3 * b - 6 * a) * (((2 : ℕ) : ℝ) * t ^ (2 - 1) * 1) +
        (3 * a - 3 * b + c) * (((3 : ℕ) : ℝ) * t ^ (3 - 1) * 1)) t := by
    have := (((hasDerivAt_id t).const_mul (3 * a)).add
      (((hasDerivAt_id t).pow 2).const_mul (3 * b - 6 * a))).add
      (((hasDerivAt_id t).pow 3).const_mul (3 * a - 3 * b + c))
    simp only [id_eq] at this
    exact this
  have e : (fun t : ℝ => 3 * (1 - t) ^ 2 * t * a + 3 * (1 - t) * t ^ 2 * b + t ^ 3 * c) =
      fun t : ℝ => (3 * a) * t + (3 * b - 6 * a) * t ^ 2 + (3 * a - 3 * b + c) * t ^ 3 := by
    funext t; ring
  rw [e]
  exact h1.congr_deriv (by push_cast; ring)

/-- The velocity is the derivative of the position. -/
theorem velocity_deriv (c1 c2 p2 : Vec) (t : ℝ) :
    HasDerivAt (fun t => (bernstein c1 c2 p2 t).x) (velocity c1 c2 p2 t).x t ∧
    HasDerivAt (fun t => (bernstein c1 c2 p2 t).y) (velocity c1 c2 p2 t).y t :=
  ⟨bern_deriv _ _ _ t, bern_deriv _ _ _ t⟩

/-! ### C42 -/

theorem vec_add (a b : Vec) : a + b = ⟨a.x + b.x, a.y + b.y⟩ := rfl
theorem vec_sub (a b : Vec) : a - b = ⟨a.x - b.x, a.y - b.y⟩ := rfl
theorem vec_mul (a : Vec) (s : ℝ) : a * s = ⟨a.x * s, a.y * s⟩ := rfl

/-- **C42.**  `bezier_value` returns the point of the Bernstein form. -/
theorem C42_point (b : Bezier) (t : ℝ) :
    (b.bezierValue t).1 = bernstein b.c1 b.c2 b.p2 t := by
  ext <;> simp only [Bezier.bezierValue, bernstein, vec_add, vec_sub, vec_mul] <;> ring

theorem unit_scale (v : Vec) {s : ℝ} (hs : 0 < s) : (v * s).unit = v.unit := by
  have h : (v * s).length = s * v.length := by
    simp only [Vec.length, vec_mul]
    rw [show v.x * s * (v.x * s) + v.y * s * (v.y * s) = s ^ 2 * (v.x * v.x + v.y * v.y) by ring,
      Real.sqrt_mul (by positivity), Real.sqrt_sq hs.le]
  rw [Vec.unit, h]
  simp only [Vec.unit, vec_mul]
  rw [mul_comm v.x, mul_div_mul_left _ _ hs.ne', mul_comm v.y, mul_div_mul_left _ _ hs.ne']

theorem length_scale (v : Vec) {s : ℝ} (hs : 0 ≤ s) : (v * s).length = s * v.length := by
  simp only [Vec.length, vec_mul]
  rw [show v.x * s * (v.x * s) + v.y * s * (v.y * s) = s ^ 2 * (v.x * v.x + v.y * v.y) by ring,
    Real.sqrt_mul (by positivity), Real.sqrt_sq hs]

/-- **C42.**  Where the curve moves at least with the speed `6e-9`, the direction is the
direction of the velocity. -/
theorem C42_direction (b : Bezier) (t : ℝ) (h0 : 0 ≤ t) (h1 : t ≤ 1)
    (h : 6 / 1000000000 ≤ (velocity b.c1 b.c2 b.p2 t).length) :
    (b.bezierValue t).2 = (velocity b.c1 b.c2 b.p2 t).unit := by
  simp only [Bezier.bezierValue]
  by_cases ht : t < 1 / 2
  · rw [if_pos ht]
    have e : b.c1 + (b.c2 - b.c1) * t + (b.c2 + (b.p2 - b.c2) * t - (b.c1 + (b.c2 - b.c1) * t)) * t -
        (b.c1 * t + (b.c1 + (b.c2 - b.c1) * t - b.c1 * t) * t +
          (b.c1 + (b.c2 - b.c1) * t + (b.c2 + (b.p2 - b.c2) * t - (b.c1 + (b.c2 - b.c1) * t)) * t -
            (b.c1 * t + (b.c1 + (b.c2 - b.c1) * t - b.c1 * t) * t)) * t) =
        velocity b.c1 b.c2 b.p2 t * ((1 - t) / 3) := by
      ext <;> simp only [velocity, vec_add, vec_sub, vec_mul] <;> ring
    rw [e, length_scale _ (by linarith), if_neg (by rw [not_lt]; nlinarith),
      unit_scale _ (by linarith)]
  · rw [if_neg ht]
    have e : b.c1 * t + (b.c1 + (b.c2 - b.c1) * t - b.c1 * t) * t +
          (b.c1 + (b.c2 - b.c1) * t + (b.c2 + (b.p2 - b.c2) * t - (b.c1 + (b.c2 - b.c1) * t)) * t -
            (b.c1 * t + (b.c1 + (b.c2 - b.c1) * t - b.c1 * t) * t)) * t -
          (b.c1 * t + (b.c1 + (b.c2 - b.c1) * t - b.c1 * t) * t) =
        velocity b.c1 b.c2 b.p2 t * (t / 3) := by
      ext <;> simp only [velocity, vec_add, vec_sub, vec_mul] <;> ring
    rw [e, length_scale _ (by linarith), if_neg (by rw [not_lt]; nlinarith),
      unit_scale _ (by linarith)]

/-- **C42.**  When the first control point is the start point, the direction at the start is
the direction to the second control point, which is the direction of the curve there. -/
theorem C42_direction_start (b : Bezier) (hc : b.c1 = ⟨0, 0⟩) :
    (b.bezierValue 0).2 = b.c2.unit := by
  simp only [Bezier.bezierValue]
  rw [if_pos (by norm_num), if_pos]
  have e : b.c1 + (b.c2 - b.c1) * (0 : ℝ) + (b.c2 + (b.p2 - b.c2) * (0 : ℝ) -
      (b.c1 + (b.c2 - b.c1) * (0 : ℝ))) * (0 : ℝ) -
        (b.c1 * (0 : ℝ) + (b.c1 + (b.c2 - b.c1) * (0 : ℝ) - b.c1 * (0 : ℝ)) * (0 : ℝ) +
          (b.c1 + (b.c2 - b.c1) * (0 : ℝ) + (b.c2 + (b.p2 - b.c2) * (0 : ℝ) -
            (b.c1 + (b.c2 - b.c1) * (0 : ℝ))) * (0 : ℝ) -
            (b.c1 * (0 : ℝ) + (b.c1 + (b.c2 - b.c1) * (0 : ℝ) - b.c1 * (0 : ℝ)) * (0 : ℝ))) *
              (0 : ℝ)) = (⟨0, 0⟩ : Vec) := by
    rw [hc]
    ext <;> simp only [vec_add, vec_sub, vec_mul] <;> ring
  rw [e]
  norm_num [Vec.length]

/-- **C42.**  When the second control point is the end point, the direction at the end is the
direction from the first control point. -/
theorem C42_direction_end (b : Bezier) (hc : b.c2 = b.p2) :
    (b.bezierValue 1).2 = (b.p2 - b.c1).unit := by
  simp only [Bezier.bezierValue]
  rw [if_neg (by norm_num), if_pos]
  have e : b.c1 * (1 : ℝ) + (b.c1 + (b.c2 - b.c1) * (1 : ℝ) - b.c1 * (1 : ℝ)) * (1 : ℝ) +
          (b.c1 + (b.c2 - b.c1) * (1 : ℝ) + (b.c2 + (b.p2 - b.c2) * (1 : ℝ) -
            (b.c1 + (b.c2 - b.c1) * (1 : ℝ))) * (1 : ℝ) -
            (b.c1 * (1 : ℝ) + (b.c1 + (b.c2 - b.c1) * (1 : ℝ) - b.c1 * (1 : ℝ)) * (1 : ℝ))) *
              (1 : ℝ) -
          (b.c1 * (1 : ℝ) + (b.c1 + (b.c2 - b.c1) * (1 : ℝ) - b.c1 * (1 : ℝ)) * (1 : ℝ)) =
        (⟨0, 0⟩ : Vec) := by
    rw [hc]
    ext <;> simp only [vec_add, vec_sub, vec_mul] <;> ring
  rw [e]
  norm_num [Vec.length]

/-- **C42.**  `BezierSegment::point` is the Bernstein form with the second control point
taken relative to the end point. -/
theorem C42_segment_point (b : BezierSegment) (t : ℝ) :
    b.point t = bernstein b.c1 (b.p2 + b.c2) b.p2 t := by
  ext <;> simp only [BezierSegment.point, bernstein, vec_add, vec_mul] <;> ring

/-- **C42.**  The two parts of `split(t)` trace the curve: the first one up to `t`, the
second one from there on, relative to the point at `t`. -/
theorem C42_split (b : BezierSegment) (t s : ℝ) :
    (b.split t).1.point s = b.point (t * s) ∧
    b.point t + (b.split t).2.point s = b.point (t + (1 - t) * s) := by
  constructor <;> ext <;>
    simp only [BezierSegment.point, BezierSegment.split, vec_add, vec_sub, vec_mul] <;> ring

/-- **C42.**  `coefficients_from_control` gives the coefficients of `t`, `t^2` and `t^3`, and
`deriv_from_coefficients` those of the derivative. -/
theorem C42_coefficients (c1 c2 p2 : Vec) (t : ℝ) :
    ∃ c0 c1' c2', coefficientsFromControl c1.x c2.x p2.x = [c0, c1', c2'] ∧
      (bernstein c1 c2 p2 t).x = c2' * t ^ 3 + c1' * t ^ 2 + c0 * t ∧
      polyval (derivFromCoefficients c0 c1' c2') t = (velocity c1 c2 p2 t).x := by
  refine ⟨_, _, _, rfl, ?_, ?_⟩
  · simp only [bernstein]; ring
  · simp only [derivFromCoefficients, polyval, List.foldr_cons, List.foldr_nil, velocity]; ring

/-- A curve, its point and its direction at the start and in the middle. -/
example : ((⟨⟨1, 3⟩, ⟨3, -3⟩, ⟨5, -2⟩⟩ : Bezier).bezierValue (1 / 2)).1 = ⟨17 / 8, -1 / 4⟩ ∧
    ((⟨⟨3, 4⟩, ⟨3, -3⟩, ⟨5, -2⟩⟩ : Bezier).bezierValue 0).2 = ⟨3 / 5, 4 / 5⟩ := by
  have h5 : √(225 : ℝ) = 15 := by
    rw [show (225 : ℝ) = 15 ^ 2 by norm_num]; exact Real.sqrt_sq (by norm_num)
  have hl : (velocity ⟨3, 4⟩ ⟨3, -3⟩ ⟨5, -2⟩ 0).length = 15 := by
    simp only [velocity, Vec.length]; norm_num; exact h5
  constructor
  · rw [C42_point]; ext <;> norm_num [bernstein]
  · rw [C42_direction _ 0 le_rfl zero_le_one (by simp only [hl]; norm_num)]
    simp only [Vec.unit, hl]
    ext <;> norm_num [velocity]

/-! ### C76 -/

/-- The squared speed of a Bezier curve as a polynomial. -/
theorem table_polynomial (b : Bezier) : ∃ p, 2 ≤ p.length ∧
    b.table = buildSegments p 0 1 9 ∧
    ∀ t, polyval p t = (velocity b.c1 b.c2 b.p2 t).x ^ 2 + (velocity b.c1 b.c2 b.p2 t).y ^ 2 := by
  simp only [Bezier.table]
  generalize hx : derivOf (coefficientsFromControl b.c1.x b.c2.x b.p2.x) = dx
  generalize hy : derivOf (coefficientsFromControl b.c1.y b.c2.y b.p2.y) = dy
  have hx0 : dx.length = 3 := by rw [← hx]; rfl
  have hy0 : dy.length = 3 := by rw [← hy]; rfl
  obtain ⟨xx, hxx, vx⟩ := C46_polymul dx dx (by rintro rfl; simp at hx0)
  obtain ⟨yy, hyy, vy⟩ := C46_polymul dy dy (by rintro rfl; simp at hy0)
  have lx := polymul_length hxx
  refine ⟨polyadd xx yy, ?_, ?_, ?_⟩
  · rw [polyadd_length]; omega
  · rw [hxx, Option.bind_some, hyy, Option.bind_some]
  · intro t
    rw [C46_polyadd, vx, vy, ← hx, ← hy]
    simp only [derivOf, coefficientsFromControl, derivFromCoefficients, polyval, List.foldr_cons, List.foldr_nil, velocity]
    ring

theorem speed_length (b : Bezier) {p : List ℝ}
    (hp : ∀ t, polyval p t = (velocity b.c1 b.c2 b.p2 t).x ^ 2 + (velocity b.c1 b.c2 b.p2 t).y ^ 2)
    (t : ℝ) : √(polyval p t) = (velocity b.c1 b.c2 b.p2 t).length := by
  rw [hp, Vec.length, sq, sq]

/-- The arc length of a Bezier curve from the start to the parameter `t`. -/
noncomputable def bezierArc (b : Bezier) (t : ℝ) : ℝ :=
  ∫ u in (0 : ℝ)..t, (velocity b.c1 b.c2 b.p2 u).length

/-- **C76.**  `Bezier::new` returns for all control points. -/
theorem C76_returns (b : Bezier) : ∃ segs, b.table = some segs := by
  obtain ⟨p, h1, h2, -⟩ := table_polynomial b
  rw [h2]
  exact C74_returns p h1 0 1 9

/-- **C76.**  For a curve which never stops, `length()` returns, and it is the arc length up
to `M * 10^-7 / 7!`, where `M` bounds the seventh derivative of the speed. -/
theorem C76_length (b : Bezier) (segs : List Segment) (h : b.table = some segs) (M : ℝ)
    (hp : ∀ t ∈ Icc (0 : ℝ) 1, velocity b.c1 b.c2 b.p2 t ≠ ⟨0, 0⟩)
    (hM : ∀ t ∈ Icc (0 : ℝ) 1,
      |iteratedDeriv 7 (fun u => (velocity b.c1 b.c2 b.p2 u).length) t| ≤ M) :
    (∃ ans, Found (segs.map (·.start)) 1 ans) ∧
    ∀ ans, Found (segs.map (·.start)) 1 ans → ∃ len, Bezier.lengthAt segs ans = some len ∧
      |len - bezierArc b 1| ≤ M / 10 ^ 7 / (Nat.factorial 7 : ℝ) := by
  obtain ⟨p, h1, h2, h3⟩ := table_polynomial b
  have hs : (fun u => √(polyval p u)) = fun u => (velocity b.c1 b.c2 b.p2 u).length :=
    funext (speed_length b h3)
  have hpos : ∀ t ∈ Icc (0 : ℝ) 1, 0 < polyval p t := fun t ht => by
    have := (length_pos_iff _).1 (hp t ht)
    rw [← speed_length b h3] at this
    exact Real.sqrt_pos.1 this
  rw [h2] at h
  refine ⟨(C74_search p 1 9 segs h one_pos hpos 1).2, fun ans ha => ?_⟩
  obtain ⟨y, e1, e2⟩ := C74_eval_int p 1 M 9 segs h one_pos hpos (by rw [hs]; exact hM) 1
    ⟨zero_le_one, le_rfl⟩ ans ha
  refine ⟨y, e1, ?_⟩
  have ea : arcLength p 1 = bezierArc b 1 := by
    simp only [arcLength, bezierArc, speed_length b h3]
  rw [ea] at e2
  refine e2.trans (le_of_eq ?_)
  norm_num
  ring

/-- **C76.**  `value(pos)` returns the point and the direction at a parameter `t`; at most
`2^-52` above it there is a parameter at which the arc length is `pos`, up to the same
error. -/
theorem C76_value (b : Bezier) (segs : List Segment) (h : b.table = some segs) (M : ℝ)
    (hp : ∀ t ∈ Icc (0 : ℝ) 1, velocity b.c1 b.c2 b.p2 t ≠ ⟨0, 0⟩)
    (hM : ∀ t ∈ Icc (0 : ℝ) 1,
      |iteratedDeriv 7 (fun u => (velocity b.c1 b.c2 b.p2 u).length) t| ≤ M)
    (ans0 : Except ℕ ℕ) (ha0 : Found (segs.map (·.start)) 1 ans0) (len : ℝ)
    (hlen : Bezier.lengthAt segs ans0 = some len) (pos : ℝ) (h0 : 0 ≤ pos) (h1 : pos ≤ len)
    (ans : Except ℕ ℕ) (ha : Found (segs.map (fun s => s.int.getD 0 0)) pos ans) :
    ∃ t, b.valueAt segs ans0 ans pos = some (b.bezierValue t) ∧ 0 ≤ t ∧
      ∃ t' ∈ Icc t (t + 1 / 2 ^ 52), t' ≤ 1 ∧
        |bezierArc b t' - pos| ≤ t' * M / 10 ^ 7 / (Nat.factorial 7 : ℝ) := by
  obtain ⟨p, p1, p2, p3⟩ := table_polynomial b
  have hs : (fun u => √(polyval p u)) = fun u => (velocity b.c1 b.c2 b.p2 u).length :=
    funext (speed_length b p3)
  have hpos : ∀ t ∈ Icc (0 : ℝ) 1, 0 < polyval p t := fun t ht => by
    have := (length_pos_iff _).1 (hp t ht)
    rw [← speed_length b p3] at this
    exact Real.sqrt_pos.1 this
  have ea : ∀ t, arcLength p t = bezierArc b t := fun t => by
    simp only [arcLength, bezierArc, speed_length b p3]
  have hM0 : 0 ≤ M := (abs_nonneg _).trans (hM 0 ⟨le_rfl, zero_le_one⟩)
  rw [p2] at h
  simp only [Bezier.valueAt]
  by_cases c0 : pos ≤ 0
  · have : pos = 0 := le_antisymm c0 h0
    subst this
    refine ⟨0, by rw [if_pos le_rfl], le_rfl, 0, ⟨le_rfl, by positivity⟩, zero_le_one, ?_⟩
    simp [bezierArc]
  · rw [if_neg c0, hlen]
    simp only [Option.bind_eq_bind, Option.bind_some]
    by_cases c1 : pos ≥ len
    · have : pos = len := le_antisymm h1 c1
      subst this
      rw [if_pos le_rfl]
      refine ⟨1, rfl, zero_le_one, 1, ⟨le_rfl, by norm_num⟩, le_rfl, ?_⟩
      obtain ⟨-, hl⟩ := C76_length b segs (by rw [p2]; exact h) M hp hM
      obtain ⟨len', e1, e2⟩ := hl ans0 ha0
      rw [hlen, Option.some.injEq] at e1
      subst e1
      rw [abs_sub_comm, one_mul]
      exact e2
    · rw [if_neg c1]
      obtain ⟨t, e1, e2, t', e3, e5, e4⟩ := C75_find_param p 1 M 9 segs h one_pos hpos
        (by rw [hs]; exact hM) len ans0 ha0 hlen pos ⟨h0, h1⟩ ans ha
      refine ⟨t, by rw [e1]; rfl, e2, t', e3, e5, ?_⟩
      rw [ea] at e4
      refine e4.trans (le_of_eq ?_)
      norm_num
      ring

/-- A bound `M` always exists for a curve which never stops. -/
theorem C76_bound (b : Bezier) (hp : ∀ t ∈ Icc (0 : ℝ) 1, velocity b.c1 b.c2 b.p2 t ≠ ⟨0, 0⟩) :
    ∃ M, ∀ t ∈ Icc (0 : ℝ) 1,
      |iteratedDeriv 7 (fun u => (velocity b.c1 b.c2 b.p2 u).length) t| ≤ M := by
  obtain ⟨p, h1, h2, h3⟩ := table_polynomial b
  have hs : (fun u => √(polyval p u)) = fun u => (velocity b.c1 b.c2 b.p2 u).length :=
    funext (speed_length b h3)
  have hpos : ∀ t ∈ Icc (0 : ℝ) 1, 0 < polyval p t := fun t ht => by
    have := (length_pos_iff _).1 (hp t ht)
    rw [← speed_length b h3] at this
    exact Real.sqrt_pos.1 this
  rw [← hs]
  exact exists_bound one_pos hpos

/-- A straight curve with evenly spaced control points: the length is exact. -/
example : ∃ segs ans, (⟨⟨3, 4⟩, ⟨6, 8⟩, ⟨9, 12⟩⟩ : Bezier).table = some segs ∧
    Found (segs.map (·.start)) 1 ans ∧ Bezier.lengthAt segs ans = some 15 := by
  set b : Bezier := ⟨⟨3, 4⟩, ⟨6, 8⟩, ⟨9, 12⟩⟩ with hb
  have hv : ∀ t, velocity b.c1 b.c2 b.p2 t = ⟨9, 12⟩ := fun t => by
    ext <;> simp only [velocity, hb] <;> ring
  have hl : (⟨9, 12⟩ : Vec).length = 15 := by
    simp only [Vec.length]
    rw [show (9 : ℝ) * 9 + 12 * 12 = 15 ^ 2 by norm_num]
    exact Real.sqrt_sq (by norm_num)
  obtain ⟨segs, hs⟩ := C76_returns b
  obtain ⟨⟨ans, ha⟩, hlen⟩ := C76_length b segs hs 0
    (fun t _ => by rw [hv]; intro h; injection h; norm_num at *)
    (fun t _ => by
      have : (fun u => (velocity b.c1 b.c2 b.p2 u).length) = fun _ => (15 : ℝ) := by
        funext u; rw [hv, hl]
      rw [this, iteratedDeriv_const]; simp)
  obtain ⟨len, h1, h2⟩ := hlen ans ha
  refine ⟨segs, ans, hs, ha, ?_⟩
  rw [h1]
  have : bezierArc b 1 = 15 := by
    simp only [bezierArc, hv, hl]; simp
  rw [this, zero_div, zero_div] at h2
  rw [sub_eq_zero.1 (abs_nonpos_iff.1 h2)]

end StepperPaths.Props
