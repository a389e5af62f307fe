import Verif.Model.Coords
import Mathlib.Tactic.FieldSimp
import Mathlib.Tactic.Positivity
import Mathlib.Tactic.LinearCombination

/-! Properties of transforms and vectors (C39-C41, C61). -/

namespace StepperPaths.Props
open Coords

@[simp] theorem tmul (a b : Transform) : a * b =
  ⟨a.m0 * b.m0 + a.m2 * b.m1, a.m1 * b.m0 + a.m3 * b.m1, a.m0 * b.m2 + a.m2 * b.m3,
   a.m1 * b.m2 + a.m3 * b.m3, a.m0 * b.m4 + a.m2 * b.m5 + a.m4,
   a.m1 * b.m4 + a.m3 * b.m5 + a.m5⟩ := rfl
@[simp] theorem tvec (a : Transform) (v : Vec) : a * v =
  ⟨a.m0 * v.x + a.m2 * v.y + a.m4, a.m1 * v.x + a.m3 * v.y + a.m5⟩ := rfl
@[simp] theorem vadd (v w : Vec) : v + w = ⟨v.x + w.x, v.y + w.y⟩ := rfl
@[simp] theorem vsub (v w : Vec) : v - w = ⟨v.x - w.x, v.y - w.y⟩ := rfl
@[simp] theorem vneg (v : Vec) : -v = ⟨-v.x, -v.y⟩ := rfl
@[simp] theorem vmul (v : Vec) (s : ℝ) : v * s = ⟨v.x * s, v.y * s⟩ := rfl
@[simp] theorem vdiv (v : Vec) (s : ℝ) : v / s = ⟨v.x / s, v.y / s⟩ := rfl

/-! ### C39 -/

/-- C39: the product of transforms is composition. -/
theorem C39_composition (a b : Transform) (p : Vec) : (a * b) * p = a * (b * p) := by
  simp only [tmul, tvec, Vec.mk.injEq]
  constructor <;> ring

/-- C39: the product is associative. -/
theorem C39_assoc (a b c : Transform) : (a * b) * c = a * (b * c) := by
  simp only [tmul, Transform.mk.injEq]
  refine ⟨?_, ?_, ?_, ?_, ?_, ?_⟩ <;> ring

/-- C39: `identity()` is neutral and moves no point. -/
theorem C39_identity (a : Transform) (p : Vec) : Transform.identity * a = a ∧
    a * Transform.identity = a ∧ Transform.identity * p = p := by
  refine ⟨?_, ?_, ?_⟩
  · ext <;> simp [Transform.identity]
  · ext <;> simp [Transform.identity]
  · ext <;> simp [Transform.identity]

/-- The order matters. -/
example : Transform.translate 1 0 * Transform.scale 2 ≠
    Transform.scale 2 * Transform.translate 1 0 := by
  simp [Transform.translate, Transform.scale]

/-! ### C40 -/

/-- C40: translation and scaling. -/
theorem C40_translate_scale (x y s sx sy : ℝ) (p : Vec) :
    Transform.translate x y * p = p + ⟨x, y⟩ ∧
    Transform.scaleXy sx sy * p = ⟨sx * p.x, sy * p.y⟩ ∧
    Transform.scale s * p = p * s := by
  refine ⟨?_, ?_, ?_⟩ <;> ext <;> simp [Transform.translate, Transform.scaleXy, Transform.scale] <;> ring

/-- C40: a rotation turns the direction `(cos b, sin b)` into `(cos (a + b), sin (a + b))`,
preserves lengths and scalar products, and rotations compose additively. -/
theorem C40_rotate (a b r : ℝ) (p q : Vec) :
    Transform.rotate a * (⟨r * Real.cos b, r * Real.sin b⟩ : Vec) =
      ⟨r * Real.cos (a + b), r * Real.sin (a + b)⟩ ∧
    (Transform.rotate a * p).scalarMul (Transform.rotate a * q) = p.scalarMul q ∧
    (Transform.rotate a * p).crossMul (Transform.rotate a * q) = p.crossMul q ∧
    (Transform.rotate a * p).length = p.length ∧
    Transform.rotate a * Transform.rotate b = Transform.rotate (a + b) := by
  have h := Real.sin_sq_add_cos_sq a
  refine ⟨?_, ?_, ?_, ?_, ?_⟩
  · ext <;> simp [Transform.rotate, Real.cos_add, Real.sin_add] <;> ring
  · simp only [Transform.rotate, tvec, Vec.scalarMul]
    linear_combination (p.x * q.x + p.y * q.y) * h
  · simp only [Transform.rotate, tvec, Vec.crossMul]
    linear_combination (p.x * q.y - p.y * q.x) * h
  · simp only [Transform.rotate, tvec, Vec.length]
    congr 1
    linear_combination (p.x * p.x + p.y * p.y) * h
  · ext <;> simp [Transform.rotate, Real.cos_add, Real.sin_add] <;> ring

/-- C40: rotation around a pivot fixes the pivot and is the rotation conjugated with the
translation to the pivot. -/
theorem C40_rotate_around (a : ℝ) (c p : Vec) :
    Transform.rotateAround a c * c = c ∧
    Transform.rotateAround a c =
      Transform.translate c.x c.y * Transform.rotate a * Transform.translate (-c.x) (-c.y) ∧
    Transform.rotateAround a c * p - c = Transform.rotate a * (p - c) := by
  refine ⟨?_, ?_, ?_⟩
  · ext <;> simp [Transform.rotateAround] <;> ring
  · ext <;> simp [Transform.rotateAround, Transform.rotate, Transform.translate] <;> ring
  · ext <;> simp [Transform.rotateAround, Transform.rotate] <;> ring

/-- C40: the skews move points parallel to one axis, by the tangent times the other
coordinate. -/
theorem C40_skew (a : ℝ) (p : Vec) :
    Transform.skewX a * p = p + ⟨Real.tan a * p.y, 0⟩ ∧
    Transform.skewY a * p = p + ⟨0, Real.tan a * p.x⟩ := by
  constructor <;> ext <;> simp [Transform.skewX, Transform.skewY, add_comm]

/-- C40: `no_translation` acts on differences as the transform acts on points. -/
theorem C40_no_translation (t : Transform) (p q : Vec) :
    t.noTranslation * (p - q) = t * p - t * q := by
  ext <;> simp [Transform.noTranslation] <;> ring

/-- A quarter turn around (1, 0) takes the origin to (1, -1). -/
example : Transform.rotateAround (Real.pi / 2) ⟨1, 0⟩ * (⟨0, 0⟩ : Vec) = ⟨1, -1⟩ := by
  ext <;> simp [Transform.rotateAround]

/-! ### C41 -/

/-- The transform built from the parts, in the order of the test `check_decompose`. -/
noncomputable def recompose (p : Transform.Parts) : Transform :=
  Transform.translate p.tr.x p.tr.y * Transform.rotate p.rot *
    Transform.scaleXy p.scale.x p.scale.y * Transform.skewX p.skewX * Transform.skewY p.skewY

theorem polar (x y : ℝ) : √(x * x + y * y) * Real.cos (Vec.atan2 y x) = x ∧
    √(x * x + y * y) * Real.sin (Vec.atan2 y x) = y := by
  have hn : ‖(⟨x, y⟩ : ℂ)‖ = √(x * x + y * y) := Complex.norm_def _
  unfold Vec.atan2
  rw [← hn]
  exact ⟨Complex.norm_mul_cos_arg ⟨x, y⟩, Complex.norm_mul_sin_arg ⟨x, y⟩⟩

theorem tan_atan2 (x y : ℝ) : Real.tan (Vec.atan2 y x) = y / x := Complex.tan_arg ⟨x, y⟩

/-- C41: `decompose` can be recomposed whenever the first column of the matrix is at
least `1e-6` long. -/
theorem C41_recompose (m : Transform)
    (h : Transform.minColumnLength ≤ √(m.m0 * m.m0 + m.m1 * m.m1)) :
    recompose m.decompose = m := by
  unfold Transform.decompose recompose
  simp only [if_pos h]
  have h0 : 0 < √(m.m0 * m.m0 + m.m1 * m.m1) :=
    lt_of_lt_of_le (by norm_num [Transform.minColumnLength]) h
  have hsq := Real.sq_sqrt (Real.sqrt_pos.1 h0).le
  have hp := Real.sqrt_pos.1 h0
  obtain ⟨hc, hs⟩ := polar m.m0 m.m1
  have ht := tan_atan2 (m.m0 * m.m0 + m.m1 * m.m1) (m.m0 * m.m2 + m.m1 * m.m3)
  generalize √(m.m0 * m.m0 + m.m1 * m.m1) = r at *
  generalize Vec.atan2 m.m1 m.m0 = θ at *
  have hc' : Real.cos θ = m.m0 / r := by rw [← hc]; field_simp
  have hs' : Real.sin θ = m.m1 / r := by rw [← hs]; field_simp
  have hr : m.m0 * m.m0 + m.m1 * m.m1 = r ^ 2 := hsq.symm
  rw [hr] at ht
  ext <;> simp only [tmul, Transform.translate, Transform.rotate, Transform.scaleXy,
    Transform.skewX, Transform.skewY, Real.tan_zero, hr, ht, hc', hs'] <;> field_simp <;> ring_nf
  · linear_combination (r * m.m2) * hr
  · linear_combination (r * m.m3) * hr

/-- C41: the branch for a short first column and a longer second column takes the rotation
from the translation (`m[4]`) instead of `m[2]`; recomposition fails whenever `m[2]` and
`m[3]` have the same sign. -/
theorem C41_second_branch_wrong (m : Transform)
    (h : √(m.m0 * m.m0 + m.m1 * m.m1) < Transform.minColumnLength)
    (hs : Transform.minColumnLength ≤ √(m.m2 * m.m2 + m.m3 * m.m3)) (hm : 0 < m.m2 * m.m3) :
    recompose m.decompose ≠ m := by
  intro he
  unfold Transform.decompose recompose at he
  simp only [if_neg (not_le.2 h), if_pos hs] at he
  have h0 : 0 < √(m.m2 * m.m2 + m.m3 * m.m3) :=
    lt_of_lt_of_le (by norm_num [Transform.minColumnLength]) hs
  have e2 := congrArg Transform.m2 he
  simp only [tmul, Transform.translate, Transform.rotate, Transform.scaleXy,
    Transform.skewX, Transform.skewY, Real.tan_zero] at e2
  obtain ⟨hc, hsn⟩ := polar m.m4 m.m3
  generalize √(m.m2 * m.m2 + m.m3 * m.m3) = s at *
  generalize Vec.atan2 m.m3 m.m4 = θ at *
  have hq := Real.sqrt_nonneg (m.m4 * m.m4 + m.m3 * m.m3)
  generalize √(m.m4 * m.m4 + m.m3 * m.m3) = q at *
  have e2' : m.m2 = -(Real.sin θ * s) := by rw [← e2]; ring
  rw [e2', ← hsn] at hm
  nlinarith [mul_nonneg (mul_nonneg hq h0.le) (mul_self_nonneg (Real.sin θ))]

/-- What that branch should have used: with the rotation `atan2(-m[2], m[3])` every
transform with a second column of at least `1e-6` can be recomposed. -/
theorem C41_second_branch_fix (m : Transform)
    (hs : Transform.minColumnLength ≤ √(m.m2 * m.m2 + m.m3 * m.m3)) :
    recompose ⟨⟨m.m4, m.m5⟩,
      ⟨(m.m0 * m.m3 - m.m1 * m.m2) / √(m.m2 * m.m2 + m.m3 * m.m3), √(m.m2 * m.m2 + m.m3 * m.m3)⟩,
      Vec.atan2 (-m.m2) m.m3, 0,
      Vec.atan2 (m.m0 * m.m2 + m.m1 * m.m3) (m.m2 * m.m2 + m.m3 * m.m3)⟩ = m := by
  unfold recompose
  have h0 : 0 < √(m.m2 * m.m2 + m.m3 * m.m3) :=
    lt_of_lt_of_le (by norm_num [Transform.minColumnLength]) hs
  have hsq := Real.sq_sqrt (Real.sqrt_pos.1 h0).le
  obtain ⟨hc, hsn⟩ := polar m.m3 (-m.m2)
  have e : m.m3 * m.m3 + -m.m2 * -m.m2 = m.m2 * m.m2 + m.m3 * m.m3 := by ring
  rw [e] at hc hsn
  have ht := tan_atan2 (m.m2 * m.m2 + m.m3 * m.m3) (m.m0 * m.m2 + m.m1 * m.m3)
  generalize √(m.m2 * m.m2 + m.m3 * m.m3) = r at *
  generalize Vec.atan2 (-m.m2) m.m3 = θ at *
  have hc' : Real.cos θ = m.m3 / r := by rw [← hc]; field_simp
  have hs' : Real.sin θ = -m.m2 / r := by rw [← hsn]; field_simp
  have hr : m.m2 * m.m2 + m.m3 * m.m3 = r ^ 2 := hsq.symm
  rw [hr] at ht
  ext <;> simp only [tmul, Transform.translate, Transform.rotate, Transform.scaleXy,
    Transform.skewX, Transform.skewY, Real.tan_zero, hr, ht, hc', hs'] <;> field_simp <;> ring_nf
  · linear_combination (r ^ 2 * m.m0) * hr
  · linear_combination (r ^ 2 * m.m1) * hr

/-- C41: if both columns are shorter than `1e-6` the linear part is dropped; no matrix entry
changes by `1e-6` or more. -/
theorem C41_tiny (m : Transform)
    (h : √(m.m0 * m.m0 + m.m1 * m.m1) < Transform.minColumnLength)
    (hs : √(m.m2 * m.m2 + m.m3 * m.m3) < Transform.minColumnLength) :
    recompose m.decompose = ⟨0, 0, 0, 0, m.m4, m.m5⟩ ∧
    |m.m0| < Transform.minColumnLength ∧ |m.m1| < Transform.minColumnLength ∧
    |m.m2| < Transform.minColumnLength ∧ |m.m3| < Transform.minColumnLength := by
  have key : ∀ x y : ℝ, |x| ≤ √(x * x + y * y) ∧ |y| ≤ √(x * x + y * y) := by
    intro x y
    constructor <;> apply Real.abs_le_sqrt <;> nlinarith [mul_self_nonneg x, mul_self_nonneg y]
  refine ⟨?_, (key _ _).1.trans_lt h, (key _ _).2.trans_lt h, (key _ _).1.trans_lt hs,
    (key _ _).2.trans_lt hs⟩
  unfold Transform.decompose recompose
  simp only [if_neg (not_le.2 h), if_neg (not_le.2 hs)]
  ext <;> simp [Transform.translate, Transform.rotate, Transform.scaleXy, Transform.skewX,
    Transform.skewY]

/-- The first theorem applies to a flip, the second to a projection onto the y axis. -/
example : recompose (Transform.decompose ⟨0, 1, 1, 0, 3, 4⟩) = ⟨0, 1, 1, 0, 3, 4⟩ :=
  C41_recompose _ (by norm_num [Transform.minColumnLength])

example : recompose (Transform.decompose ⟨0, 0, 1, 1, 3, 4⟩) ≠ ⟨0, 0, 1, 1, 3, 4⟩ :=
  C41_second_branch_wrong _ (by norm_num [Transform.minColumnLength])
    (by
      refine Real.le_sqrt_of_sq_le ?_
      norm_num [Transform.minColumnLength])
    (by norm_num)

/-! ### C61 -/

/-- C61: length and angle are polar coordinates, with the angle in `(-π, π]`. -/
theorem C61_polar (v : Vec) :
    v.length * Real.cos v.angle = v.x ∧ v.length * Real.sin v.angle = v.y ∧
    0 ≤ v.length ∧ -Real.pi < v.angle ∧ v.angle ≤ Real.pi :=
  ⟨(polar v.x v.y).1, (polar v.x v.y).2, Real.sqrt_nonneg _,
    Complex.neg_pi_lt_arg _, Complex.arg_le_pi _⟩

/-- C61: the unit vector has the same angle and length one, for every non-zero vector. -/
theorem C61_unit (v : Vec) (h : v ≠ ⟨0, 0⟩) :
    v.unit.length = 1 ∧ v.unit * v.length = v ∧ v.unit.angle = v.angle := by
  have h0 : 0 < v.x * v.x + v.y * v.y := by
    rcases eq_or_ne v.x 0 with hx | hx
    · have hy : v.y ≠ 0 := by
        intro hy
        exact h (by ext <;> assumption)
      nlinarith [mul_self_pos.2 hy, mul_self_nonneg v.x]
    · nlinarith [mul_self_pos.2 hx, mul_self_nonneg v.y]
  have hl : 0 < v.length := Real.sqrt_pos.2 h0
  have hsq : v.length ^ 2 = v.x * v.x + v.y * v.y := Real.sq_sqrt h0.le
  refine ⟨?_, ?_, ?_⟩
  · unfold Vec.unit
    rw [Vec.length]
    simp only
    rw [Real.sqrt_eq_one, div_mul_div_comm, div_mul_div_comm, ← add_div, ← hsq]
    field_simp
  · ext <;> simp only [Vec.unit, vmul] <;> field_simp
  · unfold Vec.angle Vec.atan2 Vec.unit
    have : (⟨v.x / v.length, v.y / v.length⟩ : ℂ) = ((v.length)⁻¹ : ℝ) * ⟨v.x, v.y⟩ := by
      apply Complex.ext <;> simp only [Complex.re_ofReal_mul, Complex.im_ofReal_mul, div_eq_inv_mul]
    rw [this, Complex.arg_real_mul _ (inv_pos.2 hl)]

/-- C61: `diff_sign` is the sine of the angle difference (scaled by the lengths),
`angle_cos` is its cosine, and the quarter turns rotate by -π/2 and π/2. -/
theorem C61_angles (v w : Vec) :
    v.diffSign w = v.length * w.length * Real.sin (v.angle - w.angle) ∧
    v.crossMul w = v.length * w.length * Real.sin (w.angle - v.angle) ∧
    v.scalarMul w = v.length * w.length * Real.cos (v.angle - w.angle) ∧
    (v ≠ ⟨0, 0⟩ → w ≠ ⟨0, 0⟩ → v.angleCos w = Real.cos (v.angle - w.angle)) ∧
    v.rotate90cw = Transform.rotate (-(Real.pi / 2)) * v ∧
    v.rotate90ccw = Transform.rotate (Real.pi / 2) * v := by
  obtain ⟨vx, vy, -⟩ := C61_polar v
  obtain ⟨wx, wy, -⟩ := C61_polar w
  have hs : v.scalarMul w = v.length * w.length * Real.cos (v.angle - w.angle) := by
    unfold Vec.scalarMul
    rw [← vx, ← vy, ← wx, ← wy, Real.cos_sub]
    ring
  refine ⟨?_, ?_, hs, ?_, ?_, ?_⟩
  · unfold Vec.diffSign
    rw [Real.sin_sub, ← vx, ← vy, ← wx, ← wy]
    ring
  · unfold Vec.crossMul
    rw [Real.sin_sub, ← vx, ← vy, ← wx, ← wy]
    ring
  · intro hv hw
    have pos : ∀ u : Vec, u ≠ ⟨0, 0⟩ → 0 < u.length := by
      intro u hu
      have := (C61_unit u hu).1
      rcases (Real.sqrt_nonneg (u.x * u.x + u.y * u.y)).lt_or_eq with h | h
      · exact h
      · exfalso
        have h' : u.length = 0 := h.symm
        simp [Vec.unit, Vec.length] at this
        rw [Vec.length] at h'
        simp [h'] at this
    have e : √((v.x * v.x + v.y * v.y) * (w.x * w.x + w.y * w.y)) = v.length * w.length := by
      rw [Real.sqrt_mul (by nlinarith [mul_self_nonneg v.x, mul_self_nonneg v.y])]
      rfl
    unfold Vec.angleCos
    rw [e]
    have hs' := hs
    unfold Vec.scalarMul at hs'
    rw [hs']
    have := pos v hv
    have := pos w hw
    field_simp
  · ext <;> simp [Vec.rotate90cw, Transform.rotate, Real.cos_neg, Real.sin_neg]
  · ext <;> simp [Vec.rotate90ccw, Transform.rotate]

/-- C61: the documented meaning of `diff_sign` — negative exactly when the first angle is
smaller, zero for equal angles — holds for angles less than π apart. -/
theorem C61_diff_sign (v w : Vec) (hv : v ≠ ⟨0, 0⟩) (hw : w ≠ ⟨0, 0⟩)
    (h : |v.angle - w.angle| < Real.pi) :
    (v.diffSign w < 0 ↔ v.angle < w.angle) ∧ (0 < v.diffSign w ↔ w.angle < v.angle) := by
  have key : ∀ u : Vec, u ≠ ⟨0, 0⟩ → 0 < u.length := by
    intro u hu
    have hx : u.x ≠ 0 ∨ u.y ≠ 0 := by
      by_contra hc
      push Not at hc
      exact hu (by ext <;> simp [hc])
    apply Real.sqrt_pos.2
    rcases hx with hx | hx
    · nlinarith [mul_self_pos.2 hx, mul_self_nonneg u.y]
    · nlinarith [mul_self_pos.2 hx, mul_self_nonneg u.x]
  rw [(C61_angles v w).1]
  have hl : 0 < v.length * w.length := mul_pos (key v hv) (key w hw)
  obtain ⟨h1, h2⟩ := abs_lt.1 h
  have pn : v.angle < w.angle → Real.sin (v.angle - w.angle) < 0 := fun hh =>
    Real.sin_neg_of_neg_of_neg_pi_lt (by linarith) h1
  have pp : w.angle < v.angle → 0 < Real.sin (v.angle - w.angle) := fun hh =>
    Real.sin_pos_of_pos_of_lt_pi (by linarith) h2
  rw [mul_pos_iff_of_pos_left hl, mul_neg_iff]
  constructor
  · constructor
    · rintro (⟨-, hh⟩ | ⟨hh, -⟩)
      · rcases lt_trichotomy v.angle w.angle with q | q | q
        · exact q
        · rw [q] at hh; simp at hh
        · exact absurd (pp q) (not_lt.2 hh.le)
      · exact absurd hh (not_lt.2 hl.le)
    · intro hh
      exact .inl ⟨hl, pn hh⟩
  · constructor
    · intro hh
      rcases lt_trichotomy v.angle w.angle with q | q | q
      · exact absurd (pn q) (not_lt.2 hh.le)
      · rw [q] at hh; simp at hh
      · exact q
    · exact pp

/-- C61: for angles more than π apart the documented meaning is reversed. -/
theorem C61_diff_sign_far (v w : Vec) (hv : 0 < v.length) (hw : 0 < w.length)
    (h : Real.pi < w.angle - v.angle) : v.angle < w.angle ∧ 0 < v.diffSign w := by
  have hp := Real.pi_pos
  refine ⟨by linarith, ?_⟩
  rw [(C61_angles v w).1]
  refine mul_pos (mul_pos hv hw) ?_
  have h1 := (C61_polar v).2.2.2.1
  have h2 := (C61_polar w).2.2.2.2
  have : Real.sin (v.angle - w.angle) = Real.sin (v.angle - w.angle + 2 * Real.pi) :=
    (Real.sin_add_two_pi _).symm
  rw [this]
  exact Real.sin_pos_of_pos_of_lt_pi (by linarith) (by linarith)

/-- The y axis is a quarter turn ahead of the x axis. -/
example : (⟨0, 2⟩ : Vec).angle = Real.pi / 2 ∧ (⟨0, 2⟩ : Vec).unit = ⟨0, 1⟩ ∧
    0 < (⟨0, 2⟩ : Vec).diffSign ⟨1, 0⟩ := by
  refine ⟨?_, ?_, by norm_num [Vec.diffSign]⟩
  · have : (⟨0, 2⟩ : ℂ) = (2 : ℝ) * Complex.I := by apply Complex.ext <;> simp
    rw [Vec.angle, Vec.atan2, this, Complex.arg_real_mul _ (by norm_num), Complex.arg_I]
  · have h : Vec.length ⟨0, 2⟩ = 2 := by
      rw [Vec.length, Real.sqrt_eq_iff_mul_self_eq (by norm_num) (by norm_num)]
      norm_num
    simp [Vec.unit, h]

/-- Two vectors on both sides of the negative x axis. -/
example : (⟨-1, -1⟩ : Vec).angle < (⟨-1, 1⟩ : Vec).angle ∧
    0 < (⟨-1, -1⟩ : Vec).diffSign ⟨-1, 1⟩ := by
  have h1 : (⟨-1, -1⟩ : Vec).angle < -(Real.pi / 2) := by
    have ha : Complex.arg ⟨-1, -1⟩ < 0 := Complex.arg_neg_iff.2 (by norm_num)
    have hb : ¬ |Complex.arg ⟨-1, -1⟩| ≤ Real.pi / 2 := by
      rw [Complex.abs_arg_le_pi_div_two_iff]; norm_num
    rw [abs_of_neg ha] at hb
    show Complex.arg ⟨-1, -1⟩ < _
    linarith
  have h2 : Real.pi / 2 < (⟨-1, 1⟩ : Vec).angle := by
    have ha : 0 ≤ Complex.arg ⟨-1, 1⟩ := Complex.arg_nonneg_iff.2 (by norm_num)
    have hb : ¬ |Complex.arg ⟨-1, 1⟩| ≤ Real.pi / 2 := by
      rw [Complex.abs_arg_le_pi_div_two_iff]; norm_num
    rw [abs_of_nonneg ha] at hb
    show _ < Complex.arg ⟨-1, 1⟩
    linarith
  exact C61_diff_sign_far _ _ (by norm_num [Vec.length]) (by norm_num [Vec.length]) (by linarith)

end StepperPaths.Props
