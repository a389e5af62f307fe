import Mathlib.Analysis.SpecialFunctions.Complex.Arg
import Mathlib.Analysis.SpecialFunctions.Trigonometric.Arctan

/-!
Model of `/repo/src/coords.rs` in exact arithmetic: `f64` is `ℝ`, so there is no
rounding, no NaN, no infinity and no negative zero.
-/

namespace StepperPaths.Coords

/-- `struct Vector` and `type Point`, coords.rs 5-8 and 345. -/
@[ext] structure Vec where
  x : ℝ
  y : ℝ

namespace Vec

/-- `Vector::length`, coords.rs 10-12. -/
noncomputable def length (v : Vec) : ℝ := √(v.x * v.x + v.y * v.y)

/-- `Vector::scalar_mul`, coords.rs 14-16. -/
def scalarMul (v w : Vec) : ℝ := v.x * w.x + v.y * w.y

/-- `Vector::cross_mul`, coords.rs 18-20. -/
def crossMul (v w : Vec) : ℝ := v.x * w.y - v.y * w.x

/-- `Vector::unit`, coords.rs 23-29. -/
noncomputable def unit (v : Vec) : Vec := ⟨v.x / v.length, v.y / v.length⟩

/-- `y.atan2(x)`: the argument of the complex number `x + iy`, in `(-π, π]`. -/
noncomputable def atan2 (y x : ℝ) : ℝ := Complex.arg ⟨x, y⟩

/-- `Vector::angle`, coords.rs 32-34. -/
noncomputable def angle (v : Vec) : ℝ := atan2 v.y v.x

/-- `Vector::rotate_90_cw`, coords.rs 37-42. -/
def rotate90cw (v : Vec) : Vec := ⟨v.y, -v.x⟩

/-- `Vector::rotate_90_ccw`, coords.rs 45-50. -/
def rotate90ccw (v : Vec) : Vec := ⟨-v.y, v.x⟩

/-- `Vector::diff_sign`, coords.rs 58-60. -/
def diffSign (v w : Vec) : ℝ := v.y * w.x - v.x * w.y

/-- `Vector::angle_cos`, coords.rs 66-69. -/
noncomputable def angleCos (v w : Vec) : ℝ :=
  (v.x * w.x + v.y * w.y) / √((v.x * v.x + v.y * v.y) * (w.x * w.x + w.y * w.y))

/-- `Add`, coords.rs 114-122. -/
instance : Add Vec := ⟨fun v w => ⟨v.x + w.x, v.y + w.y⟩⟩
/-- `Sub`, coords.rs 130-138. -/
instance : Sub Vec := ⟨fun v w => ⟨v.x - w.x, v.y - w.y⟩⟩
/-- `Neg`, coords.rs 165-173. -/
instance : Neg Vec := ⟨fun v => ⟨-v.x, -v.y⟩⟩
/-- `Mul<f64>`, coords.rs 145-153. -/
instance : HMul Vec ℝ Vec := ⟨fun v s => ⟨v.x * s, v.y * s⟩⟩
/-- `Div<f64>`, coords.rs 155-163. -/
noncomputable instance : HDiv Vec ℝ Vec := ⟨fun v s => ⟨v.x / s, v.y / s⟩⟩

end Vec

/-- `struct Transform`, coords.rs 188-195: `m0 m2 m4 / m1 m3 m5 / 0 0 1`. -/
@[ext] structure Transform where
  m0 : ℝ
  m1 : ℝ
  m2 : ℝ
  m3 : ℝ
  m4 : ℝ
  m5 : ℝ

namespace Transform

/-- `matrix_mul`, coords.rs 197-206, and `Mul`, 326-333. -/
instance : Mul Transform := ⟨fun a b =>
  ⟨a.m0 * b.m0 + a.m2 * b.m1,
   a.m1 * b.m0 + a.m3 * b.m1,
   a.m0 * b.m2 + a.m2 * b.m3,
   a.m1 * b.m2 + a.m3 * b.m3,
   a.m0 * b.m4 + a.m2 * b.m5 + a.m4,
   a.m1 * b.m4 + a.m3 * b.m5 + a.m5⟩⟩

/-- `Mul<Vector>`, coords.rs 335-343. -/
instance : HMul Transform Vec Vec := ⟨fun a v =>
  ⟨a.m0 * v.x + a.m2 * v.y + a.m4, a.m1 * v.x + a.m3 * v.y + a.m5⟩⟩

/-- `Transform::identity`, coords.rs 214-218. -/
def identity : Transform := ⟨1, 0, 0, 1, 0, 0⟩

/-- `Transform::translate`, coords.rs 220-224. -/
def translate (x y : ℝ) : Transform := ⟨1, 0, 0, 1, x, y⟩

/-- `Transform::scale`, coords.rs 226-230. -/
def scale (s : ℝ) : Transform := ⟨s, 0, 0, s, 0, 0⟩

/-- `Transform::scale_xy`, coords.rs 232-236. -/
def scaleXy (sx sy : ℝ) : Transform := ⟨sx, 0, 0, sy, 0, 0⟩

/-- `Transform::rotate`, coords.rs 238-243. -/
noncomputable def rotate (a : ℝ) : Transform :=
  ⟨Real.cos a, Real.sin a, -Real.sin a, Real.cos a, 0, 0⟩

/-- `Transform::rotate_around`, coords.rs 245-257. -/
noncomputable def rotateAround (a : ℝ) (pivot : Vec) : Transform :=
  ⟨Real.cos a, Real.sin a, -Real.sin a, Real.cos a,
   pivot.x * (1 - Real.cos a) + pivot.y * Real.sin a,
   -pivot.x * Real.sin a + pivot.y * (1 - Real.cos a)⟩

/-- `Transform::skew_x`, coords.rs 259-263. -/
noncomputable def skewX (a : ℝ) : Transform := ⟨1, 0, Real.tan a, 1, 0, 0⟩

/-- `Transform::skew_y`, coords.rs 265-269. -/
noncomputable def skewY (a : ℝ) : Transform := ⟨1, Real.tan a, 0, 1, 0, 0⟩

/-- `Transform::no_translation`, coords.rs 271-275. -/
def noTranslation (t : Transform) : Transform := ⟨t.m0, t.m1, t.m2, t.m3, 0, 0⟩

/-- `MIN_COLUMN_LENGTH`, coords.rs 208. -/
noncomputable def minColumnLength : ℝ := 1 / 1000000

/-- The result of `decompose`: translation, scale, rotation and skews. -/
structure Parts where
  tr : Vec
  scale : Vec
  rot : ℝ
  skewX : ℝ
  skewY : ℝ

/-- `Transform::decompose`, coords.rs 278-309. -/
noncomputable def decompose (m : Transform) : Parts :=
  let det := m.m0 * m.m3 - m.m1 * m.m2
  let r2 := m.m0 * m.m0 + m.m1 * m.m1
  let r := √r2
  if minColumnLength ≤ r then
    ⟨⟨m.m4, m.m5⟩, ⟨r, det / r⟩, Vec.atan2 m.m1 m.m0,
      Vec.atan2 (m.m0 * m.m2 + m.m1 * m.m3) r2, 0⟩
  else
    let s2 := m.m2 * m.m2 + m.m3 * m.m3
    let s := √s2
    if minColumnLength ≤ s then
      ⟨⟨m.m4, m.m5⟩, ⟨det / s, s⟩, Vec.atan2 m.m3 m.m4, 0,
        Vec.atan2 (m.m0 * m.m2 + m.m1 * m.m3) s2⟩
    else ⟨⟨m.m4, m.m5⟩, ⟨0, 0⟩, 0, 0, 0⟩

end Transform

end StepperPaths.Coords
