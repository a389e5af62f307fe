import Mathlib.Data.Real.Basic

/-!
Model of `/repo/src/gauss_quadrature.rs` in exact arithmetic.  The tabulated constants are the
decimal numbers of the source, not their nearest floats.
-/

namespace StepperPaths.Gauss

/-- `WEIGHTS_N`, gauss_quadrature.rs 1-101. -/
def weights : List (List ℚ) := [
  [1.0, 1.0],
  [0.5555555556, 0.88888888889, 0.5555555556],
  [0.3478548451374538, 0.6521451548625461, 0.6521451548625461, 0.3478548451374538],
  [0.2369268850561891, 0.4786286704993665, 0.5688888888888889, 0.4786286704993665,
   0.2369268850561891],
  [0.1713244923791704, 0.3607615730481386, 0.467913934572691, 0.467913934572691,
   0.3607615730481386, 0.1713244923791704],
  [0.1294849661688697, 0.2797053914892766, 0.3818300505051189, 0.4179591836734694,
   0.3818300505051189, 0.2797053914892766, 0.1294849661688697],
  [0.1012285362903763, 0.2223810344533745, 0.3137066458778873, 0.362683783378362,
   0.362683783378362, 0.3137066458778873, 0.2223810344533745, 0.1012285362903763]]

/-- `ABSCISSAS_N`, gauss_quadrature.rs 1-109. -/
def abscissas : List (List ℚ) := [
  [-0.5773502692, 0.5773502692],
  [-0.7745966692, 0.0, 0.7745966692],
  [-0.8611363115940526, -0.3399810435848563, 0.3399810435848563, 0.8611363115940526],
  [-0.906179845938664, -0.5384693101056831, 0.0, 0.5384693101056831, 0.906179845938664],
  [-0.932469514203152, -0.6612093864662645, -0.2386191860831969, 0.2386191860831969,
   0.6612093864662645, 0.932469514203152],
  [-0.9491079123427585, -0.7415311855993945, -0.4058451513773972, 0.0, 0.4058451513773972,
   0.7415311855993945, 0.9491079123427585],
  [-0.9602898564975363, -0.7966664774136267, -0.525532409916329, -0.1834346424956498,
   0.1834346424956498, 0.525532409916329, 0.7966664774136267, 0.9602898564975363]]

/-- The loop `for i in 0..weights.len()`, gauss_quadrature.rs 121-123. An index out of bounds is a
panic. -/
noncomputable def sumUp (k m : ℝ) (f : ℝ → ℝ) : List ℚ → List ℚ → ℝ → Option ℝ
  | [], _, sum => some sum
  | _ :: _, [], _ => none
  | w :: ws, x :: xs, sum => sumUp k m f ws xs (sum + w * f (k * x + m))

/-- `gauss_quad_integrate`, gauss_quadrature.rs 112-125. -/
noncomputable def integrate (a b : ℝ) (n : ℕ) (f : ℝ → ℝ) : Option ℝ := do
  if n < 2 then none
  let ws ← weights[n - 2]?
  let xs ← abscissas[n - 2]?
  let k := (b - a) / 2
  let m := (a + b) / 2
  let sum ← sumUp k m f ws xs 0
  return k * sum

end StepperPaths.Gauss
