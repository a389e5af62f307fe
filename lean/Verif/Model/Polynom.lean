import Mathlib.Data.Real.Basic
import Mathlib.Data.List.Sort

/-!
Model of `/repo/src/curves/polynom.rs` for `T = f64`.  A polynomial is the list of its `N`
coefficients, the lowest degree first.  `none` is a panic or an endless loop.  Arithmetic is exact,
except that the bisection has a parameter `rd` for the rounding of sums (the identity for exact
arithmetic).  The `println!`s are left out.
-/

namespace StepperPaths.Polynom

/-- The loop of `value`, polynom.rs 17-20. -/
def valueLoop (t : ℝ) : List ℝ → ℝ → ℝ → ℝ
  | [], sum, _ => sum
  | p :: ps, sum, f => valueLoop t ps (sum + f * p) (f * t)

/-- `value`, polynom.rs 11-22: `poly[0]` and `poly[1..n]` may be out of bounds. -/
def value (poly : List ℝ) (n : ℕ) (t : ℝ) : Option ℝ :=
  match poly with
  | [] => none
  | p :: ps => if n = 0 ∨ n > ps.length + 1 then none else some (valueLoop t (ps.take (n - 1)) p t)

/-- `n as i8`. -/
def asI8 (n : ℕ) : ℤ := Int.bmod n 256

/-- The loop of `deriv`, polynom.rs 29-31, from the coefficient with index `i`. -/
def derivFrom : ℕ → List ℝ → List ℝ
  | _, [] => []
  | i, p :: ps => (asI8 (i + 1) : ℝ) * p :: derivFrom (i + 1) ps

/-- `deriv`, polynom.rs 24-34; `N - 1` underflows for `N = 0`. -/
def deriv : List ℝ → Option (List ℝ)
  | [] => none
  | _ :: ps => some (derivFrom 0 ps ++ [0])

/-- `10.0 * f64::EPSILON`. -/
noncomputable def tolerance : ℝ := 10 / 2 ^ 52

/-- `close_to_zero`, polynom.rs 51-53. -/
def CloseToZero (a : ℝ) : Prop := -tolerance ≤ a ∧ a ≤ tolerance

open Classical in
/-- The loop of `find_single_root`, polynom.rs 77-85, for the values `f`. -/
noncomputable def bisect (f rd : ℝ → ℝ) (low high : ℝ) : Option ℝ :=
  if ¬ CloseToZero (rd (high + -low)) then
    let mid := rd (high + low) / 2
    if f mid < 0 then bisect f rd mid high else bisect f rd low mid
  else some low
partial_fixpoint

open Classical in
/-- `find_single_root`, polynom.rs 58-87; the inner option is the return value. -/
noncomputable def findSingleRoot (poly : List ℝ) (n : ℕ) (low high : ℝ) : Option (Option ℝ) := do
  let lowValue ← value poly n low
  let highValue ← value poly n high
  if highValue * lowValue > 0 then some none
  else
    let r ← if lowValue > highValue then bisect (fun t => (value poly n t).getD 0) id high low
      else bisect (fun t => (value poly n t).getD 0) id low high
    some (some r)

open Classical in
/-- `while n > 0 && poly[n - 1] == 0 {n -= 1}`, polynom.rs 98-100. -/
noncomputable def reduce (poly : List ℝ) : ℕ → Option ℕ
  | 0 => some 0
  | n + 1 => do
    let c ← poly[n]?
    if c = 0 then reduce poly n else some (n + 1)

open Classical in
/-- `if n_roots == 0 || !close_to_zero(roots[n_roots - 1] + -root) {..}`, polynom.rs 133-136, for
`size` places. -/
noncomputable def pushRoot (size : ℕ) (roots : List ℝ) (root : ℝ) : Option (List ℝ) :=
  let far : Prop := match roots.getLast? with
    | none => True
    | some r => ¬ CloseToZero (r + -root)
  if far then (if roots.length < size then some (roots ++ [root]) else none) else some roots

open Classical in
/-- The loop over the extremes, polynom.rs 126-141; the remaining extremes are in the list. -/
noncomputable def rootLoop (poly : List ℝ) (n : ℕ) (stop : ℝ) : List ℝ → ℝ → List ℝ → Option (List ℝ)
  | [], _, roots => some roots
  | high :: rest, low, roots =>
    if high > stop then some roots
    else if high > low then do
      match ← findSingleRoot poly n low high with
      | some root => do
        let roots ← pushRoot poly.length roots root
        rootLoop poly n stop rest high roots
      | none => rootLoop poly n stop rest high roots
    else rootLoop poly n stop rest high roots

open Classical in
/-- `find_roots`, polynom.rs 89-147: the first `n_roots` entries of the array.  `depth` bounds the
recursion, which is on a smaller `n`. -/
noncomputable def findRootsAt : ℕ → List ℝ → ℕ → ℝ → ℝ → Option (List ℝ)
  | 0, _, _, _, _ => none
  | depth + 1, poly, n, start, stop => do
    let n ← reduce poly n
    match n with
    | 0 => if poly.length = 0 then none else some [0]
    | 1 => some []
    | 2 => do
      let p0 ← poly[0]?
      let p1 ← poly[1]?
      if (p0 + p1 * start) * (p0 + p1 * stop) < 0 then some [-(p0 / p1)] else some []
    | n => do
      let d ← deriv poly
      let extremes ← findRootsAt depth d (n - 1) start stop
      if extremes.length < poly.length then
        rootLoop poly n stop (extremes.insertionSort (· ≤ ·) ++ [stop]) start []
      else none

/-- `Polynom::real_roots`, polynom.rs 166-171. -/
noncomputable def realRoots (poly : List ℝ) (start stop : ℝ) : Option (List ℝ) :=
  findRootsAt (poly.length + 1) poly poly.length start stop

end StepperPaths.Polynom
