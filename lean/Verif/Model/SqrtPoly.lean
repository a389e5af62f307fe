import Mathlib.Analysis.SpecialFunctions.Pow.Real
import Mathlib.Analysis.Real.Sqrt

/-!
Model of `/repo/src/curves/sqrt_poly.rs`, in exact arithmetic: an `f64` is a real number
and rounding is not modelled.  A polynomial is the list of its coefficients, the lowest
degree first, as in the source.  `none` is a panic: an underflow of a `usize`, an overflow
of a `u16`, or an index out of range.
-/

namespace StepperPaths.SqrtPoly

/-- `polyval`, sqrt_poly.rs 11-19.  The source runs from the last coefficient to the first. -/
def polyval (p : List ℝ) (t : ℝ) : ℝ := p.foldr (fun c sum => sum * t + c) 0

/-- The loop of `polyder`, sqrt_poly.rs 24-26, from the coefficient with index `i`. -/
def derFrom : ℕ → List ℝ → List ℝ
  | _, [] => []
  | i, p :: ps => p * ((i + 1 : ℕ) : ℝ) :: derFrom (i + 1) ps

/-- `polyder`, sqrt_poly.rs 21-28.  `len - 1` underflows when there is no coefficient. -/
def polyder : List ℝ → Option (List ℝ)
  | [] => none
  | _ :: ps => some (derFrom 0 ps)

/-- The loop of `polyint`, sqrt_poly.rs 34-36, from the coefficient with index `i`. -/
noncomputable def intFrom : ℕ → List ℝ → List ℝ
  | _, [] => []
  | i, p :: ps => p / ((i + 1 : ℕ) : ℝ) :: intFrom (i + 1) ps

/-- `polyint`, sqrt_poly.rs 30-38. -/
noncomputable def polyint (p : List ℝ) : List ℝ := 0 :: intFrom 0 p

/-- The inner loop of `polymul`, sqrt_poly.rs 48-50: `n` rounds from `j`. -/
def mulSum (a b : List ℝ) (i : ℕ) : ℕ → ℕ → ℝ → Option ℝ
  | 0, _, sum => some sum
  | n + 1, j, sum => if i < j then none else do
    let x ← a[i - j]?
    let y ← b[j]?
    mulSum a b i n (j + 1) (sum + x * y)

/-- The body of the outer loop of `polymul`, sqrt_poly.rs 45-51. -/
def mulCoeff (a b : List ℝ) (i : ℕ) : Option ℝ :=
  let lowB := if i ≥ a.length then i - a.length + 1 else 0
  if b.length = 0 then none else
  let highB := min i (b.length - 1) + 1
  mulSum a b i (highB - lowB) lowB 0

/-- `polymul`, sqrt_poly.rs 40-54. -/
def polymul (a b : List ℝ) : Option (List ℝ) :=
  if a.length + b.length = 0 then none
  else (List.range (a.length + b.length - 1)).mapM (mulCoeff a b)

/-- The loop of `polyadd`, sqrt_poly.rs 61-63: adds `a` to the start of `sum`. -/
def addTo : List ℝ → List ℝ → List ℝ
  | [], sum => sum
  | _ :: _, [] => []
  | x :: xs, y :: ys => (y + x) :: addTo xs ys

/-- `polyadd`, sqrt_poly.rs 56-65.  `sum` is a copy of the longer operand. -/
def polyadd (a b : List ℝ) : List ℝ := if a.length > b.length then addTo b a else addTo a b

/-- `struct SqrtPoly`, sqrt_poly.rs 5-9: the term `c * s^(e/2) * P(t)`.  The `i32` is an
integer. -/
structure Term where
  c : ℝ
  e : ℤ
  polynom : List ℝ

/-- `struct DiffSqrtPoly`, sqrt_poly.rs 68-72, and `DiffSqrtPoly::new`, 75-81. -/
structure Diff where
  t : ℝ
  base : List ℝ

/-- The field `base_val`, sqrt_poly.rs 71 and 78. -/
def Diff.baseVal (d : Diff) : ℝ := polyval d.base d.t

/-- `DiffSqrtPoly::eval`, sqrt_poly.rs 83-85. -/
noncomputable def Diff.eval (d : Diff) (sp : Term) : ℝ :=
  d.baseVal ^ ((sp.e : ℝ) / 2) * sp.c * polyval sp.polynom d.t

/-- `diff_single_sqrt_poly`, sqrt_poly.rs 88-100. -/
noncomputable def diffSingle (d : Diff) (sp : Term) : Option (Term × Term) := do
  let db ← polyder d.base
  let m ← polymul sp.polynom db
  let dp ← polyder sp.polynom
  some (⟨sp.c * (1 / 2) * (sp.e : ℝ), sp.e - 2, m⟩, ⟨sp.c, sp.e, dp⟩)

/-- `diff_sqrt_poly`, sqrt_poly.rs 102-115.  The two accumulators are passed along. -/
noncomputable def diffLoop (d : Diff) : List Term → List Term → ℝ → Option (List Term × ℝ)
  | [], res, sum => some (res, sum)
  | sp :: spa, res, sum => do
    let (d1, d2) ← diffSingle d sp
    if d2.polynom.isEmpty then diffLoop d spa (res ++ [d1]) (sum + d.eval d1)
    else diffLoop d spa (res ++ [d1] ++ [d2]) (sum + d.eval d1 + d.eval d2)

/-- `diff_sqrt_poly`, sqrt_poly.rs 102-115. -/
noncomputable def diffSqrtPoly (d : Diff) (spa : List Term) : Option (List Term × ℝ) :=
  diffLoop d spa [] 0

/-- An addition of two `u16` with the overflow check. -/
def addU16 (x y : ℕ) : Option ℕ := if x + y < 65536 then some (x + y) else none

/-- The loop of `binomial_step`, sqrt_poly.rs 122-126.  The list is the part of the row
which starts at the loop counter. -/
def stepLoop (prev : ℕ) : List ℕ → Option (List ℕ)
  | [] => none
  | [_] => some [1]
  | x :: y :: r => do
    let p ← addU16 x y
    let t ← stepLoop p (y :: r)
    some (prev :: t)

/-- `binomial_step`, sqrt_poly.rs 118-127. -/
def binomialStep : List ℕ → Option (List ℕ)
  | [] => none
  | _ :: r => stepLoop 1 (1 :: r)

/-- The inner loop of `polyoffset`, sqrt_poly.rs 138-141: `n` rounds from `j`. -/
def offsetInner (c offset : ℝ) (bin : List ℕ) (i : ℕ) : ℕ → ℕ → ℝ → List ℝ → Option (List ℝ)
  | 0, _, _, res => some res
  | n + 1, j, f, res => if i < j then none else do
    let b ← bin[j]?
    let r ← res[i - j]?
    offsetInner c offset bin i n (j + 1) (f * offset) (res.set (i - j) (r + c * (b : ℝ) * f))

/-- The outer loop of `polyoffset`, sqrt_poly.rs 135-142: `n` rounds from `i`.  The slice
`bin[..i + 1]` is replaced by its next row, the rest of `bin` is kept. -/
def offsetLoop (p : List ℝ) (offset : ℝ) : ℕ → ℕ → List ℕ → List ℝ → Option (List ℝ)
  | 0, _, _, res => some res
  | n + 1, i, bin, res => if bin.length < i + 1 then none else do
    let row ← binomialStep (bin.take (i + 1))
    let bin := row ++ bin.drop (i + 1)
    let c ← p[i]?
    let res ← offsetInner c offset bin i (i + 1) 0 1 res
    offsetLoop p offset n (i + 1) bin res

/-- `polyoffset`, sqrt_poly.rs 129-144. -/
def polyoffset (p : List ℝ) (offset : ℝ) : Option (List ℝ) :=
  offsetLoop p offset p.length 0 (List.replicate p.length 0) (List.replicate p.length 0)

/-- `polyweight`, sqrt_poly.rs 146-151. -/
noncomputable def polyweight (a : List ℝ) (ta : ℝ) (b : List ℝ) (tb : ℝ) : Option (List ℝ) := do
  let x ← polymul [-tb / (ta - tb), 1 / (ta - tb)] a
  let y ← polymul [-ta / (tb - ta), 1 / (tb - ta)] b
  some (polyadd x y)

/-- The loop of `taylor_sequence`, sqrt_poly.rs 162-166: `n` rounds from `i`. -/
noncomputable def taylorLoop (d : Diff) : ℕ → ℕ → List Term → ℝ → List ℝ → Option (List ℝ)
  | 0, _, _, _, coeffs => some coeffs
  | n + 1, i, sp, factorial, coeffs => do
    let (sp, value) ← diffSqrtPoly d sp
    let factorial := factorial * (i : ℝ)
    taylorLoop d n (i + 1) sp factorial (coeffs ++ [value / factorial])

/-- `taylor_sequence`, sqrt_poly.rs 155-168, with `new_sqrt_poly`, 170-176. -/
noncomputable def taylorSequence (p : List ℝ) (t0 : ℝ) (n : ℕ) : Option (List ℝ) :=
  taylorLoop ⟨t0, p⟩ (n - 1) 1 [⟨1, 1, [1]⟩] 1 [Real.sqrt (polyval p t0)]

/-- `struct IntegralSegment`, sqrt_poly.rs 178-182. -/
structure Segment where
  start : ℝ
  int : List ℝ

/-- `int[0] = v`. -/
def setFirst : List ℝ → ℝ → Option (List ℝ)
  | [], _ => none
  | _ :: r, v => some (v :: r)

/-- The loop of `build_segments`, sqrt_poly.rs 195-205: `n` rounds from `i`. -/
noncomputable def segLoop (p : List ℝ) (low step : ℝ) :
    ℕ → ℕ → List ℝ → ℝ → List Segment → Option (List ℝ × ℝ × List Segment)
  | 0, _, prev, sum, segs => some (prev, sum, segs)
  | n + 1, i, prev, sum, segs => do
    let t0 := low + step * ((i : ℝ) + 1 / 2)
    let tPrev := t0 - step
    let seq ← taylorSequence p t0 7
    let o ← polyoffset seq (-step)
    let w ← polyweight prev 0 o step
    let int := polyint w
    let endVal := polyval int step
    let int ← setFirst int sum
    segLoop p low step n (i + 1) seq (sum + endVal) (segs ++ [⟨tPrev, int⟩])

/-- `build_segments`, sqrt_poly.rs 184-218. -/
noncomputable def buildSegments (p : List ℝ) (low high : ℝ) (n : ℕ) : Option (List Segment) := do
  let step := (high - low) / ((n + 1 : ℕ) : ℝ)
  let prev ← taylorSequence p (step * (1 / 2)) 7
  let o ← polyoffset prev (-step * (1 / 2))
  let int := polyint o
  let endVal := polyval int (step / 2)
  let int ← setFirst int 0
  let (prev, sum, segs) ← segLoop p low step n 1 prev (0 + endVal) [⟨low, int⟩]
  let int := polyint prev
  let endVal := polyval int (step * (1 / 2))
  let int ← setFirst int sum
  let sum := sum + endVal
  let segs := segs ++ [⟨high - step / 2, int⟩]
  let o ← polyoffset prev (step * (1 / 2))
  let int ← setFirst (polyint o) sum
  some (segs ++ [⟨high, int⟩])

/-- The answer of `binary_search_by` on a list of keys, as documented by the standard
library for a sorted list: `Ok(i)` is any matching index, `Err(i)` is the place where the
value could be inserted. -/
inductive Found (keys : List ℝ) (v : ℝ) : Except ℕ ℕ → Prop
  | ok {i} : keys[i]? = some v → Found keys v (.ok i)
  | err {i} : i ≤ keys.length → (∀ j k, j < i → keys[j]? = some k → k < v) →
      (∀ j k, i ≤ j → keys[j]? = some k → v < k) → Found keys v (.error i)

/-- `eval_int`, sqrt_poly.rs 220-225, for an answer of the binary search. -/
def evalIntAt (ints : List Segment) (t : ℝ) : Except ℕ ℕ → Option ℝ
  | .ok i => do
    let s ← ints[i]?
    s.int[0]?
  | .error i => if i = 0 then none else do
    let s ← ints[i - 1]?
    some (polyval s.int (t - s.start))

/-- `f64::EPSILON`. -/
noncomputable def epsilon : ℝ := 1 / 2 ^ 52

/-- The bisection of `find_param`, sqrt_poly.rs 235-243. -/
noncomputable def bisect (p : List ℝ) (l low high : ℝ) : Option ℝ :=
  if high - low > epsilon then
    let mid := (high + low) * (1 / 2)
    if polyval p mid > l then bisect p l low mid else bisect p l mid high
  else some low
partial_fixpoint

/-- `find_param`, sqrt_poly.rs 227-247, for an answer of the binary search. -/
noncomputable def findParamAt (ints : List Segment) (l : ℝ) : Except ℕ ℕ → Option ℝ
  | .ok i => do
    let s ← ints[i]?
    some s.start
  | .error i => if i ≥ ints.length ∨ i = 0 then none else do
    let s ← ints[i]?
    let s0 ← ints[i - 1]?
    let low ← bisect s0.int l 0 (s.start - s0.start)
    some (low + s0.start)

end StepperPaths.SqrtPoly
