import Verif.Model.Rounded
import Verif.Model.BezierLength

/-!
Bezier curves (`/repo/src/curves/bezier.rs` and `/repo/src/curves/sqrt_poly.rs`) with rounding, as in
`Model/Rounded.lean`: every `f64` operation is followed by `fl`.  `pw` is the function `f64::powf` of
the mathematical library.  `none` is a panic, as in `Model/SqrtPoly.lean`.

Not rounded, since exact in `f64`: `f64::from(e) / 2.0` for an integer, `-x`, and integers.
-/

namespace StepperPaths.Rounded
open Coords Curves SqrtPoly

variable (fl : ℝ → ℝ) (pw : ℝ → ℝ → ℝ)

/-! ### sqrt_poly.rs -/

/-- `polyval`, sqrt_poly.rs 11-19. -/
def polyvalF (p : List ℝ) (t : ℝ) : ℝ := p.foldr (fun c sum => fl (fl (sum * t) + c)) 0

/-- The loop of `polyder`, sqrt_poly.rs 24-26, from the coefficient with index `i`. -/
def derFromF : ℕ → List ℝ → List ℝ
  | _, [] => []
  | i, p :: ps => fl (p * ((i + 1 : ℕ) : ℝ)) :: derFromF (i + 1) ps

/-- `polyder`, sqrt_poly.rs 21-28. -/
def polyderF : List ℝ → Option (List ℝ)
  | [] => none
  | _ :: ps => some (derFromF fl 0 ps)

/-- The loop of `polyint`, sqrt_poly.rs 34-36, from the coefficient with index `i`. -/
noncomputable def intFromF : ℕ → List ℝ → List ℝ
  | _, [] => []
  | i, p :: ps => fl (p / ((i + 1 : ℕ) : ℝ)) :: intFromF (i + 1) ps

/-- `polyint`, sqrt_poly.rs 30-38. -/
noncomputable def polyintF (p : List ℝ) : List ℝ := 0 :: intFromF fl 0 p

/-- The inner loop of `polymul`, sqrt_poly.rs 48-50: `n` rounds from `j`. -/
def mulSumF (a b : List ℝ) (i : ℕ) : ℕ → ℕ → ℝ → Option ℝ
  | 0, _, sum => some sum
  | n + 1, j, sum => if i < j then none else do
    let x ← a[i - j]?
    let y ← b[j]?
    mulSumF a b i n (j + 1) (fl (sum + fl (x * y)))

/-- The body of the outer loop of `polymul`, sqrt_poly.rs 45-51. -/
def mulCoeffF (a b : List ℝ) (i : ℕ) : Option ℝ :=
  let lowB := if i ≥ a.length then i - a.length + 1 else 0
  if b.length = 0 then none else
  let highB := min i (b.length - 1) + 1
  mulSumF fl a b i (highB - lowB) lowB 0

/-- `polymul`, sqrt_poly.rs 40-54. -/
def polymulF (a b : List ℝ) : Option (List ℝ) :=
  if a.length + b.length = 0 then none
  else (List.range (a.length + b.length - 1)).mapM (mulCoeffF fl a b)

/-- The loop of `polyadd`, sqrt_poly.rs 61-63: adds `a` to the start of `sum`. -/
def addToF : List ℝ → List ℝ → List ℝ
  | [], sum => sum
  | _ :: _, [] => []
  | x :: xs, y :: ys => fl (y + x) :: addToF xs ys

/-- `polyadd`, sqrt_poly.rs 56-65. -/
def polyaddF (a b : List ℝ) : List ℝ := if a.length > b.length then addToF fl b a else addToF fl a b

/-- `DiffSqrtPoly::new`, sqrt_poly.rs 75-81: the field `base_val`. -/
def baseValF (d : Diff) : ℝ := polyvalF fl d.base d.t

/-- `DiffSqrtPoly::eval`, sqrt_poly.rs 83-85. -/
noncomputable def evalF (d : Diff) (sp : Term) : ℝ :=
  fl (fl (pw (baseValF fl d) ((sp.e : ℝ) / 2) * sp.c) * polyvalF fl sp.polynom d.t)

/-- `diff_single_sqrt_poly`, sqrt_poly.rs 88-100. -/
noncomputable def diffSingleF (d : Diff) (sp : Term) : Option (Term × Term) := do
  let db ← polyderF fl d.base
  let m ← polymulF fl sp.polynom db
  let dp ← polyderF fl sp.polynom
  some (⟨fl (fl (sp.c * (1 / 2)) * (sp.e : ℝ)), sp.e - 2, m⟩, ⟨sp.c, sp.e, dp⟩)

/-- The loop of `diff_sqrt_poly`, sqrt_poly.rs 105-113. -/
noncomputable def diffLoopF (d : Diff) : List Term → List Term → ℝ → Option (List Term × ℝ)
  | [], res, sum => some (res, sum)
  | sp :: spa, res, sum => do
    let (d1, d2) ← diffSingleF fl d sp
    if d2.polynom.isEmpty then diffLoopF d spa (res ++ [d1]) (fl (sum + evalF fl pw d d1))
    else diffLoopF d spa (res ++ [d1] ++ [d2]) (fl (fl (sum + evalF fl pw d d1) + evalF fl pw d d2))

/-- `diff_sqrt_poly`, sqrt_poly.rs 102-115. -/
noncomputable def diffSqrtPolyF (d : Diff) (spa : List Term) : Option (List Term × ℝ) :=
  diffLoopF fl pw d spa [] 0

/-- The inner loop of `polyoffset`, sqrt_poly.rs 138-141: `n` rounds from `j`. -/
def offsetInnerF (c offset : ℝ) (bin : List ℕ) (i : ℕ) : ℕ → ℕ → ℝ → List ℝ → Option (List ℝ)
  | 0, _, _, res => some res
  | n + 1, j, f, res => if i < j then none else do
    let b ← bin[j]?
    let r ← res[i - j]?
    offsetInnerF c offset bin i n (j + 1) (fl (f * offset))
      (res.set (i - j) (fl (r + fl (fl (c * (b : ℝ)) * f))))

/-- The outer loop of `polyoffset`, sqrt_poly.rs 135-142: `n` rounds from `i`. -/
def offsetLoopF (p : List ℝ) (offset : ℝ) : ℕ → ℕ → List ℕ → List ℝ → Option (List ℝ)
  | 0, _, _, res => some res
  | n + 1, i, bin, res => if bin.length < i + 1 then none else do
    let row ← binomialStep (bin.take (i + 1))
    let bin := row ++ bin.drop (i + 1)
    let c ← p[i]?
    let res ← offsetInnerF fl c offset bin i (i + 1) 0 1 res
    offsetLoopF p offset n (i + 1) bin res

/-- `polyoffset`, sqrt_poly.rs 129-144. -/
def polyoffsetF (p : List ℝ) (offset : ℝ) : Option (List ℝ) :=
  offsetLoopF fl p offset p.length 0 (List.replicate p.length 0) (List.replicate p.length 0)

/-- `polyweight`, sqrt_poly.rs 146-151. -/
noncomputable def polyweightF (a : List ℝ) (ta : ℝ) (b : List ℝ) (tb : ℝ) : Option (List ℝ) := do
  let x ← polymulF fl [fl (-tb / fl (ta - tb)), fl (1 / fl (ta - tb))] a
  let y ← polymulF fl [fl (-ta / fl (tb - ta)), fl (1 / fl (tb - ta))] b
  some (polyaddF fl x y)

/-- The loop of `taylor_sequence`, sqrt_poly.rs 162-166: `n` rounds from `i`. -/
noncomputable def taylorLoopF (d : Diff) : ℕ → ℕ → List Term → ℝ → List ℝ → Option (List ℝ)
  | 0, _, _, _, coeffs => some coeffs
  | n + 1, i, sp, factorial, coeffs => do
    let (sp, value) ← diffSqrtPolyF fl pw d sp
    let factorial := fl (factorial * (i : ℝ))
    taylorLoopF d n (i + 1) sp factorial (coeffs ++ [fl (value / factorial)])

/-- `taylor_sequence`, sqrt_poly.rs 155-168, with `new_sqrt_poly`, 170-176. -/
noncomputable def taylorSequenceF (p : List ℝ) (t0 : ℝ) (n : ℕ) : Option (List ℝ) :=
  taylorLoopF fl pw ⟨t0, p⟩ (n - 1) 1 [⟨1, 1, [1]⟩] 1 [fl (Real.sqrt (polyvalF fl p t0))]

/-- The loop of `build_segments`, sqrt_poly.rs 195-205: `n` rounds from `i`. -/
noncomputable def segLoopF (p : List ℝ) (low step : ℝ) :
    ℕ → ℕ → List ℝ → ℝ → List Segment → Option (List ℝ × ℝ × List Segment)
  | 0, _, prev, sum, segs => some (prev, sum, segs)
  | n + 1, i, prev, sum, segs => do
    let t0 := fl (low + fl (step * fl ((i : ℝ) + 1 / 2)))
    let tPrev := fl (t0 - step)
    let seq ← taylorSequenceF fl pw p t0 7
    let o ← polyoffsetF fl seq (-step)
    let w ← polyweightF fl prev 0 o step
    let int := polyintF fl w
    let endVal := polyvalF fl int step
    let int ← setFirst int sum
    segLoopF p low step n (i + 1) seq (fl (sum + endVal)) (segs ++ [⟨tPrev, int⟩])

/-- `build_segments`, sqrt_poly.rs 184-218. -/
noncomputable def buildSegmentsF (p : List ℝ) (low high : ℝ) (n : ℕ) : Option (List Segment) := do
  let step := fl (fl (high - low) / ((n + 1 : ℕ) : ℝ))
  let prev ← taylorSequenceF fl pw p (fl (step * (1 / 2))) 7
  let o ← polyoffsetF fl prev (fl (-step * (1 / 2)))
  let int := polyintF fl o
  let endVal := polyvalF fl int (fl (step / 2))
  let int ← setFirst int 0
  let (prev, sum, segs) ← segLoopF fl pw p low step n 1 prev (fl (0 + endVal)) [⟨low, int⟩]
  let int := polyintF fl prev
  let endVal := polyvalF fl int (fl (step * (1 / 2)))
  let int ← setFirst int sum
  let sum := fl (sum + endVal)
  let segs := segs ++ [⟨fl (high - fl (step / 2)), int⟩]
  let o ← polyoffsetF fl prev (fl (step * (1 / 2)))
  let int ← setFirst (polyintF fl o) sum
  some (segs ++ [⟨high, int⟩])

/-- `eval_int`, sqrt_poly.rs 220-225, for an answer of the binary search. -/
def evalIntF (ints : List Segment) (t : ℝ) : Except ℕ ℕ → Option ℝ
  | .ok i => do
    let s ← ints[i]?
    s.int[0]?
  | .error i => if i = 0 then none else do
    let s ← ints[i - 1]?
    some (polyvalF fl s.int (fl (t - s.start)))

/-- The bisection of `find_param`, sqrt_poly.rs 235-243. -/
noncomputable def bisectF (p : List ℝ) (l low high : ℝ) : Option ℝ :=
  if fl (high - low) > SqrtPoly.epsilon then
    let mid := fl (fl (high + low) * (1 / 2))
    if polyvalF fl p mid > l then bisectF p l low mid else bisectF p l mid high
  else some low
partial_fixpoint

/-- `find_param`, sqrt_poly.rs 227-247, for an answer of the binary search. -/
noncomputable def findParamF (ints : List Segment) (l : ℝ) : Except ℕ ℕ → Option ℝ
  | .ok i => do
    let s ← ints[i]?
    some s.start
  | .error i => if i ≥ ints.length ∨ i = 0 then none else do
    let s ← ints[i]?
    let s0 ← ints[i - 1]?
    let low ← bisectF fl s0.int l 0 (fl (s.start - s0.start))
    some (fl (low + s0.start))

/-! ### bezier.rs -/

/-- `coefficients_from_control`, bezier.rs 82-88. -/
def coefficientsF (p0 p1 p2 : ℝ) : List ℝ :=
  [fl (3 * p0), fl (3 * fl (fl (-2 * p0) + p1)), fl (fl (3 * fl (p0 - p1)) + p2)]

/-- `deriv_from_coefficients`, bezier.rs 90-92. -/
def derivF : List ℝ → List ℝ
  | [c0, c1, c2] => [c0, fl (2 * c1), fl (3 * c2)]
  | _ => []

/-- The table which `Bezier::new` builds, bezier.rs 19-24. -/
noncomputable def tableF (b : Bezier) : Option (List Segment) := do
  let dx := derivF fl (coefficientsF fl b.c1.x b.c2.x b.p2.x)
  let dy := derivF fl (coefficientsF fl b.c1.y b.c2.y b.p2.y)
  let xx ← polymulF fl dx dx
  let yy ← polymulF fl dy dy
  buildSegmentsF fl pw (polyaddF fl xx yy) 0 1 9

/-- `Bezier::bezier_value`, bezier.rs 35-55. -/
noncomputable def bezierValueF (b : Bezier) (t : ℝ) : Vec × Vec :=
  let p00 := vmul fl b.c1 t
  let p01 := vadd fl b.c1 (vmul fl (vsub fl b.c2 b.c1) t)
  let p02 := vadd fl b.c2 (vmul fl (vsub fl b.p2 b.c2) t)
  let p10 := vadd fl p00 (vmul fl (vsub fl p01 p00) t)
  let p11 := vadd fl p01 (vmul fl (vsub fl p02 p01) t)
  let p20 := vadd fl p10 (vmul fl (vsub fl p11 p10) t)
  let d :=
    if t < 1 / 2 then
      if vlength fl (vsub fl p11 p20) < fl (1 / 1000000000) then b.c2 else vsub fl p11 p20
    else
      if vlength fl (vsub fl p20 p10) < fl (1 / 1000000000) then vsub fl b.p2 b.c1 else vsub fl p20 p10
  (p20, vunit fl d)

/-- `Bezier` as `dyn CurveInfo`, bezier.rs 58-73, for a length and a function that finds the parameter. -/
noncomputable def bezierInfoF (b : Bezier) (len : ℝ) (param : ℝ → ℝ) : Curve :=
  ⟨len, fun pos => bezierValueF fl b (if pos ≤ 0 then 0 else if pos ≥ len then 1 else param pos)⟩

/-- The Bezier curve of `curve_segment_to_info`, stepper_context.rs 111-115. -/
noncomputable def bezierOfF (pos p2 c1 c2 : Vec) : Bezier := ⟨c1, vadd fl (vsub fl p2 pos) c2, vsub fl p2 pos⟩

end StepperPaths.Rounded
