import Verif.Model.Coords

/-!
Model of two files that are not part of the crate: `/repo/src/curves/bezier_as_arcs.rs` (commented out in `curves/mod.rs`) and the
planner of `/repo/src/main_old.rs`.  Exact arithmetic: `f64` is `ℝ`.  Output is left out.
-/

namespace StepperPaths.Unused
open Coords

/-! ### bezier_as_arcs.rs -/

/-- `incenter_point`, bezier_as_arcs.rs 3-8. -/
noncomputable def incenterPoint (p1 p2 p3 : Vec) : Vec :=
  let l1 := (p2 - p3).length
  let l2 := (p1 - p3).length
  let l3 := (p1 - p2).length
  (p1 * l1 + p2 * l2 + p3 * l3) / (l1 + l2 + l3)

open Classical in
/-- `intersection`, bezier_as_arcs.rs 11-24; `f64::EPSILON` is `2^-52`. -/
noncomputable def intersection (l1 l2 : Vec × Vec) : Option Vec :=
  let d1 := l1.1 - l1.2
  let d2 := l2.1 - l2.2
  let den := d1.crossMul d2
  if den ≤ 2⁻¹ ^ 52 then none
  else
    let a1 := l1.1.crossMul l1.2
    let a2 := l2.1.crossMul l2.2
    some ⟨(a1 * d2.x - a2 * d1.x) / den, (a1 * d2.y - a2 * d1.y) / den⟩

/-- `enum Circle`, bezier_as_arcs.rs 26-31. -/
inductive Circle
  | line
  | cw (center : Vec) (radius : ℝ)
  | ccw (center : Vec) (radius : ℝ)

open Classical in
/-- `fit_circle`, bezier_as_arcs.rs 34-51. -/
noncomputable def fitCircle (p2 p3 : Vec) : Circle :=
  let d := p2.crossMul p3 * 2
  if d = 0 then .line
  else
    let d2 := p2.scalarMul p2
    let d3 := p3.scalarMul p3
    let center : Vec := ⟨(p3.y * d2 - p2.y * d3) / d, (p2.x * d3 - p3.x * d2) / d⟩
    let radius := (p2 - center).length
    if d > 0 then .ccw center radius else .cw center radius

/-! ### main_old.rs -/

/-- `eval_acc_seq`, main_old.rs 26-35, with unbounded integers. -/
def evalAccSeq (s0 v0 : ℤ) (acc : List ℤ) : ℤ × ℤ := acc.foldl (fun (s, v) a => (s + 2 * v + a, v + a)) (s0, v0)

/-- The loop of `eval_acc_seq2`, main_old.rs 43-47, from the index `k`. -/
def evalLoop2 (n : ℕ) : ℕ → List ℤ → ℤ × ℤ → ℤ × ℤ
  | _, [], r => r
  | k, a :: rest, (s, v) => evalLoop2 n (k + 1) rest (s + (2 * ((n - k : ℕ) : ℤ) - 1) * a, v + a)

/-- `eval_acc_seq2`, main_old.rs 38-50. -/
def evalAccSeq2 (s0 v0 : ℤ) (acc : List ℤ) : ℤ × ℤ :=
  evalLoop2 acc.length 0 acc (s0 + 2 * acc.length * v0, v0)

/-- `eval_acc_time`, main_old.rs 53-63. -/
def evalAccTime (s0 v0 : ℝ) (acc : List (ℝ × ℝ)) : ℝ × ℝ :=
  acc.foldl (fun (s, v) (a, dt) => (s + 2 * v * dt + a * dt * dt, v + a * dt)) (s0, v0)

open Classical in
/-- `extend_dist`, main_old.rs 81-97. -/
noncomputable def extendDist (s v a vmax : ℝ) : ℝ × ℝ :=
  let dta := -v / a + √(s / (2 * a) + v * v / (a * a))
  let vtop := v + a * dta
  if vtop > vmax then
    let dta := (vmax - v) / a
    (dta, (s - 2 * (v + vmax) * dta) / (2 * vmax))
  else if vtop < -vmax then
    let dta := (vmax - v) / a
    (dta, (s - 2 * (v - vmax) * dta) / (2 * -vmax))
  else (dta, 0)

open Classical in
/-- `build_optimal_path`, main_old.rs 167-208: the acceleration, and the times of acceleration, constant speed and
deceleration. -/
noncomputable def buildOptimalPath (s0 sn v0 vn vmax amax : ℤ) : ℝ × ℝ × ℝ × ℝ :=
  let a : ℝ := ((if vn - v0 ≥ 0 then amax else -amax : ℤ) : ℝ)
  let dt0 := ((vn - v0 : ℤ) : ℝ) / a
  let s := (s0 : ℝ) + ((2 * v0 : ℤ) : ℝ) * dt0 + a * dt0 * dt0
  let ds := (sn : ℝ) - s
  if ds < 0 then
    if a > 0 then
      let (dta, dtc) := extendDist (-ds) (-v0) a vmax
      (-a, dta, dtc, dt0 + dta)
    else
      let (dta, dtc) := extendDist (-ds) (-vn) (-a) vmax
      (a, dt0 + dta, dtc, dta)
  else
    if a > 0 then
      let (dta, dtc) := extendDist ds vn a vmax
      (a, dt0 + dta, dtc, dta)
    else
      let (dta, dtc) := extendDist ds v0 (-a) vmax
      (-a, dta, dtc, dt0 + dta)

end StepperPaths.Unused
