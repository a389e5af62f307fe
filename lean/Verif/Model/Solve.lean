import Verif.Model.Rust

/-!
Model of `/repo/src/solve.rs` with `i64` as unbounded `Int`.
-/

namespace StepperPaths.Solve

/-- `same_sign`, solve.rs 3-9. -/
def sameSign (a b : Int) : Bool := if a ≥ 0 then decide (b ≥ 0) else decide (b < 0)

/-- `sqpoly`, solve.rs 11-13. -/
def sqpoly (a b c x : Int) : Int := a * x * x + b * x - c

/-- The `loop` of `find_root`, solve.rs 33-53.  `miny`/`maxy` are always the
polynomial at `minx`/`maxx`, as in the source. -/
def findRootLoop (a b c minx maxx miny maxy : Int) : Int :=
  if miny = 0 then minx
  else if maxy = 0 then maxx
  else if _h : maxx - minx ≤ 1 then (if maxy ≥ 0 then maxx else minx)
  else
    let midx := Int.tdiv (minx + maxx) 2
    let midy := sqpoly a b c midx
    if sameSign maxy midy then findRootLoop a b c minx midx miny midy
    else findRootLoop a b c midx maxx midy maxy
termination_by (maxx - minx).toNat
decreasing_by
  all_goals
    have : Int.tdiv (minx + maxx) 2 > minx ∧ Int.tdiv (minx + maxx) 2 < maxx := by
      rcases Int.le_total 0 (minx + maxx) with hs | hs
      · rw [Int.tdiv_eq_ediv_of_nonneg hs]; omega
      · have : (minx + maxx).tdiv 2 = -((-(minx + maxx)) / 2) := by
          rw [← Int.tdiv_eq_ediv_of_nonneg (by omega), Int.neg_tdiv]; omega
        omega
    omega

/-- `find_root`, solve.rs 18-54. -/
def findRoot (a b c min max : Int) : Option Int :=
  let miny := sqpoly a b c min
  let maxy := sqpoly a b c max
  if miny = 0 then some min
  else if maxy = 0 then some max
  else if sameSign miny maxy then none
  else some (findRootLoop a b c min max miny maxy)

/-- `while sqpoly(a, b, c, xmin + limit) <= 0 { limit *= 2; }`, solve.rs 82-84.
Divergence is `none`. -/
def growLimit (a b c xmin limit : Int) : Option Int :=
  if sqpoly a b c (xmin + limit) ≤ 0 then growLimit a b c xmin (limit * 2) else some limit
partial_fixpoint

/-- `-b / (2*a)` rounded to the nearest integer, solve.rs 63-69. -/
def roundVertex (a b : Int) : Option Int :=
  if b ≥ 0 then (cdiv (b + a) (2 * a)).map (fun q => -q) else cdiv (-b + a) (2 * a)

/-- `find_roots`, solve.rs 57-93.  The outer `Option` is panic or divergence. -/
def findRoots (a b c : Int) : Option (Option (Int × Int)) := do
  let s := b * b + 4 * a * c
  if s < 0 then return none
  let xmin ← roundVertex a b
  let ymin := sqpoly a b c xmin
  if s = 0 ∧ ymin = 0 then return some (xmin, xmin)
  if ymin ≥ 0 then
    if -b < 2 * a * xmin then return some (xmin - 1, xmin)
    else return some (xmin, xmin + 1)
  let limit ← growLimit a b c xmin 16
  let limit := limit + 1
  match findRoot a b c (xmin - limit) xmin, findRoot a b c xmin (xmin + limit) with
  | some x1, some x2 => return some (x1, x2)
  | _, _ => return none

end StepperPaths.Solve
