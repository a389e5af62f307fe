import Mathlib.Data.Real.Basic

/-!
Model of `src/curves/linear_curve.rs`: a curve walked by its length, with the lengths of its pieces
estimated by `split_length` and kept in a tree that grows while it is used.

Numbers are exact reals.  `split_length` of the trait `CurveApprox` is an arbitrary function.
-/

namespace StepperPaths.LinearCurve

/-- `CurveNode`, linear_curve.rs 20-30; `leaf` has no children. -/
inductive Node where
  | leaf (tStart tEnd length : ℝ)
  | fork (tStart tEnd length : ℝ) (low high : Node)

def Node.tStart : Node → ℝ
  | .leaf a _ _ => a
  | .fork a _ _ _ _ => a

def Node.tEnd : Node → ℝ
  | .leaf _ b _ => b
  | .fork _ b _ _ _ => b

def Node.length : Node → ℝ
  | .leaf _ _ x => x
  | .fork _ _ x _ _ => x

/-- The type of `split_length`, linear_curve.rs 17. -/
abbrev Split := ℝ → ℝ → ℝ × Option ℝ × Option ℝ

/-- `node_length`, linear_curve.rs 71-87.  The result is the node afterwards; the number that is
returned is its length. -/
def nodeLength (split : Split) (n : Node) : Option Node :=
  match n with
  | .leaf a b _ =>
    let m := (split a b).1
    (match (split a b).2.1 with
      | some x => some (Node.leaf a m x)
      | none => nodeLength split (.leaf a m 0)) >>= fun low =>
    (match (split a b).2.2 with
      | some x => some (Node.leaf m b x)
      | none => nodeLength split (.leaf m b 0)) >>= fun high =>
    some (.fork a b (low.length + high.length) low high)
  | .fork a b _ low high => some (.fork a b (low.length + high.length) low high)
partial_fixpoint

/-- The children made in `node_pos`, linear_curve.rs 97-108. -/
def children (split : Split) (a b : ℝ) : Option (Node × Node) :=
  let m := (split a b).1
  (match (split a b).2.1 with
    | some x => some (Node.leaf a m x)
    | none => nodeLength split (.leaf a m 0)) >>= fun low =>
  (match (split a b).2.2 with
    | some x => some (Node.leaf m b x)
    | none => nodeLength split (.leaf m b 0)) >>= fun high =>
  some (low, high)

open Classical in
/-- `node_pos`, linear_curve.rs 89-122: the parameter and the node afterwards. -/
noncomputable def nodePos (split : Split) (error : ℝ) (n : Node) (relPos : ℝ) : Option (ℝ × Node) :=
  if relPos ≤ error then some (n.tStart, n)
  else if n.length - relPos ≤ error then some (n.tEnd, n)
  else
    (match n with
      | .leaf a b _ => children split a b
      | .fork _ _ _ low high => some (low, high)) >>= fun c =>
    if c.1.length > relPos then
      (nodePos split error c.1 relPos) >>= fun x =>
        some (x.1, .fork n.tStart n.tEnd n.length x.2 c.2)
    else
      (nodePos split error c.2 (relPos - c.1.length)) >>= fun x =>
        some (x.1, .fork n.tStart n.tEnd n.length c.1 x.2)
partial_fixpoint

/-- `LinearCurve::new`, linear_curve.rs 125-137. -/
def new (split : Split) (start stop : ℝ) : Option Node := nodeLength split (.leaf start stop 0)

/-- `LinearCurve::position`, linear_curve.rs 148-150. -/
noncomputable def position (split : Split) (n : Node) (pos : ℝ) : Option (ℝ × Node) :=
  nodePos split (1 / 100000) n pos

/-- A sequence of calls of `position`. -/
noncomputable def positions (split : Split) (n : Node) : List ℝ → Option Node
  | [] => some n
  | s :: rest => do
    let (_, n) ← position split n s
    positions split n rest

end StepperPaths.LinearCurve
