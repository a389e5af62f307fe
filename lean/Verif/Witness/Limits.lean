import Verif.Model.CheckedRaster
import Verif.Spec.Raster

/-! Counterexample search for the moves and scans whose input is not bounded (C121-C124), see Verif/Witness/Motion.lean. -/

namespace StepperPaths.Witness.Limits
open StepperPaths StepperPaths.Spec StepperPaths.Context StepperPaths.Raster

abbrev M := StateT (List String) IO

def report (c : String) (ok : Bool) (msg : Unit → String) : M Unit := do
  unless ok do
    unless (← get).contains c do
      modify (c :: ·)
      IO.println s!"VIOLATED {c} {msg ()}"

def rnd (s : UInt64) : UInt64 := s * 6364136223846793005 + 1442695040888963407
def pick (s : UInt64) (a b : Int) : Int := a + (((s >>> 33).toNat % (b - a + 1).toNat : Nat) : Int)
def randList (s : UInt64) (n : Nat) (a b : Int) : UInt64 × List Int :=
  (List.range n).foldl (fun (s, l) _ => let s := rnd s; (s, pick s a b :: l)) (s, [])

def moves : M Unit := do
  let mut s : UInt64 := 23
  let aM : Axis → Int := fun | .x => 2 | .y => 3
  let vM : Axis → Int := fun | .x => 6 | .y => 8
  for round in List.range 100 do
    let mut c := (Ctx.new aM vM).setWeight 9
    for _ in List.range 6 do
      let (s', l) := randList s 5 (-14) 14
      s := s'
      let t := (c.channels .x).ticks
      let target : Axis → Int := fun | .x => l[0]! * 9 | .y => l[1]! * 7
      let v : Axis → Int := fun | .x => l[2]! | .y => l[3]!
      let msg := fun (_ : Unit) => s!"round {round} from {c.position} {c.velocity} to {target .x} {target .y} {v .x} {v .y}"
      match Checked.stepGotoSpeed c (target .x) (target .y) (v .x) (v .y) with
      | none => report "C122" ([Axis.x, Axis.y].any fun i => decide (v i > vM i) || decide ((c.channels i).v.natAbs > (vM i).natAbs) ||
          decide (v i < -vM i)) fun _ => "refused: " ++ msg ()
      | some c' =>
        report "C122" ([Axis.x, Axis.y].all fun i => decide (v i ≤ vM i)) fun _ => "too fast: " ++ msg ()
        match c'.ticks with
        | none => report "C121" false fun _ => "ticks: " ++ msg ()
        | some t' =>
          for i in [Axis.x, Axis.y] do
            let d := (posAt i c'.events t' - target i).natAbs
            report "C123" (decide (d ≤ 1) && velAt i c'.events t' == v i && decide (t < t') && (List.range t').all fun τ => decide (τ < t) ||
              (decide ((accAt i c'.events τ).natAbs ≤ (aM i).natAbs) && decide (velAt i c'.events (τ + 1) ≤ vM i) &&
                decide (min (-vM i) (min (velAt i c'.events t) (v i)) ≤ velAt i c'.events (τ + 1)))) fun _ => "move: " ++ msg ()
            report "C124" ((d == 0) == ((target i - v i) % 2 == 0)) fun _ => "move: " ++ msg ()
            report "C121" ((List.range (t' + 2)).all fun τ => weightAt 7 c'.events τ == if τ < t then weightAt 7 c.events τ else 0)
              fun _ => "weight: " ++ msg ()
          c := c'
      -- a stroke, with the laser on
      let t := (c.channels .x).ticks
      if let some c' := (do
          let c ← c.addWeightChange 5 t
          let c ← Checked.addAccInterval c (min (l[4]! / 5) ((vM .x - (c.channels .x).v) / 2)) (min (l[0]! / 5) ((vM .y - (c.channels .y).v) / 2)) 2
          c.addWeightChange 0 (t + 2)) then
        c := c'
    let home := do
      let c ← Checked.stepGotoSpeed c 0 0 0 0
      c.readEvents
    if let some c' := home then
      let d := duration c'.events
      report "C121" ((List.range 3).all fun k => weightAt 7 c'.events (d + k) == 0 && [Axis.x, Axis.y].all fun i =>
        accAt i c'.events (d + k) == 0 && velAt i c'.events (d + k) == 0) fun _ => s!"round {round} end"
      report "C124" ((List.range 3).all fun k => [Axis.x, Axis.y].all fun i => posAt i c'.events (d + k) == 0) fun _ => s!"round {round} end"

def scans : M Unit := do
  let mut s : UInt64 := 29
  for round in List.range 70 do
    let (s', l) := randList s 24 0 5
    s := s'
    let aM : Axis → Int := fun | .x => 1 + l[15]! | .y => 1 + l[16]!
    let vM : Axis → Int := fun | .x => 2 + l[17]! | .y => 1 + l[18]!
    let img : Image := ⟨3, 2, fun x y => if l[3 * y + x]! < 2 then 255 else (l[3 * y + x]! * 40).toNat⟩
    let p : Params := ⟨(l[10]! % 4).toNat, l[11]! - 1, (l[12]! % 3).toNat, 2 * (l[13]! - 2), 200 + l[14]!⟩
    let msg := fun (_ : Unit) => s!"round {round} pixels {l.take 6} resX {p.resX} vX {p.vX} resY {p.resY} stepY {p.stepY}"
    if let some c := Checked.raster p img (Ctx.new aM vM) then
      let es := c.events
      let d := duration es
      report "C121" ((List.range 3).all fun k => weightAt 7 es (d + k) == 0 && [Axis.x, Axis.y].all fun i =>
        accAt i es (d + k) == 0 && velAt i es (d + k) == 0) fun _ => "end: " ++ msg ()
      report "C123" ((List.range (d + 1)).all fun τ => [Axis.x, Axis.y].all fun i => decide ((accAt i es τ).natAbs ≤ (aM i).natAbs) &&
        decide ((velAt i es τ).natAbs ≤ (vM i).natAbs)) fun _ => "limits: " ++ msg ()
      report "C124" ([Axis.x, Axis.y].all fun i => posAt i es d == 0) fun _ => "end: " ++ msg ()
      report "C121" ((List.range d).all fun τ => weightAt 7 es τ == 0 || decide (weightAt 7 es τ > 0)) fun _ => "weight: " ++ msg ()

def search : IO Unit := do
  let ((), l) ← (do moves; scans : M Unit).run []
  IO.println s!"done {l.length}"

end StepperPaths.Witness.Limits
