import Verif.Spec.Raster

/-! Counterexample search for the image scan (C56, C57), see Verif/Witness/Motion.lean. -/

namespace StepperPaths.Witness.Scan
open StepperPaths StepperPaths.Spec StepperPaths.Context StepperPaths.Raster

abbrev M := StateT (List String) IO

def report (c : String) (ok : Bool) (msg : Unit → String) : M Unit := do
  unless ok do
    unless (← get).contains c do
      modify (c :: ·)
      IO.println s!"VIOLATED {c} {msg ()}"

def rnd (s : UInt64) : UInt64 := s * 6364136223846793005 + 1442695040888963407
def pick (s : UInt64) (a b : Int) : Int := a + (((s >>> 33).toNat % (b - a + 1).toNat : Nat) : Int)
def randList (s : UInt64) (n : Nat) (a b : Int) : UInt64 × List Int :=
  (List.range n).foldl (fun (s, l) _ => let s := rnd s; (s, pick s a b :: l)) (s, [])

def near (a b : Int) : Bool := decide ((a - b).natAbs ≤ 1)

def search : IO Unit := do
  let run : M Unit := do
    let mut s : UInt64 := 11
    for _ in List.range 300 do
      let (s', l) := randList s 9 0 3
      s := s'
      let f : Nat → Bool := fun x => l[x]! == 0
      let w := 1 + l[8]!.toNat * 2
      let (start, len) := findRowInterval f w
      let inside := (List.range w).filter f
      report "C56" (if inside.isEmpty then len == 0 else
        start == inside.head! && start + len == inside.getLast! + 1) fun _ => s!"{l} {w}: {start} {len}"
    let aM : Axis → Int := fun | .x => 2 | .y => 3
    let vM : Axis → Int := fun | .x => 9 | .y => 12
    for round in List.range 60 do
      let (s', l) := randList s 20 0 5
      s := s'
      let img : Image := ⟨3, 2, fun x y => if l[3 * y + x]! < 2 then 255 else (l[3 * y + x]! * 40).toNat⟩
      let p : Params := ⟨1 + (l[10]! % 3).toNat, 1 + l[11]!, 1 + (l[12]! % 2).toNat, 2 * (l[13]! - 2), 200 + l[14]!⟩
      let msg := fun (_ : Unit) => s!"round {round} pixels {l.take 6} resX {p.resX} vX {p.vX} resY {p.resY} stepY {p.stepY}"
      match raster p img (Ctx.new aM vM) with
      | none => report "C57" false fun _ => "panics: " ++ msg ()
      | some c =>
        let es := c.events
        let d := duration es
        let xs := (List.range (d + 2)).map (posAt .x es)
        let ys := (List.range (d + 2)).map (posAt .y es)
        let vx := (List.range (d + 2)).map (velAt .x es)
        let vy := (List.range (d + 2)).map (velAt .y es)
        let ws := (List.range (d + 1)).map (weightAt 7 es)
        report "C57" (near xs[d]! 0 && near ys[d]! 0 && vx[d]! == 0 && vy[d]! == 0 && ws[d]! == 0) fun _ => "end: " ++ msg ()
        report "C57" ((List.range d).all fun t => decide ((accAt .x es t).natAbs ≤ 2) && decide ((accAt .y es t).natAbs ≤ 3) &&
          decide ((vx[t]!).natAbs ≤ 9) && decide ((vy[t]!).natAbs ≤ 12)) fun _ => "limits: " ++ msg ()
        -- only the picture
        let places := (List.range 2).flatMap fun y => (List.range p.resY).flatMap fun rep => (List.range 3).map fun x => (x, y, rep)
        report "C57" ((List.range d).all fun t => ws[t]! == 0 || places.any fun (x, y, rep) =>
          ws[t]! == shade p img x y && near ys[t]! ((y * p.resY + rep : Nat) * p.stepY) && (List.range p.resX).any fun q =>
            (near xs[t]! (2 * p.vX * (p.resX * x + q : Nat)) && near xs[t + 1]! (2 * p.vX * (p.resX * x + q + 1 : Nat))) ||
            (near xs[t]! (2 * p.vX * (p.resX * x + q + 1 : Nat)) && near xs[t + 1]! (2 * p.vX * (p.resX * x + q : Nat))))
          fun _ => "outside: " ++ msg ()
        -- the whole picture
        report "C57" (places.all fun (x, y, rep) => img.pixel x y == 255 || (List.range (d + 1 - p.resX)).any fun u =>
          [true, false].any fun ltr => (List.range p.resX).all fun q =>
            ws[u + q]! == shade p img x y && near ys[u + q]! ((y * p.resY + rep : Nat) * p.stepY) &&
            near xs[u + q]! (2 * p.vX * (if ltr then (p.resX * x + q : Int) else (p.resX * (x + 1) - q : Int))))
          fun _ => "missing: " ++ msg ()
        -- every second line goes back
        let starts := (List.range d).filter fun t => ws[t]! != 0 && (t == 0 || ws[t - 1]! == 0)
        report "C57" (starts.all fun t => vx[t]! == p.vX || vx[t]! == -p.vX) fun _ => "speed: " ++ msg ()
    let p : Params := ⟨2, -3, 1, 4, 200⟩
    report "C57" ((raster p ⟨3, 2, fun _ _ => 0⟩ (Ctx.new aM vM)).isNone) fun _ => "negative speed accepted"
  let ((), l) ← run.run []
  IO.println s!"done {l.length}"

end StepperPaths.Witness.Scan
