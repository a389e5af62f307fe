import Verif.Spec.Wire

/-! Counterexample search for the serial protocol (C35–C38), see Verif/Witness/Motion.lean. -/

namespace StepperPaths.Witness.Wire
open StepperPaths StepperPaths.Spec StepperPaths.Context StepperPaths.Control

abbrev M := StateT (List String) IO

def report (c : String) (ok : Bool) (msg : Unit → String) : M Unit := do
  unless ok do
    unless (← get).contains c do
      modify (c :: ·)
      IO.println s!"VIOLATED {c} {msg ()}"

def rnd (s : UInt64) : UInt64 := s * 6364136223846793005 + 1442695040888963407
def pick (s : UInt64) (a b : Int) : Int := a + (((s >>> 33).toNat % (b - a + 1).toNat : Nat) : Int)
def randList (s : UInt64) (n : Nat) (a b : Int) : UInt64 × List Int :=
  (List.range n).foldl (fun (s, l) _ => let s := rnd s; (s, pick s a b :: l)) (s, [])

/-- A port that delivers a text with delays, and then an error. -/
def port (text : List Char) (delay : List Int) : Port :=
  let outs := (text.zip (delay ++ List.replicate text.length (0 : Int))).flatMap fun (c, d) =>
    (if d == 1 then [ReadOutcome.timedOut] else if d == 2 then [.empty, .timedOut] else []) ++ [.byte c]
  ⟨fun n => outs[n]?.getD (.error 9), fun _ => true, 0, 0, []⟩

def event (k d v : Int) : Event :=
  ⟨d.toNat, if k % 3 == 0 then .acc .x v else if k % 3 == 1 then .acc .y v else .weight v⟩

def line (t : Int) (c : Command) : List Char :=
  match c with
  | .acc .x a => s!"A0,{t},{a}".toList
  | .acc .y a => s!"A1,{t},{a}".toList
  | .weight w => s!"L{t},{w}".toList

def err1 : List Char := "ERR 1".toList

def search : IO Unit := do
  let run : M Unit := do
    let mut s : UInt64 := 3
    for round in List.range 400 do
      let (s1, ks) := randList s 6 0 8
      let (s2, ds) := randList s1 6 0 12
      let (s3, vs) := randList s2 6 (-40) 40
      let (s4, dl) := randList s3 200 0 2
      let (s5, rt) := randList s4 6 0 3
      s := s5
      let n := round % 6
      let es := (List.range n).map fun k => event ks[k]! ds[k]! vs[k]!
      let t0 : Int := vs[0]! * 37
      report "C38" ((splitLines (cmdsText t0 es)).1.map decodeLine == (absolute t0 es).map some) fun _ => s!"{repr es}"
      -- a controller that refuses each command some times
      let lines := (absolute (t0 + 128) es).map fun t => line t.time t.cmd
      let rounds : List Round := ("T".toList, s!"{t0}".toList) :: ((List.range n).flatMap fun k =>
        List.replicate rt[k]!.toNat (lines[k]!, err1) ++ [(lines[k]!, "OK".toList)])
      let text := rounds.flatMap fun r => r.2 ++ ['\n']
      match playEvents (port text dl) es with
      | some (.ok (), p) => report "C35" (p.log == rounds.flatMap Round.acts) fun _ => s!"{repr es} log {repr p.log}"
      | some (.error e, _) => report "C35" false fun _ => s!"{repr es} error {repr e}"
      | none => report "C35" false fun _ => s!"{repr es} panics"
      -- one that then refuses a command
      let bad := if round % 2 == 0 then "ERR 2".toList else "".toList
      match playEvents (port (text ++ bad ++ ['\n']) dl) (es ++ [event ks[5]! ds[5]! vs[5]!]) with
      | some (.error (.controller r), p) => report "C36" (r == bad && p.log.getLast? == some (.sent ['R', '\n']) &&
          p.log.take (rounds.flatMap Round.acts).length == rounds.flatMap Round.acts) fun _ => "log"
      | _ => report "C36" false fun _ => s!"{repr es} refused but no error"
      match playEvents (port text dl) (es ++ [event ks[5]! ds[5]! vs[5]!]) with
      | some (.error (.read 9), _) => pure ()
      | _ => report "C36" false fun _ => s!"{repr es} read error is lost"
      report "C36" ((playEvents (port "OK\n".toList dl) es).isNone) fun _ => "bad time accepted"
      match readReply (port "OK\nxx\n".toList dl) with
      | some (.ok r, p) => report "C37" (r == "OK".toList && p.log == "OK\n".toList.map .got) fun _ => "line"
      | _ => report "C37" false fun _ => "no line"
      match readReply (port "OK".toList dl) with
      | some (.error (.read 9), _) => pure ()
      | _ => report "C37" false fun _ => "error"
    for n in [0, 1, -1, 10, -10, 99, -120, 65535, -2147483648] do
      report "C38" (readInt (showInt n) == some n && parseI64 (showInt n) == some n) fun _ => s!"{n}"
    report "C35" (parseI64 "+5".toList == some 5 && parseI64 "9223372036854775807".toList == some 9223372036854775807 &&
      parseI64 "9223372036854775808".toList == none && parseI64 "".toList == none && parseI64 "-".toList == none) fun _ => "parse"
  let ((), l) ← run.run []
  IO.println s!"done {l.length}"

end StepperPaths.Witness.Wire
