import Verif.Model.Control

/-!
The controller's side of the serial protocol: text lines are commands, and each is answered by
one line.
-/

namespace StepperPaths.Spec
open Context Control

/-- Everything sent, and everything received. -/
def sentText (log : List Act) : List Char := log.flatMap fun
  | .sent s => s
  | .got _ => []
def gotText (log : List Act) : List Char := log.flatMap fun
  | .sent _ => []
  | .got b => [b]

/-- The complete lines of a text, and what follows the last of them. -/
def splitLines : List Char → List (List Char) × List Char
  | [] => ([], [])
  | c :: cs =>
    match splitLines cs with
    | (ls, rest) =>
      if c = '\n' then ([] :: ls, rest)
      else match ls with
        | [] => ([], c :: rest)
        | l :: ls => ((c :: l) :: ls, rest)

/-- The fields between commas. -/
def fields : List Char → List (List Char)
  | [] => [[]]
  | c :: cs =>
    if c = ',' then [] :: fields cs
    else match fields cs with
      | [] => [[c]]
      | f :: fs => (c :: f) :: fs

/-- Decimal numbers. -/
def readNat (cs : List Char) : Option Nat :=
  if cs ≠ [] ∧ cs.all Char.isDigit then some (cs.foldl (fun n c => 10 * n + (c.toNat - 48)) 0) else none
def readInt : List Char → Option Int
  | '-' :: cs => (readNat cs).map fun n : Nat => -(n : Int)
  | '+' :: cs => (readNat cs).map fun n : Nat => (n : Int)
  | cs => (readNat cs).map fun n : Nat => (n : Int)

/-- A command with its time. -/
structure Timed where
  time : Int
  cmd : Command
deriving DecidableEq, Repr

/-- What the controller understands. -/
def decodeLine : List Char → Option Timed
  | 'A' :: cs =>
    match fields cs with
    | [ch, t, a] => do
      let ch ← readNat ch
      let t ← readInt t
      let a ← readInt a
      if ch = 0 then return ⟨t, .acc .x a⟩
      else if ch = 1 then return ⟨t, .acc .y a⟩
      else none
    | _ => none
  | 'L' :: cs =>
    match fields cs with
    | [t, w] => do
      let t ← readInt t
      let w ← readInt w
      return ⟨t, .weight w⟩
    | _ => none
  | _ => none

/-- The events with absolute times, when the first delta counts from `t`. -/
def absolute (t : Int) : List Event → List Timed
  | [] => []
  | e :: es => ⟨t + e.ticks, e.cmd⟩ :: absolute (t + e.ticks) es

/-- How a command is written. -/
def wireLine (c : Timed) : String :=
  match c.cmd with
  | .acc .x a => s!"A0,{c.time},{a}\n"
  | .acc .y a => s!"A1,{c.time},{a}\n"
  | .weight w => s!"L{c.time},{w}\n"

/-- A command line and the line that answers it. -/
abbrev Round := List Char × List Char

/-- How a round looks at the port: the whole line is sent, then the whole answer is received. -/
def Round.acts (r : Round) : List Act := .sent (r.1 ++ ['\n']) :: (r.2 ++ ['\n']).map .got

/-- `Conversation todo rounds left`: in these rounds the command lines `todo` are sent in order,
each one again and again until it is answered with OK, and `left` are the ones still not accepted
after the rounds. -/
inductive Conversation : List (List Char) → List Round → List (List Char) → Prop
  | done (todo : List (List Char)) : Conversation todo [] todo
  | retry {c : List Char} {todo left : List (List Char)} {rs : List Round} :
      Conversation (c :: todo) rs left → Conversation (c :: todo) ((c, ['E', 'R', 'R', ' ', '1']) :: rs) left
  | accept {c : List Char} {todo left : List (List Char)} {rs : List Round} :
      Conversation todo rs left → Conversation (c :: todo) ((c, ['O', 'K']) :: rs) left

/-- The commands that were answered with OK. -/
def accepted (rs : List Round) : List (List Char) :=
  (rs.filter fun r => r.2 = ['O', 'K']).map Prod.fst

/-- The bytes that the `k` reads from read `n` give. -/
def received (input : Nat → ReadOutcome) (n : Nat) : Nat → List Char
  | 0 => []
  | k + 1 => (match input n with
    | .byte b => [b]
    | _ => []) ++ received input (n + 1) k

/-- From read `n` to read `m` the port delivers `text`, with timeouts and empty reads before the
bytes. -/
inductive Delivers (input : Nat → ReadOutcome) : Nat → List Char → Nat → Prop
  | nil (n : Nat) : Delivers input n [] n
  | skip {n m : Nat} {b : Char} {text : List Char} : input n = .empty ∨ input n = .timedOut →
      Delivers input (n + 1) (b :: text) m → Delivers input n (b :: text) m
  | byte {n m : Nat} {b : Char} {text : List Char} : input n = .byte b →
      Delivers input (n + 1) text m → Delivers input n (b :: text) m

end StepperPaths.Spec
