import Verif.Model.StepperContext
import Mathlib.Data.Nat.Digits.Defs

/-!
Model of `/repo/src/stepper_control.rs`.

The serial port is a schedule: what each call of `read` gives and whether each `write_all`
succeeds.  Theorems are about all schedules, so a controller that reacts to what it is sent is
covered.  A byte is represented by the character `b as char` it is converted to.  `none` is
a panic or a loop that never ends.  Times are unbounded `Int` (`i64` in the source);
`thread::sleep` is left out.
-/

namespace StepperPaths.Control
open Context

/-- What `inp.read(&mut buf)` can give for a buffer of one byte. -/
inductive ReadOutcome
  | byte (b : Char)
  | empty
  | timedOut
  | error (code : Nat)
deriving DecidableEq, Repr

/-- What happened at the port; reads without a byte are not recorded. -/
inductive Act
  | sent (text : List Char)
  | got (b : Char)
deriving DecidableEq, Repr

structure Port where
  input : Nat → ReadOutcome
  writeOk : Nat → Bool
  reads : Nat
  writes : Nat
  log : List Act

/-- The errors of `io::Result`. -/
inductive IoError
  | read (code : Nat)
  | invalidInteger
  | controller (reply : List Char)
deriving DecidableEq, Repr

/-- One call of `read`. -/
def Port.read (p : Port) : ReadOutcome × Port :=
  (p.input p.reads, { p with reads := p.reads + 1, log := p.log ++ (match p.input p.reads with
    | .byte b => [.got b]
    | _ => []) })

/-- `serport.write_all(text).unwrap()` -/
def Port.write (p : Port) (text : List Char) : Option Port :=
  if p.writeOk p.writes then some { p with writes := p.writes + 1, log := p.log ++ [.sent text] }
  else none

/-- The loop of `read_reply`, stepper_control.rs 16-34. -/
def readLoop (p : Port) (reply : List Char) : Option (Except IoError (List Char) × Port) :=
  match p.read with
  | (.byte b, p) => if b = '\n' then some (.ok reply, p) else readLoop p (reply ++ [b])
  | (.empty, p) => readLoop p reply
  | (.timedOut, p) => readLoop p reply
  | (.error code, p) => some (.error (.read code), p)
partial_fixpoint

/-- `read_reply`, stepper_control.rs 15-34. -/
def readReply (p : Port) : Option (Except IoError (List Char) × Port) := readLoop p []

/-- The digits of an unsigned number. -/
def parseDigits (acc : Nat) : List Char → Option Nat
  | [] => some acc
  | c :: cs => if '0' ≤ c ∧ c ≤ '9' then parseDigits (10 * acc + (c.toNat - 48)) cs else none

/-- At least one digit. -/
def parseNat : List Char → Option Nat
  | [] => none
  | cs => parseDigits 0 cs

/-- `str::parse::<i64>`: an optional sign and at least one digit. -/
def parseI64 (s : List Char) : Option Int :=
  let n : Option Int := match s with
    | '-' :: cs => (parseNat cs).map fun n : Nat => -(n : Int)
    | '+' :: cs => (parseNat cs).map fun n : Nat => (n : Int)
    | cs => (parseNat cs).map fun n : Nat => (n : Int)
  n.filter fun n => decide (i64Min ≤ n ∧ n ≤ i64Max)

/-- `request_time(serport).unwrap()`, stepper_control.rs 36-41 and 68. -/
def requestTime (p : Port) : Option (Int × Port) := do
  let p ← p.write ['T', '\n']
  let (r, p) ← readReply p
  match r with
  | .ok r => (parseI64 r).map fun t => (t, p)
  | .error _ => none

/-- `format!("{}", n)` for an unsigned number. -/
def showNat (n : Nat) : List Char :=
  if n = 0 then ['0'] else (Nat.digits 10 n).reverse.map Nat.digitChar

/-- `format!("{}", n)` for a signed number. -/
def showInt (n : Int) : List Char := if n < 0 then '-' :: showNat n.natAbs else showNat n.natAbs

/-- The channel as a number, stepper_context.rs 62-63. -/
def channelNumber : Axis → Nat
  | .x => 0
  | .y => 1

/-- One command, stepper_control.rs 51-58. -/
def cmdText (t : Int) : Command → List Char
  | .acc ch a => ['A'] ++ showNat (channelNumber ch) ++ [','] ++ showInt t ++ [','] ++ showInt a ++ ['\n']
  | .weight w => ['L'] ++ showInt t ++ [','] ++ showInt w ++ ['\n']

/-- The text built by `send_cmds`, stepper_control.rs 47-59. -/
def cmdsText (t : Int) : List Event → List Char
  | [] => []
  | e :: es => cmdText (t + e.ticks) e.cmd ++ cmdsText (t + e.ticks) es

/-- `send_cmds`, stepper_control.rs 43-63. -/
def sendCmds (p : Port) (t : Int) (es : List Event) : Option Port := p.write (cmdsText t es)

/-- The loop over the replies, stepper_control.rs 85-109: `i` is the index, `full` is
`first_full`.  The result is the return value, or the new `t` and `first_full`. -/
def readReplies (p : Port) (t : Int) (full : Option Nat) (i : Nat) :
    List Event → Option (Except IoError (Int × Option Nat) × Port)
  | [] => some (.ok (t, full), p)
  | e :: es => do
    let (r, p) ← readReply p
    match r with
    | .error err => return (.error err, p)
    | .ok r =>
      if r ≠ ['O', 'K'] ∧ r ≠ ['E', 'R', 'R', ' ', '1'] then do
        let p ← p.write ['R', '\n']
        return (.error (.controller r), p)
      else
        let full := if r ≠ ['O', 'K'] ∧ full = none then some i else full
        readReplies p (if full = none then t + e.ticks else t) full (i + 1) es

/-- `while pending.is_empty()`, stepper_control.rs 72-79. -/
def refill : List Event → List Event → List Event × List Event
  | [], e :: rest => ([e], rest)
  | pending, rest => (pending, rest)

/-- The loop of `play_events`, stepper_control.rs 71-117. -/
def playLoop (p : Port) (t : Int) (pending rest : List Event) : Option (Except IoError Unit × Port) :=
  match refill pending rest with
  | ([], _) => some (.ok (), p)
  | (pending, rest) => do
    let p ← sendCmds p t pending
    let (r, p) ← readReplies p t none 0 pending
    match r with
    | .error err => return (.error err, p)
    | .ok (t, none) => playLoop p t [] rest
    | .ok (t, some k) => playLoop p t (pending.drop k) rest
partial_fixpoint

/-- `play_events`, stepper_control.rs 65-119. -/
def playEvents (p : Port) (es : List Event) : Option (Except IoError Unit × Port) := do
  let (t, p) ← requestTime p
  playLoop p (t + 128) [] es

end StepperPaths.Control
