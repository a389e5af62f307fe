import Verif.Model.CheckedMotion
import Verif.Model.Special

/-!
`/repo/src/stepper_control.rs` once more, with the times checked as the `i64` that they are: an overflow is a panic, `none`, as
in a debug build.  What contains no arithmetic is shared with `Model/Control.lean`.  At the end the two programs of
`Model/Special.lean` with these times.
-/

namespace StepperPaths.Checked
open Context Control Config StepperPaths.Svg Rounded StepperPaths.Cli Raster

/-- The text built by `send_cmds`, stepper_control.rs 47-59. -/
def cmdsText (t : Int) : List Event → Option (List Char)
  | [] => some []
  | e :: es => do
    let t ← some t +? some (e.ticks : Int)
    let rest ← cmdsText t es
    return cmdText t e.cmd ++ rest

/-- `send_cmds`, stepper_control.rs 43-63. -/
def sendCmds (p : Port) (t : Int) (es : List Event) : Option Port := do
  let text ← cmdsText t es
  p.write text

/-- The loop over the replies, stepper_control.rs 85-109. -/
def readReplies (p : Port) (t : Int) (full : Option Nat) (i : Nat) :
    List Event → Option (Except IoError (Int × Option Nat) × Port)
  | [] => some (.ok (t, full), p)
  | e :: es => do
    let (r, p) ← readReply p
    match r with
    | .error err => return (.error err, p)
    | .ok r =>
      if r ≠ ['O', 'K'] ∧ r ≠ ['E', 'R', 'R', ' ', '1'] then do
        let p ← p.write ['R', '\n']
        return (.error (.controller r), p)
      else
        let full := if r ≠ ['O', 'K'] ∧ full = none then some i else full
        let t ← if full = none then some t +? some (e.ticks : Int) else some t
        readReplies p t full (i + 1) es

/-- The loop of `play_events`, stepper_control.rs 71-117. -/
def playLoop (p : Port) (t : Int) (pending rest : List Event) : Option (Except IoError Unit × Port) :=
  match refill pending rest with
  | ([], _) => some (.ok (), p)
  | (pending, rest) => do
    let p ← sendCmds p t pending
    let (r, p) ← readReplies p t none 0 pending
    match r with
    | .error err => return (.error err, p)
    | .ok (t, none) => playLoop p t [] rest
    | .ok (t, some k) => playLoop p t (pending.drop k) rest
partial_fixpoint

/-- `play_events`, stepper_control.rs 65-119; `request_time(serport).unwrap() + TICKS_PER_SEC` is line 69. -/
def playEvents (p : Port) (es : List Event) : Option (Except IoError Unit × Port) := do
  let (t, p) ← requestTime p
  let t ← some t +? some 128
  playLoop p t [] es

variable (fl : ℝ → ℝ)

/-- svg_path.rs 106-292, as `Special.svgAny`. -/
noncomputable def svgTimed (lib : Lib) (e : Rounded.Env) (cfg : Xy) (o : SvgNumbers) (layer : Option Arg) (doc : List XmlEvent)
    (port : Option Port) : Option (Option Port) := do
  let w ← CheckedSvg.weight (o.intensity.getD 5)
  match parseDocumentF fl lib (Program.keepOf layer) .identity doc with
  | some (.ok path) => do
    let e := { e with stepScale := fun i => (cfg.stepper i).stepsPerMillimeter }
    let c ← Special.svgEvents fl e (Special.svgALimit fl cfg (o.aMax.map (.ofF64 fl))) (Special.vLimit fl cfg (o.vMax.map (.ofF64 fl)))
      w path (Special.drawSpeed fl cfg (o.drawSpeed.map (.ofF64 fl))) (o.repeats.getD 1).toNat
    cassert (cfg.ticksPerSecond ≠ 0)
    match port with
    | none => some none
    | some port =>
      match ← playEvents port c.events with
      | (.ok (), port) => some (some port)
      | (.error _, _) => none
  | _ => none

/-- image_raster.rs 120-357, as `Special.rasterAny`. -/
noncomputable def rasterTimed (cfg : Xy) (o : RasterNumbers) (img : Image) (port : Option Port) :
    Option (Option Port) := do
  let c ← Special.rasterEvents fl cfg o img
  cassert (cfg.ticksPerSecond ≠ 0)
  match port with
  | none => some none
  | some port =>
    match ← playEvents port c.events with
    | (.ok (), port) => some (some port)
    | (.error _, _) => none

end StepperPaths.Checked
