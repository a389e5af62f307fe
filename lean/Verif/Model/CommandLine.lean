import Verif.Model.SvgProgram
import Verif.Model.SvgText

/-!
Model of the command lines of `/repo/src/svg_path.rs` and `/repo/src/image_raster.rs`: what the
arguments mean, in which order they are checked, and which files and devices are opened.

The parser of the arguments is the crate `getopts` 0.2 as documented: options may be mixed with
other arguments, `--` ends the options, an option may be given at most once.  Its source is not in
the repository.  Arguments are valid Unicode.  The texts of the messages are left out.
-/

namespace StepperPaths.Cli
open Context Config Control Svg Program Raster

abbrev Arg := List Char

/-! ### getopts -/

/-- An option as declared with `optopt` (with a value) or `optflag`. -/
structure Opt where
  short : Option Char
  long : List Char
  hasArg : Bool
  deriving DecidableEq

/-- How an option is called on the command line. -/
inductive Name
  | short (c : Char)
  | long (s : List Char)

/-- `Name::from_str`: a single character is a short name. -/
def nameOf : List Char → Name
  | [c] => .short c
  | s => .long s

def Opt.answers (o : Opt) : Name → Bool
  | .short c => o.short = some c
  | .long s => o.long = s

/-- `find_opt`. -/
def findOpt (opts : List Opt) (n : Name) : Option Opt := opts.find? (·.answers n)

/-- The result of `Options::parse`: options in the order in which they are given, and the other
arguments. -/
structure Matches where
  vals : List (Opt × Option Arg)
  free : List Arg

def Matches.push (m : Matches) (o : Opt) (v : Option Arg) : Matches := { m with vals := m.vals ++ [(o, v)] }

/-- What an argument asks for. -/
inductive Step
  /-- It is complete. -/
  | go (m : Matches)
  /-- The next argument is the value of the option. -/
  | want (o : Opt) (m : Matches)
  /-- It is `--`. -/
  | stop

/-- An option with the value that is attached to it, if any. -/
def attach (o : Opt) (value : Option Arg) (m : Matches) : Option Step :=
  if o.hasArg then
    match value with
    | some v => some (.go (m.push o (some v)))
    | none => some (.want o m)
  else
    match value with
    | some _ => none
    | none => some (.go (m.push o none))

/-- The letters after a single dash: flags, and at most one option with a value, for which the rest
of the letters are the value. -/
def shorts (opts : List Opt) : List Char → Matches → Option Step
  | [], m => some (.go m)
  | c :: rest, m =>
    match findOpt opts (.short c) with
    | none => none
    | some o =>
      if o.hasArg then attach o (if rest = [] then none else some rest) m
      else shorts opts rest (m.push o none)

/-- The text after two dashes: a name, or a name and a value with an equals sign between them. -/
def longs (opts : List Opt) (tail : List Char) (m : Matches) : Option Step :=
  let name := tail.takeWhile (· ≠ '=')
  let value := match tail.dropWhile (· ≠ '=') with
    | [] => none
    | _ :: v => some v
  match findOpt opts (nameOf name) with
  | none => none
  | some o => attach o value m

/-- One argument. -/
def step (opts : List Opt) (cur : Arg) (m : Matches) : Option Step :=
  match cur with
  | '-' :: '-' :: [] => some .stop
  | '-' :: '-' :: tail => longs opts tail m
  | '-' :: c :: tail => shorts opts (c :: tail) m
  | _ => some (.go { m with free := m.free ++ [cur] })

/-- The loop of `Options::parse`; `none` is an error. -/
def parseLoop (opts : List Opt) : List Arg → Matches → Option Matches
  | [], m => some m
  | [cur], m =>
    match step opts cur m with
    | some (.go m) => some m
    | some .stop => some m
    | _ => none
  | cur :: next :: rest, m =>
    match step opts cur m with
    | none => none
    | some (.go m) => parseLoop opts (next :: rest) m
    | some .stop => some { m with free := m.free ++ next :: rest }
    | some (.want o m) => parseLoop opts rest (m.push o (some next))

/-- `Options::parse`. -/
def getopts (opts : List Opt) (args : List Arg) : Option Matches :=
  match parseLoop opts args ⟨[], []⟩ with
  | none => none
  | some m => if (m.vals.map Prod.fst).Nodup then some m else none

/-- `Matches::opt_str`. -/
def Matches.str (m : Matches) (name : String) : Option Arg :=
  match m.vals.find? fun v => v.1.answers (nameOf name.toList) with
  | some (_, v) => v
  | none => none

/-- `Matches::opt_present`. -/
def Matches.present (m : Matches) (name : String) : Bool :=
  m.vals.any fun v => v.1.answers (nameOf name.toList)

/-- `opts.optopt(short, long, …)`. -/
def optopt (short long : String) : Opt := ⟨short.toList.head?, long.toList, true⟩

/-- `opts.optflag(short, long, …)`. -/
def optflag (short long : String) : Opt := ⟨short.toList.head?, long.toList, false⟩

/-! ### Numbers -/

/-- A result of `f64::from_str`, before rounding. -/
inductive F64
  | finite (q : ℚ)
  | infinite (neg : Bool)
  | nan

/-- Whether a text is empty or an exponent. -/
def isExponent : List Char → Bool
  | [] => true
  | c :: r => (c = 'e' || c = 'E') && (splitSign r).2 ≠ [] && (splitSign r).2.all isDigit

/-- `f64::from_str`. -/
def parseF64 (s : Arg) : Option F64 :=
  let (neg, s1) := splitSign s
  let word := s1.map Char.toLower
  if word = "inf".toList ∨ word = "infinity".toList then some (.infinite neg)
  else if word = "nan".toList then some .nan
  else
    let whole := s1.takeWhile isDigit
    let (frac, rest) := splitFrac (s1.dropWhile isDigit)
    if whole ++ frac ≠ [] ∧ isExponent rest then some (.finite (fromStr s)) else none

/-- `i32::from_str`. -/
def parseI32 (s : Arg) : Option ℤ := (parseI64 s).filter fun n => decide (-2147483648 ≤ n ∧ n ≤ 2147483647)

/-! ### The options -/

/-- The programs end with one of these messages, or run. -/
inductive Message
  | usage
  | noFile
  | noConfig
  | badConfig
  | badVMax
  | badAMax
  | badSpeed
  | badRepeat
  | repeatRange
  | badIntensity
  | intensityRange
  | badWidth
  | badHeight
  | badSpot
  | noPicture
  | badPicture
  deriving DecidableEq

/-- `match f64::from_str(&arg) { … Err(err) => { println!(…); return; } }`. -/
def floatOpt (m : Matches) (name : String) (bad : Message) : Except Message (Option F64) :=
  match m.str name with
  | none => .ok none
  | some arg =>
    match parseF64 arg with
    | some v => .ok (some v)
    | none => .error bad

/-- The same for an integer, with a check of its range. -/
def intOpt (m : Matches) (name : String) (bad : Message) (inRange : ℤ → Bool) (range : Message) :
    Except Message (Option ℤ) :=
  match m.str name with
  | none => .ok none
  | some arg =>
    match parseI32 arg with
    | some v => if inRange v then .ok (some v) else .error range
    | none => .error bad

/-- svg_path.rs 34-49. -/
def svgOpts : List Opt :=
  [optopt "v" "draw-speed", optopt "" "a-max", optopt "" "v-max", optopt "" "intensity", optopt "" "repeat",
    optopt "" "layer", optopt "d" "device", optopt "c" "config", optflag "h" "help"]

/-- The numbers of the options of `svg_path`. -/
structure SvgNumbers where
  vMax : Option F64
  aMax : Option F64
  drawSpeed : Option F64
  repeats : Option ℤ
  intensity : Option ℤ

/-- The checks of the numbers, svg_path.rs 112-184. -/
def svgNumbers (m : Matches) : Except Message SvgNumbers := do
  let vMax ← floatOpt m "v-max" .badVMax
  let aMax ← floatOpt m "a-max" .badAMax
  let drawSpeed ← floatOpt m "draw-speed" .badSpeed
  let repeats ← intOpt m "repeat" .badRepeat (fun n => 1 ≤ n) .repeatRange
  let intensity ← intOpt m "intensity" .badIntensity (fun n => 0 ≤ n ∧ n ≤ 100) .intensityRange
  return ⟨vMax, aMax, drawSpeed, repeats, intensity⟩

/-- image_raster.rs 66-82. -/
def rasterOpts : List Opt :=
  [optopt "v" "draw-speed", optopt "" "a-max", optopt "" "v-max", optopt "" "width", optopt "" "height",
    optopt "" "spot-diam", optopt "" "intensity", optopt "d" "device", optopt "c" "config", optflag "h" "help"]

/-- The numbers of the options of `image_raster`. -/
structure RasterNumbers where
  vMax : Option F64
  aMax : Option F64
  drawSpeed : Option F64
  intensity : Option ℤ
  width : Option F64
  height : Option F64
  spot : Option F64

/-- The checks of the numbers, image_raster.rs 126-214. -/
def rasterNumbers (m : Matches) : Except Message RasterNumbers := do
  let vMax ← floatOpt m "v-max" .badVMax
  let aMax ← floatOpt m "a-max" .badAMax
  let drawSpeed ← floatOpt m "draw-speed" .badSpeed
  let intensity ← intOpt m "intensity" .badIntensity (fun n => 0 ≤ n ∧ n ≤ 100) .intensityRange
  let width ← floatOpt m "width" .badWidth
  let height ← floatOpt m "height" .badHeight
  let spot ← floatOpt m "spot-diam" .badSpot
  return ⟨vMax, aMax, drawSpeed, intensity, width, height, spot⟩

/-! ### The programs -/

/-- What is opened. -/
inductive Act
  | config (name : Arg)
  | picture (name : Arg)
  | device (name : Arg)
  deriving DecidableEq

/-- How a program ends: with a message, or after it has run, with what has happened at the port.  `failed` is a
panic, an error while drawing, or a program that does not end. -/
inductive Out
  | message (m : Message)
  | done (port : Option Port)
  | failed

/-- What a program does: what it opens, in order, and how it ends. -/
structure Run where
  acts : List Act
  out : Out

/-- What the files contain: `config` is `read_config`, with `none` for an error; the pictures are
documents or images, `none` if the file cannot be opened; `device` is `none` if the port cannot be opened or set up. -/
structure World (Picture : Type) where
  config : Arg → Option Xy
  picture : Arg → Option Picture
  device : Arg → Option Port

/-- `main` of svg_path.rs.  `run` is the rest of the program: from the configuration, the numbers,
the layer and the document to what has happened at the port.  The scale of the speeds needs `2 * ticks_per_second` in
`u32` (line 106), which panics if it does not fit. -/
def svgCommand (run : Xy → SvgNumbers → Option Arg → List XmlEvent → Option Port → Option (Option Port))
    (w : World (List XmlEvent)) (args : List Arg) : Run :=
  match getopts svgOpts args with
  | none => ⟨[], .failed⟩
  | some m =>
    if m.present "h" then ⟨[], .message .usage⟩
    else
      match m.free, m.str "config" with
      | [], _ => ⟨[], .message .noFile⟩
      | _ :: _, none => ⟨[], .message .noConfig⟩
      | file :: _, some name =>
        match w.config name with
        | none => ⟨[.config name], .message .badConfig⟩
        | some cfg =>
          if 2 * cfg.ticksPerSecond > 4294967295 then ⟨[.config name], .failed⟩
          else match svgNumbers m with
          | .error msg => ⟨[.config name], .message msg⟩
          | .ok o =>
            let opened := .config name :: ((m.str "device").toList.map .device)
            match (m.str "device").map w.device with
            | some none => ⟨opened, .failed⟩
            | port =>
              match w.picture file with
              | none => ⟨opened ++ [.picture file], .failed⟩
              | some doc =>
                match run cfg o (m.str "layer") doc (port.bind id) with
                | none => ⟨opened ++ [.picture file], .failed⟩
                | some p => ⟨opened ++ [.picture file], .done p⟩

/-- `main` of image_raster.rs.  The picture is `none` if the file is not a PNG picture. -/
def rasterCommand (run : Xy → RasterNumbers → Image → Option Port → Option (Option Port))
    (w : World (Option Image)) (args : List Arg) : Run :=
  match getopts rasterOpts args with
  | none => ⟨[], .failed⟩
  | some m =>
    if m.present "h" then ⟨[], .message .usage⟩
    else
      match m.free, m.str "config" with
      | [], _ => ⟨[], .message .noFile⟩
      | _ :: _, none => ⟨[], .message .noConfig⟩
      | file :: _, some name =>
        match w.config name with
        | none => ⟨[.config name], .message .badConfig⟩
        | some cfg =>
          if 2 * cfg.ticksPerSecond > 4294967295 then ⟨[.config name], .failed⟩
          else match rasterNumbers m with
          | .error msg => ⟨[.config name], .message msg⟩
          | .ok o =>
            let opened := [.config name, .picture file]
            match w.picture file with
            | none => ⟨opened, .message .noPicture⟩
            | some none => ⟨opened, .message .badPicture⟩
            | some (some img) =>
              let opened := opened ++ (m.str "device").toList.map .device
              match (m.str "device").map w.device with
              | some none => ⟨opened, .failed⟩
              | port =>
                match run cfg o img (port.bind id) with
                | none => ⟨opened, .failed⟩
                | some p => ⟨opened, .done p⟩

/-! ### The rest of the programs, in exact arithmetic -/

/-- A finite number. -/
def F64.value : F64 → Option ℚ
  | .finite q => some q
  | _ => none

/-- An option with a finite number, or none. -/
def finite : Option F64 → Option (Option ℚ)
  | none => some none
  | some v => v.value.map some

/-- The options as numbers; infinite ones are not modelled. -/
def SvgNumbers.options (o : SvgNumbers) : Option Options := do
  let vMax ← finite o.vMax
  let aMax ← finite o.aMax
  let drawSpeed ← finite o.drawSpeed
  return ⟨vMax.map (↑), aMax.map (↑), drawSpeed.map (↑), o.repeats, o.intensity⟩

/-- svg_path.rs 206-292.  Without a device nothing is sent. -/
noncomputable def svgRun (e : Draw.Env) (cfg : Xy) (o : SvgNumbers) (layer : Option Arg) (doc : List XmlEvent)
    (port : Option Port) : Option (Option Port) := do
  let o ← o.options
  match parseDocument (keepOf layer) .identity doc with
  | some (.ok path) => do
    let e := { e with stepScale := fun i => (cfg.stepper i).stepsPerMillimeter }
    let c ← svgEvents e (svgALimit cfg o.aMax) (vLimit cfg o.vMax) (weightOf (o.intensity.getD 5)) path
      (o.drawSpeed.getD 20 / cfg.ticksPerSecond) (o.repeats.getD 1).toNat
    cassert (cfg.ticksPerSecond ≠ 0)
    match port with
    | none => some none
    | some port =>
      match ← playEvents port c.events with
      | (.ok (), port) => some (some port)
      | (.error _, _) => none
  | _ => none

/-- The options as numbers; infinite ones are not modelled. -/
def RasterNumbers.options (o : RasterNumbers) : Option RasterOptions := do
  let vMax ← finite o.vMax
  let aMax ← finite o.aMax
  let drawSpeed ← finite o.drawSpeed
  let width ← finite o.width
  let height ← finite o.height
  let spot ← finite o.spot
  return ⟨vMax.map (↑), aMax.map (↑), drawSpeed.map (↑), o.intensity, width.map (↑), height.map (↑), spot.map (↑)⟩

/-- image_raster.rs 268-357.  Without a device nothing is sent. -/
noncomputable def rasterRun (cfg : Xy) (o : RasterNumbers) (img : Image) (port : Option Port) :
    Option (Option Port) := do
  let o ← o.options
  let c ← raster (params cfg (o.request img.width img.height) img.width img.height) img
    (Ctx.new (rasterALimit cfg o.aMax) (vLimit cfg o.vMax))
  cassert (cfg.ticksPerSecond ≠ 0)
  match port with
  | none => some none
  | some port =>
    match ← playEvents port c.events with
    | (.ok (), port) => some (some port)
    | (.error _, _) => none

end StepperPaths.Cli
