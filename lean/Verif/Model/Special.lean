import Verif.Model.Commands

/-!
The two programs once more, for options that may be infinite or not a number, and with divisions by zero as in `f64`.

An `f64` is a finite number, which is any real as in the other models with rounding, an infinity, or not a number.
Simplifications: finite results do not become infinite by overflow, and every zero is a positive one.  (So `-0` as the
drawing speed is not covered, for which `svg_path` divides by negative zero.)
The numbers of a configuration are finite (`serde_json` accepts no others).
-/

namespace StepperPaths.Special
open Coords Curves Context IntegerCurve Config Control Program Raster StepperPaths.Svg Rounded StepperPaths.Cli
open Draw (satI32 trunc Approx Pen Seg accMax)

/-- An `f64`. -/
inductive Num
  | fin (x : ℝ)
  | inf (neg : Bool)
  | nan

namespace Num

variable (fl : ℝ → ℝ)

open Classical in
/-- `a * b`. -/
noncomputable def mul : Num → Num → Num
  | .fin x, .fin y => .fin (fl (x * y))
  | .fin x, .inf b => if x = 0 then .nan else .inf (xor (decide (x < 0)) b)
  | .inf a, .fin y => if y = 0 then .nan else .inf (xor a (decide (y < 0)))
  | .inf a, .inf b => .inf (xor a b)
  | _, _ => .nan

open Classical in
/-- `a / b`. -/
noncomputable def div : Num → Num → Num
  | .fin x, .fin y => if y = 0 then (if x = 0 then .nan else .inf (decide (x < 0))) else .fin (fl (x / y))
  | .fin _, .inf _ => .fin 0
  | .inf a, .fin y => .inf (xor a (decide (y < 0)))
  | _, _ => .nan

/-- `a.abs()`. -/
noncomputable def abs : Num → Num
  | .fin x => .fin |x|
  | .inf _ => .inf false
  | .nan => .nan

/-- `a.round()`. -/
noncomputable def round : Num → Num
  | .fin x => .fin (Draw.round x)
  | a => a

/-- `a as i32`: saturates, and zero for what is not a number. -/
noncomputable def asI32 : Num → ℤ
  | .fin x => satI32 (trunc x)
  | .inf false => 2147483647
  | .inf true => -2147483648
  | .nan => 0

/-- `a as u32`. -/
noncomputable def asU32 : Num → ℕ
  | .fin x => satU32 (trunc x)
  | .inf false => 4294967295
  | _ => 0

/-- `a as i64`. -/
noncomputable def asI64 : Num → ℤ
  | .fin x => satI64 (trunc x)
  | .inf false => 9223372036854775807
  | .inf true => -9223372036854775808
  | .nan => 0

/-- A number of the command line. -/
noncomputable def ofF64 : F64 → Num
  | .finite q => .fin (fl q)
  | .infinite b => .inf b
  | .nan => .nan

end Num

variable (fl : ℝ → ℝ)

/-! ### svg_path.rs -/

/-- `vx_scale` and `vy_scale`, svg_path.rs 106 and 109. -/
noncomputable def vScale (c : Xy) (i : Axis) : Num :=
  .div fl (.fin (c.stepper i).stepsPerMillimeter) (.fin (2 * c.ticksPerSecond))

/-- `vx_max` and `vy_max`, svg_path.rs 107-122 and image_raster.rs 121-136; `opt` is `--v-max`. -/
noncomputable def vLimit (c : Xy) (opt : Option Num) (i : Axis) : ℤ :=
  match opt with
  | none => (Num.mul fl (vScale fl c i).abs (.fin (c.stepper i).maxVelocity)).round.asI32
  | some value => (Num.mul fl (vScale fl c i).abs value).asI32

/-- `ax_scale` and `ay_scale`, svg_path.rs 125-126. -/
noncomputable def svgAScale (c : Xy) (i : Axis) : Num := .div fl (vScale fl c i) (.fin c.ticksPerSecond)

/-- `ax_max` and `ay_max`, svg_path.rs 128-141; `opt` is `--a-max`. -/
noncomputable def svgALimit (c : Xy) (opt : Option Num) (i : Axis) : ℤ :=
  match opt with
  | none => (Num.mul fl (svgAScale fl c i) (.fin (c.stepper i).maxAcceleration)).abs.round.asI32
  | some value => (Num.mul fl value (svgAScale fl c i)).abs.asI32

/-- `v_draw / (config.ticks_per_second as f64)`, svg_path.rs 144-153 and 270. -/
noncomputable def drawSpeed (c : Xy) (opt : Option Num) : Num := .div fl (opt.getD (.fin 20)) (.fin c.ticksPerSecond)

/-- `to_step_v`, stepper_context.rs 296-303.  An infinity is not between the bounds, and a comparison with what is not a
number is false. -/
noncomputable def toStepV (e : Env) (v : Num) (i : Axis) : Option ℤ :=
  match Num.mul fl v (.fin (Rounded.vScale fl e i)) with
  | .fin x => do
    let s := Draw.round x
    cassert (s < 2147483647 ∧ s > -2147483648)
    return s
  | _ => none

/-- `goto_speed`, stepper_context.rs 359-366, with finite coordinates. -/
noncomputable def gotoSpeed (e : Env) (c : Ctx) (x y : ℝ) (vx vy : Num) : Option Ctx := do
  let x ← toSteps fl e x .x
  let y ← toSteps fl e y .y
  let vx ← toStepV fl e vx .x
  let vy ← toStepV fl e vy .y
  Checked.stepGotoSpeed c x y vx vy

/-- `approx_curve`, stepper_context.rs 400-464.  If the speed is finite and `step_len` is not, there are no passes; if the speed
is not finite, this is not reached (`C117_speed`). -/
noncomputable def approxCurve (e : Env) (c : Ctx) (start : Vec) (curve : Curve) (v : Num) : Option (Ctx × (Axis → ℤ)) :=
  let steps := (Num.div fl (.fin curve.length) v).round
  match v, Num.div fl (.fin curve.length) steps with
  | .fin v, .fin stepLen => do
    let s ← CheckedSvg.approxLoop fl e start curve v stepLen 1 steps.asI32.toNat ⟨c, fun _ => 0, fun _ => 0⟩
    return (s.ctx, s.maxErr)
  | _, _ => if steps.asI32 ≤ 0 then some (c, fun _ => 0) else none

/-- `draw_curve`, stepper_context.rs 471-490. -/
noncomputable def drawCurve (e : Env) (c : Ctx) (start : Vec) (curve : Concat) (v : Num) :
    Option (Ctx × (Axis → ℤ)) :=
  if curve.isEmpty then some (c, fun _ => 0)
  else do
    let dir := ((concatInfo fl e curve).value 0).2
    let c ← c.addWeightChange c.moveWeight (c.channels .x).ticks
    let c ← gotoSpeed fl e c start.x start.y (.mul fl (.fin dir.x) v) (.mul fl (.fin dir.y) v)
    let c ← c.addWeightChange c.curveWeight (c.channels .x).ticks
    approxCurve fl e c start (concatInfo fl e curve) v

/-- `let err = self.draw_curve(start, &mut curves, v)?; acc_max_err(&mut max_err, &err);` -/
noncomputable def flush (e : Env) (v : Num) (s : Pen) : Option Pen := do
  let (c, err) ← drawCurve fl e s.ctx s.start s.curves v
  return { s with ctx := c, maxErr := fun i => accMax (s.maxErr i) (err i), curves := [],
                  drawn := s.drawn ++ [(s.start, s.curves)] }

/-- `GoTo` in the loop of `draw_curves`, stepper_context.rs 512-522. -/
noncomputable def goTo (e : Env) (v : Num) (s : Pen) (p : Vec) : Option Pen := do
  if ← atMachine fl e s p then return { s with skipped := s.skipped ++ [(p, s.current)] }
  let s ← flush fl e v s
  return { s with current := p, start := p, prevDir := none }

open Classical in
/-- A drawing segment in the loop of `draw_curves`, stepper_context.rs 527-551. -/
noncomputable def add (e : Env) (v : Num) (s : Pen) (info : Curve) (next : Vec) : Option Pen := do
  let s ← if turns fl s (info.value 0).2 then
      (flush fl e v s).map fun s => { s with start := s.current }
    else some s
  return { s with current := next, prevDir := some (info.value info.length).2,
                  curves := concatAdd fl s.curves info }

open Classical in
/-- One pass of the loop of `draw_curves`, stepper_context.rs 509-552. -/
noncomputable def step (e : Env) (v : Num) (s : Pen) (seg : Seg) : Option Pen :=
  match seg with
  | .goTo p => goTo fl e v s p
  | .closeTo p2 =>
    if vlength fl (vsub fl s.current p2) < fl (1 / 1000000) then some { s with current := p2 }
    else do
      let (info, next) ← segInfo fl e s.current (.closeTo p2)
      add fl e v s info next
  | seg => do
    let (info, next) ← segInfo fl e s.current seg
    add fl e v s info next

/-- The loop of `draw_curves`, stepper_context.rs 508-561. -/
noncomputable def run (e : Env) (v : Num) : List Seg → Pen → Option Pen
  | [], s => some s
  | seg :: segs, s => do
    let s ← step fl e v s seg
    run e v segs s

/-- `draw_curves` up to the last weight change, stepper_context.rs 497-562. -/
noncomputable def drawPen (e : Env) (c : Ctx) (segs : List Seg) (v : Num) : Option Pen := do
  let s ← run fl e v segs (init fl e c)
  flush fl e v s

/-- `draw_curves`, stepper_context.rs 492-565. -/
noncomputable def drawCurves (e : Env) (c : Ctx) (segs : List Seg) (v : Num) :
    Option (Ctx × (Axis → ℤ)) :=
  if segs.isEmpty then some (c, fun _ => 0)
  else do
    let s ← drawPen fl e c segs v
    let c ← s.ctx.addWeightChange s.ctx.moveWeight (s.ctx.channels .x).ticks
    return (c, s.maxErr)

/-- `for _ in 0..n_repeat { ctxt.draw_curves(&path, v) }`, svg_path.rs 268-278. -/
noncomputable def drawTimes (e : Env) (path : List Seg) (v : Num) : ℕ → Ctx → Option Ctx
  | 0, c => some c
  | n + 1, c => do
    let (c, _) ← drawCurves fl e c path v
    drawTimes e path v n c

/-- The motion, svg_path.rs 206-214 and 268-288. -/
noncomputable def svgEvents (e : Env) (aMax vMax : Axis → ℤ) (weight : ℤ) (path : List Seg) (v : Num) (n : ℕ) :
    Option Ctx := do
  let c := (Ctx.new aMax vMax).setWeight weight
  let c ← drawTimes fl e path v n c
  let c ← Checked.stepGotoSpeed c 0 0 0 0
  let _ ← c.ticks
  c.readEvents

/-- svg_path.rs 106-292, for all numbers that the command line may contain.  Without a device nothing is sent. -/
noncomputable def svgAny (lib : Lib) (e : Env) (cfg : Xy) (o : SvgNumbers) (layer : Option Arg) (doc : List XmlEvent)
    (port : Option Port) : Option (Option Port) := do
  let w ← CheckedSvg.weight (o.intensity.getD 5)
  match parseDocumentF fl lib (keepOf layer) .identity doc with
  | some (.ok path) => do
    let e := { e with stepScale := fun i => (cfg.stepper i).stepsPerMillimeter }
    let c ← svgEvents fl e (svgALimit fl cfg (o.aMax.map (.ofF64 fl))) (vLimit fl cfg (o.vMax.map (.ofF64 fl))) w path
      (drawSpeed fl cfg (o.drawSpeed.map (.ofF64 fl))) (o.repeats.getD 1).toNat
    cassert (cfg.ticksPerSecond ≠ 0)
    match port with
    | none => some none
    | some port =>
      match ← playEvents port c.events with
      | (.ok (), port) => some (some port)
      | (.error _, _) => none
  | _ => none

/-! ### image_raster.rs -/

/-- `ax_scale` and `ay_scale`, image_raster.rs 139-140. -/
noncomputable def rasterAScale (c : Xy) : Num := .div fl (vScale fl c .x) (.fin c.ticksPerSecond)

/-- `ax_max` and `ay_max`, image_raster.rs 142-156; `opt` is `--a-max`. -/
noncomputable def rasterALimit (c : Xy) (opt : Option Num) (i : Axis) : ℤ :=
  match opt with
  | none => (Num.mul fl (rasterAScale fl c).abs (.fin (c.stepper i).maxAcceleration)).round.asI32
  | some value => (Num.mul fl value (rasterAScale fl c)).abs.asI32

/-- What the options ask for; compare `Request`. -/
structure Ask where
  width : Num
  height : Num
  spot : Num
  speed : Num
  weight : ℤ

/-- Width and height of the picture in mm, image_raster.rs 237-246. -/
noncomputable def pictureSize (width height : Option Num) (xPixels yPixels : ℕ) : Num × Num :=
  match width, height with
  | some w, some h => (w, h)
  | some w, none => (w, .div fl (.mul fl w (.fin yPixels)) (.fin xPixels))
  | none, some h => (.div fl (.mul fl h (.fin xPixels)) (.fin yPixels), h)
  | none, none => (.fin 20, .div fl (.mul fl (.fin 20) (.fin yPixels)) (.fin xPixels))

/-- image_raster.rs 158-246; `DEFAULT_SPOT_DIAMETER` is `0.2`, line 29. -/
noncomputable def ask (o : RasterNumbers) (xPixels yPixels : ℕ) : Ask :=
  let size := pictureSize fl (o.width.map (.ofF64 fl)) (o.height.map (.ofF64 fl)) xPixels yPixels
  ⟨size.1, size.2, (o.spot.map (.ofF64 fl)).getD (.fin (fl (1 / 5))), (o.drawSpeed.map (.ofF64 fl)).getD (.fin 20),
    weightOf (o.intensity.getD 5)⟩

/-- `width`, image_raster.rs 277. -/
noncomputable def width (c : Xy) (r : Ask) : Num := .mul fl r.width (.fin (c.stepper .x).stepsPerMillimeter)

/-- `res_x`, image_raster.rs 278-281. -/
noncomputable def resX (c : Xy) (r : Ask) (xPixels : ℕ) : ℕ :=
  max 1 (Num.div fl (.mul fl (width fl c r) (.fin c.ticksPerSecond))
    (.mul fl (.fin xPixels) (.mul fl r.speed (.fin (c.stepper .x).stepsPerMillimeter)))).round.asU32

/-- `v_x`, image_raster.rs 283. -/
noncomputable def vX (c : Xy) (r : Ask) (xPixels : ℕ) : ℤ :=
  (Num.div fl (width fl c r) (.fin (2 * (xPixels * resX fl c r xPixels) : ℕ))).round.asI32

/-- `res_y`, image_raster.rs 285. -/
noncomputable def resY (r : Ask) (yPixels : ℕ) : ℕ :=
  (Num.div fl r.height (.mul fl (.fin yPixels) r.spot)).round.asU32

/-- `step_y`, image_raster.rs 286-287. -/
noncomputable def stepY (c : Xy) (r : Ask) (yPixels : ℕ) : ℤ :=
  (Num.div fl (.mul fl r.height (.fin (c.stepper .y).stepsPerMillimeter)) (.fin (resY fl r yPixels * yPixels : ℕ))).round.asI64

/-- The parameters of the scan. -/
noncomputable def params (c : Xy) (r : Ask) (xPixels yPixels : ℕ) : Params :=
  ⟨resX fl c r xPixels, vX fl c r xPixels, resY fl r yPixels, stepY fl c r yPixels, r.weight⟩

/-- The motion of image_raster.rs, lines 237-347, for all numbers that the command line may contain.  The products of lines 282-290
are checked by `realHeight` and `raster`. -/
noncomputable def rasterEvents (cfg : Xy) (o : RasterNumbers) (img : Image) : Option Ctx := do
  let p := params fl cfg (ask fl o img.width img.height) img.width img.height
  let _ ← realHeight p img
  Checked.raster p img
    (Ctx.new (rasterALimit fl cfg (o.aMax.map (.ofF64 fl))) (vLimit fl cfg (o.vMax.map (.ofF64 fl))))

/-- image_raster.rs 120-357.  Without a device nothing is sent. -/
noncomputable def rasterAny (cfg : Xy) (o : RasterNumbers) (img : Image) (port : Option Port) :
    Option (Option Port) := do
  let c ← rasterEvents fl cfg o img
  cassert (cfg.ticksPerSecond ≠ 0)
  match port with
  | none => some none
  | some port =>
    match ← playEvents port c.events with
    | (.ok (), port) => some (some port)
    | (.error _, _) => none

end StepperPaths.Special
