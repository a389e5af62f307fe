import Verif.Model.CheckedMotion
import Verif.Model.RoundedRaster

/-!
The loop over the rows of `/repo/src/image_raster.rs` and the rest of its `main` once more, with every
`i64` and `i32` operation checked as in a debug build: an overflow is a panic, `none`.  The `u32` operations
are checked in the other model already and shared with it.  Tick counts (`u64`) stay unbounded.
-/

namespace StepperPaths.Checked
open Context IntegerCurve Raster Config Control Program Rounded

/-- The weight of a pixel, image_raster.rs 325-327. -/
def pixelWeight (p : Params) (img : Image) (x y : Nat) : Option Int := do
  let a ← toI32 ((255 - img.pixel x y : Int) * p.weight)
  return Int.tdiv a 256

/-- `if ivl != 0 {ctxt.add_acc_interval(0, 0, ivl);}`, image_raster.rs 331-333. -/
def hold (c : Ctx) (ivl : Nat) : Option Ctx := if ivl ≠ 0 then addAccInterval c 0 0 ivl else some c

/-- The loop over the pixels of a line, image_raster.rs 324-337, as `Raster.pixels`. -/
def pixels (resX start : Nat) (w : Nat → Option Int) (xn : Nat) (prev : Int) (c : Ctx) : Nat → Option Ctx
  | 0 => some c
  | n + 1 => do
    let wx ← w xn
    if wx ≠ prev then do
      let off ← mulU32 xn resX
      let ivl ← waitFor c (start + off)
      let c ← hold c ivl
      let c ← c.addWeightChange wx (start + off)
      pixels resX start w (xn + 1) wx c n
    else pixels resX start w (xn + 1) prev c n

/-- The position of a line, image_raster.rs 319. -/
def lineY (p : Params) (yn rep : Nat) : Option Int := do
  let a ← mulU32 yn p.resY
  let b ← addU32 a rep
  some (b : Int) *? some p.stepY

/-- The speed along a line, image_raster.rs 310 and 314. -/
def lineV (p : Params) (ltr : Bool) : Option Int := if ltr then some p.vX else toI32 (-p.vX)

/-- One line, image_raster.rs 302-341. -/
def line (p : Params) (img : Image) (ltr : Bool) (yn startX lengthX rep : Nat) (c : Ctx) : Option Ctx := do
  let lineStart ← lineStart ltr startX lengthX
  let lineV ← lineV p ltr
  let x ← lineX p lineStart
  let y ← lineY p yn rep
  let c ← stepGotoSpeed c x y lineV 0
  let start ← c.ticks
  let c ← pixels p.resX start (fun xn => do
    let x ← bitmapX ltr startX lengthX xn
    pixelWeight p img x yn) 0 0 c lengthX
  let off ← mulU32 lengthX p.resX
  let ivl ← waitFor c (start + off)
  let c ← addAccInterval c 0 0 ivl
  c.addWeightChange 0 (start + off)

/-- `for repeat_y in 0..res_y`, image_raster.rs 301-343, as `Raster.lines`. -/
def lines (p : Params) (img : Image) (yn startX lengthX rep : Nat) : Nat → Bool × Ctx → Option (Bool × Ctx)
  | 0, s => some s
  | n + 1, (ltr, c) => do
    let c ← line p img ltr yn startX lengthX rep c
    lines p img yn startX lengthX (rep + 1) n (!ltr, c)

/-- `for yn in 0..y_pixels`, image_raster.rs 297-345. -/
def rows (p : Params) (img : Image) (yn : Nat) : Nat → Bool × Ctx → Option (Bool × Ctx)
  | 0, s => some s
  | n + 1, s => do
    let (startX, lengthX) := findRowInterval (marked img yn) img.width
    let s ← if lengthX > 0 then lines p img yn startX lengthX 0 p.resY s else some s
    rows p img (yn + 1) n s

/-- The raster part of `main`, image_raster.rs 275-347, and `events` of line 353. -/
def raster (p : Params) (img : Image) (c : Ctx) : Option Ctx := do
  let c := c.setWeight p.weight
  checks p img
  let (_, c) ← rows p img 0 img.height (true, c)
  let c ← stepGotoSpeed c 0 0 0 0
  c.readEvents

/-- `main` of image_raster.rs, lines 120-357, with a device, as `rasterMainF`. -/
noncomputable def rasterMain (fl : ℝ → ℝ) (cfg : Xy) (o : RasterOptions) (img : Image) (port : Port) :
    Option (Option Port) := do
  let _ ← mulU32 2 cfg.ticksPerSecond
  let percent := o.intensity.getD 5
  if percent < 0 ∨ percent > 100 then some none
  else do
    let p := paramsF fl cfg (requestF fl o img.width img.height) img.width img.height
    let _ ← realHeight p img
    let c ← raster p img (Ctx.new (rasterALimitF fl cfg o.aMax) (vLimitF fl cfg o.vMax))
    cassert (cfg.ticksPerSecond ≠ 0)
    match ← playEvents port c.events with
    | (.ok (), port) => some (some port)
    | (.error _, _) => none

end StepperPaths.Checked
