import Verif.Model.StepperContext

/-!
Model of the motion part of `/repo/src/image_raster.rs`: `find_row_interval` and the loop over
the rows of the image.  `u32` arithmetic is checked (as in a debug build): an overflow is a
panic, `none`.
-/

namespace StepperPaths.Raster
open Context IntegerCurve

/-- A grey image (`GrayImage`): `pixel x y` is `get_pixel(x, y).channels()[0]`, a `u8`. -/
structure Image where
  width : Nat
  height : Nat
  pixel : Nat → Nat → Nat

/-- `while x < width {if filter(..) {break;} x += 1;}`, image_raster.rs 43-49. -/
def scanUp (filter : Nat → Bool) (width x : Nat) : Nat :=
  if x < width then
    if filter x then x else scanUp filter width (x + 1)
  else x
termination_by width - x

/-- `while x > start {if filter(..) {break;} x -= 1;}`, image_raster.rs 54-60. -/
def scanDown (filter : Nat → Bool) (start : Nat) : Nat → Nat
  | 0 => 0
  | x + 1 => if start < x + 1 then
      if filter (x + 1) then x + 1 else scanDown filter start x
    else x + 1

/-- `find_row_interval`, image_raster.rs 32-63, for one row. -/
def findRowInterval (filter : Nat → Bool) (width : Nat) : Nat × Nat :=
  let start := scanUp filter width 0
  if start = width then (0, 0)
  else (start, scanDown filter start (width - 1) + 1 - start)

/-- The parameters of the scan, image_raster.rs 278-287. -/
structure Params where
  resX : Nat
  vX : Int
  resY : Nat
  stepY : Int
  weight : Int

/-- Checked `u32` multiplication and addition. -/
def mulU32 (a b : Nat) : Option Nat := if a * b < 4294967296 then some (a * b) else none
def addU32 (a b : Nat) : Option Nat := if a + b < 4294967296 then some (a + b) else none
def subU32 (a b : Nat) : Option Nat := if b ≤ a then some (a - b) else none

/-- `v as u32` for an `i32` -/
def asU32 (v : Int) : Nat := (v % 4294967296).toNat

/-- The weight of a pixel, image_raster.rs 325-327. -/
def pixelWeight (p : Params) (img : Image) (x y : Nat) : Int :=
  Int.tdiv ((255 - img.pixel x y : Int) * p.weight) 256

/-- `u32::try_from(when - ctxt.ticks()).unwrap()`, image_raster.rs 330 and 339. -/
def waitFor (c : Ctx) (t : Nat) : Option Nat := do
  let now ← c.ticks
  cassert (now ≤ t)
  cassert (t - now < 4294967296)
  return t - now

/-- `if ivl != 0 {ctxt.add_acc_interval(0, 0, ivl);}`, image_raster.rs 331-333. -/
def hold (c : Ctx) (ivl : Nat) : Option Ctx := if ivl ≠ 0 then c.addAccInterval 0 0 ivl else some c

/-- The loop over the pixels of a line, image_raster.rs 324-337: `xn` is the next pixel, `n` the
number of remaining ones, `w` gives the weights. -/
def pixels (resX start : Nat) (w : Nat → Option Int) (xn : Nat) (prev : Int) (c : Ctx) : Nat → Option Ctx
  | 0 => some c
  | n + 1 => do
    let wx ← w xn
    if wx ≠ prev then do
      let off ← mulU32 xn resX
      let ivl ← waitFor c (start + off)
      let c ← hold c ivl
      let c ← c.addWeightChange wx (start + off)
      pixels resX start w (xn + 1) wx c n
    else pixels resX start w (xn + 1) prev c n

/-- The `bitmap_x` closures, image_raster.rs 311 and 315. -/
def bitmapX (ltr : Bool) (startX lengthX xn : Nat) : Option Nat :=
  if ltr then addU32 startX xn
  else do
    let a ← addU32 startX lengthX
    let b ← subU32 a 1
    subU32 b xn

/-- `line_start`, image_raster.rs 309 and 313. -/
def lineStart (ltr : Bool) (startX lengthX : Nat) : Option Nat :=
  if ltr then some startX else addU32 startX lengthX

/-- The position of a line start, image_raster.rs 318. -/
def lineX (p : Params) (line : Nat) : Option Int := do
  let a ← mulU32 p.resX 2
  let b ← mulU32 a (asU32 p.vX)
  let d ← mulU32 b line
  return d

/-- The position of a line, image_raster.rs 319. -/
def lineY (p : Params) (yn rep : Nat) : Option Int := do
  let a ← mulU32 yn p.resY
  let b ← addU32 a rep
  return b * p.stepY

/-- One line, image_raster.rs 302-341. -/
def line (p : Params) (img : Image) (ltr : Bool) (yn startX lengthX rep : Nat) (c : Ctx) : Option Ctx := do
  let lineStart ← lineStart ltr startX lengthX
  let lineV := if ltr then p.vX else -p.vX
  let x ← lineX p lineStart
  let y ← lineY p yn rep
  let c ← c.stepGotoSpeed x y lineV 0
  let start ← c.ticks
  let c ← pixels p.resX start (fun xn => do
    let x ← bitmapX ltr startX lengthX xn
    return pixelWeight p img x yn) 0 0 c lengthX
  let off ← mulU32 lengthX p.resX
  let ivl ← waitFor c (start + off)
  let c ← c.addAccInterval 0 0 ivl
  c.addWeightChange 0 (start + off)

/-- `for repeat_y in 0..res_y`, image_raster.rs 301-343: `rep` is the next one, `n` the number of
remaining ones. -/
def lines (p : Params) (img : Image) (yn startX lengthX rep : Nat) : Nat → Bool × Ctx → Option (Bool × Ctx)
  | 0, s => some s
  | n + 1, (ltr, c) => do
    let c ← line p img ltr yn startX lengthX rep c
    lines p img yn startX lengthX (rep + 1) n (!ltr, c)

/-- The filter of line 299. -/
def marked (img : Image) (y x : Nat) : Bool := decide (img.pixel x y < 255)

/-- `for yn in 0..y_pixels`, image_raster.rs 297-345. -/
def rows (p : Params) (img : Image) (yn : Nat) : Nat → Bool × Ctx → Option (Bool × Ctx)
  | 0, s => some s
  | n + 1, s => do
    let (startX, lengthX) := findRowInterval (marked img yn) img.width
    let s ← if lengthX > 0 then lines p img yn startX lengthX 0 p.resY s else some s
    rows p img (yn + 1) n s

/-- The `u32` arithmetic before the loop, image_raster.rs 282, 283, 286 and 290. -/
def checks (p : Params) (img : Image) : Option Unit := do
  let interval ← mulU32 img.width p.resX
  let _ ← mulU32 2 interval
  let _ ← mulU32 p.resY img.height
  let v2 ← mulU32 (asU32 p.vX) 2
  let _ ← mulU32 v2 interval
  return ()

/-- The raster part of `main`, image_raster.rs 275-347, and `events` of line 353.  (`ticks` of line 350
panics only if `events` does.) -/
def raster (p : Params) (img : Image) (c : Ctx) : Option Ctx := do
  let c := c.setWeight p.weight
  checks p img
  let (_, c) ← rows p img 0 img.height (true, c)
  let c ← c.stepGoto 0 0
  c.readEvents

end StepperPaths.Raster
