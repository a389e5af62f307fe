import Verif.Proof.SpecialZero

/-! The scan for options that are infinite or not a number. -/

namespace StepperPaths.Special
open Coords Curves Context IntegerCurve Config Control Program Raster StepperPaths.Svg Rounded StepperPaths.Cli Spec
open Draw (satI32 trunc Approx Pen Seg accMax)

variable {fl : ℝ → ℝ}

/-! ### Finite numbers -/

theorem rasterAScale_fin {c : Xy} (h : c.ticksPerSecond ≠ 0) : rasterAScale fl c = .fin (rasterAScaleF fl c) := by
  have : (c.ticksPerSecond : ℝ) ≠ 0 := by simpa using h
  rw [rasterAScale, vScale_fin h, div_fin this]
  rfl

theorem rasterALimit_fin {c : Xy} (h : c.ticksPerSecond ≠ 0) (o : Option ℝ) (i : Axis) :
    rasterALimit fl c (o.map .fin) i = rasterALimitF fl c o i := by
  cases o
  · simp [rasterALimit, rasterALimitF, rasterAScale_fin h, Num.abs]
  · simp [rasterALimit, rasterALimitF, rasterAScale_fin h, Num.abs, Num.asI32]

/-- A request with finite numbers. -/
def ofRequest (r : Request) : Ask := ⟨.fin r.width, .fin r.height, .fin r.spot, .fin r.speed, r.weight⟩

theorem pictureSize_fin {x y : ℕ} (hx : x ≠ 0) (hy : y ≠ 0) (w h : Option ℝ) :
    pictureSize fl (w.map .fin) (h.map .fin) x y = (.fin (pictureSizeF fl w h x y).1, .fin (pictureSizeF fl w h x y).2) := by
  have hx : (x : ℝ) ≠ 0 := by exact_mod_cast hx
  have hy : (y : ℝ) ≠ 0 := by exact_mod_cast hy
  cases w <;> cases h <;> simp [pictureSize, pictureSizeF, div_fin hx, div_fin hy]

theorem resX_fin {c : Xy} {r : Request} {x : ℕ} (h : fl (x * fl (r.speed * (c.stepper .x).stepsPerMillimeter)) ≠ 0) :
    resX fl c (ofRequest r) x = resXF fl c r x := by
  simp only [resX, ofRequest, width, mul_fin, div_fin h, round_asU32]
  rfl

theorem vX_fin {c : Xy} {r : Request} {x : ℕ} (hx : x ≠ 0) (h : fl (x * fl (r.speed * (c.stepper .x).stepsPerMillimeter)) ≠ 0) :
    vX fl c (ofRequest r) x = vXF fl c r x := by
  have h1 : 1 ≤ resXF fl c r x := le_max_left _ _
  have : ((2 * (x * resXF fl c r x) : ℕ) : ℝ) ≠ 0 := by
    have : 2 * (x * resXF fl c r x) ≠ 0 := by positivity
    exact_mod_cast this
  simp only [vX, resX_fin h]
  simp only [ofRequest, width, mul_fin, div_fin this, round_asI32]
  rfl

theorem resY_fin {r : Request} {y : ℕ} (h : fl (y * r.spot) ≠ 0) : resY fl (ofRequest r) y = resYF fl r y := by
  simp only [resY, ofRequest, mul_fin, div_fin h, round_asU32]
  rfl

theorem stepY_fin {c : Xy} {r : Request} {y : ℕ} (hy : y ≠ 0) (h : fl (y * r.spot) ≠ 0) (hr : resYF fl r y ≠ 0) :
    stepY fl c (ofRequest r) y = stepYF fl c r y := by
  have : ((resYF fl r y * y : ℕ) : ℝ) ≠ 0 := by
    have : resYF fl r y * y ≠ 0 := by positivity
    exact_mod_cast this
  simp only [stepY, resY_fin h]
  simp only [ofRequest, mul_fin, div_fin this, round_asI64]
  rfl

/-! ### No lines -/

theorem rows_none {p : Params} (h : p.resY = 0) (img : Image) : ∀ (n yn : ℕ) (s : Bool × Ctx), Checked.rows p img yn n s = some s
  | 0, _, _ => rfl
  | n + 1, yn, s => by
    simp only [Checked.rows, h, Checked.lines, ite_self, Option.bind_eq_bind, Option.bind_some]
    exact rows_none h img n _ s

/-- Without lines neither `step_y` nor the picture matters, only its size. -/
theorem raster_none {p p' : Params} {img img' : Image} (h : p.resY = 0) (h1 : p'.resY = 0) (h2 : p'.resX = p.resX) (h3 : p'.vX = p.vX)
    (h4 : p'.weight = p.weight) (hw : img'.width = img.width) (hh : img'.height = img.height) (c : Ctx) :
    (realHeight p img).bind (fun _ => Checked.raster p img c) = (realHeight p' img').bind (fun _ => Checked.raster p' img' c) := by
  have r : ∀ q : Params, ∀ im, q.resY = 0 → realHeight q im = some 0 := by
    intro q im hq
    simp [realHeight, hq, cassert]
  rw [r p img h, r p' img' h1]
  simp only [Option.bind_some, Checked.raster, rows_none h, rows_none h1, checks, h, h1, h2, h3, h4, hw, hh]

end StepperPaths.Special
