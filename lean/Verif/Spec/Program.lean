import Verif.Spec.Draw
import Verif.Spec.Strokes
import Verif.Model.Raster

/-! One pass over a drawing, and a burned image, in terms of the events. -/

namespace StepperPaths.Spec
open Coords Curves Context Draw

/-- The events of the ticks `t` to `t'` draw the picture `path` once, beginning where the machine
is at tick `t`.  Only moves to a point where the machine is during the pass are left out.  Each
segment to draw is a piece of a stroke, with the curve of the segment, in the order of the
picture; the start points differ by at most a millionth for each short closing line.  The strokes
are played one after the other. -/
def Pass (e : Env) (v : ℝ) (w : ℤ) (aMax vMax : Axis → ℤ) (es : List Event) (path : List Seg)
    (t t' : ℕ) : Prop :=
  ∃ (start : Vec) (path' : List Seg) (drawn : List (Vec × Concat)) (err : Axis → ℤ),
    (∀ i, coord start i * e.stepScale i = posAt i es t) ∧
    Omit (fun p => ∃ T, t ≤ T ∧ T ≤ t' ∧ ∀ i, posAt i es T = Draw.round (coord p i * e.stepScale i)) path path' ∧
    List.Forall₂ (fun a b => Within (shortCloses start path' * (1 / 1000000)) a.1 b.1 ∧
        ∃ next, e.segInfo a.1 a.2 = some (b.2, next))
      (intended start path') (pieces (curvesOf drawn)) ∧
    Timeline e v w aMax vMax es err t drawn t'

/-- The `k`-th of `n` equal parts of the length `l`. -/
noncomputable def part (l : ℝ) (k n : ℕ) : ℝ := l * (k / n)

/-- The events burn the image with a width of `width` mm and a height of `height` mm, at full power
`w`, in `lines` lines per row of pixels.  The scales give half steps per millimeter, `ex` and `ey` are
tolerances in mm. -/
structure Burns (scaleX scaleY width height ex ey : ℝ) (w : ℤ) (lines : ℕ) (img : Raster.Image) (es : List Event) : Prop where
  /-- Whenever the laser is on the head is in a pixel, on one of its lines, and the power is the one
  for this pixel. -/
  only : ∀ w0 τ, weightAt w0 es τ ≠ 0 → ∃ x y line : ℕ, x < img.width ∧ y < img.height ∧ line < lines ∧
    weightAt w0 es τ = Int.tdiv ((255 - (img.pixel x y : ℤ)) * w) 256 ∧
    ∀ σ, σ = τ ∨ σ = τ + 1 →
      part width x img.width - ex ≤ posAt .x es σ / scaleX ∧
      posAt .x es σ / scaleX ≤ part width (x + 1) img.width + ex ∧
      |posAt .y es σ / scaleY - part height (y * lines + line) (lines * img.height)| ≤ ey
  /-- Each pixel that is not white is crossed from one edge to the other in each of its lines, with
  the power for this pixel. -/
  all : ∀ x y line : ℕ, x < img.width → y < img.height → line < lines → img.pixel x y < 255 →
    ∃ u v, u < v ∧
      (∀ w0 τ, u ≤ τ → τ < v → weightAt w0 es τ = Int.tdiv ((255 - (img.pixel x y : ℤ)) * w) 256) ∧
      (∀ τ, u ≤ τ → τ ≤ v → |posAt .y es τ / scaleY - part height (y * lines + line) (lines * img.height)| ≤ ey) ∧
      ∃ ltr : Bool,
        |posAt .x es u / scaleX - part width (if ltr then x else x + 1) img.width| ≤ ex ∧
        |posAt .x es v / scaleX - part width (if ltr then x + 1 else x) img.width| ≤ ex
  /-- In the end the head rests at the origin and the laser is off. -/
  home : ∃ T, ∀ τ, T ≤ τ → (∀ w0, weightAt w0 es τ = 0) ∧ ∀ i, velAt i es τ = 0 ∧ posAt i es τ = 0

end StepperPaths.Spec
