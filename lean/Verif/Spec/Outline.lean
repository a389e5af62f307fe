import Verif.Spec.Raster

/-! The outline of a picture: in each row what is left and right of all that is not white. -/

namespace StepperPaths.Spec
open Raster Context

/-- Two pictures have the same size, and in each row something that is not white is at or left of a column in both or in neither, and the same
at or right of it. -/
structure SameOutline (img img' : Image) : Prop where
  width : img.width = img'.width
  height : img.height = img'.height
  left : ∀ y < img.height, ∀ x < img.width, (∃ z ≤ x, img.pixel z y < 255) ↔ ∃ z ≤ x, img'.pixel z y < 255
  right : ∀ y < img.height, ∀ x < img.width, (∃ z, x ≤ z ∧ z < img.width ∧ img.pixel z y < 255) ↔
    ∃ z, x ≤ z ∧ z < img.width ∧ img'.pixel z y < 255

/-- The laser is off in both runs, or at the same pixel in both. -/
def SamePixel (p p' : Params) (img img' : Image) (es es' : List Event) (τ : Nat) : Prop :=
  weightAt 0 es τ = 0 ∧ weightAt 0 es' τ = 0 ∨
    ∃ x < img.width, ∃ y < img.height, weightAt 0 es τ = shade p img x y ∧ weightAt 0 es' τ = shade p' img' x y

/-- What of the parameters matters for the motion. -/
structure SameScan (p p' : Params) : Prop where
  resX : p.resX = p'.resX
  vX : p.vX = p'.vX
  resY : p.resY = p'.resY
  stepY : p.stepY = p'.stepY

end StepperPaths.Spec
