import Verif.Spec.Layout
import Verif.Model.XR

/-!
# What a section of an image is

The pixel in column `j` and row `i` (from 0) of the section that begins at column `dx` and row `dy` is the pixel in column `dx + j` and row `dy + i` of the image. A point with
the coordinates `x`, `y` in the image has the coordinates `x - dx`, `y - dy` in the section.
-/

namespace Imfit.Spec

open XR FP

/-- A function of the centre and a point depends on the distances between them only: counting both from another origin changes nothing. -/
def Relative (value : XR → XR → XR → XR → Res XR) : Prop :=
  ∀ a b x0 y0 x y : ℝ, value (fin (x0 - a)) (fin (y0 - b)) (fin (x - a)) (fin (y - b)) = value (fin x0) (fin y0) (fin x) (fin y)

/-- A set of functions with the centre counted from the section that begins at column `dx` and row `dy`. -/
noncomputable def SetVals.seenFrom (dx dy : Nat) (s : SetVals XR) : SetVals XR := { s with x0 := s.x0 - fin dx, y0 := s.y0 - fin dy }

/-- The list of pixels `part` (of `cols` columns and `rows` rows) is the section of the image `whole` (of `width` columns) that begins at column `dx` and row `dy`. -/
def IsSection (dx dy cols rows width : Nat) (part whole : List XR) : Prop :=
  part.length = cols * rows ∧ ∀ i j, i < rows → j < cols → ∃ v, part[i * cols + j]? = some v ∧ whole[(dy + i) * width + (dx + j)]? = some v

end Imfit.Spec
