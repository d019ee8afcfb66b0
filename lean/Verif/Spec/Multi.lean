import Verif.Spec.Layout
import Verif.Model.Multi
import Mathlib.Analysis.Complex.Trigonometric

/-!
# Specification of multi-image parameter vectors
-/

namespace Imfit.Spec

/-- The values of a multi-image model: description of the second and later images, function sets of the global model (in the
reference image), and the local parameters of each image. -/
structure MultiVals (α : Type) where
  images : List (ImgPar α)
  sets : List (SetVals α)
  locals : List (List α)

/-- The five values that describe an image. -/
def imageVector {α : Type} (im : ImgPar α) : List α := [im.pixScale, im.rotation, im.intensityScale, im.x0, im.y0]

/-- The parameter vector handled by the solver. -/
def MultiVals.vector {α : Type} (m : MultiVals α) : List α :=
  m.images.flatMap imageVector ++ paramVector m.sets ++ m.locals.flatten

/-- A set at another position. -/
def SetVals.at {α : Type} (s : SetVals α) (p : α × α) : SetVals α := { s with x0 := p.1, y0 := p.2 }

/-- The sets as seen by an image: the first at the position given with the image, the others where `place` puts them (given the first and
the other set of the reference image). -/
def moved {α : Type} (place : SetVals α → SetVals α → α × α) (p : α × α) : List (SetVals α) → List (SetVals α)
  | [] => []
  | s :: rest => s.at p :: rest.map fun t => t.at (place s t)

/-- A position as a complex number. -/
noncomputable def pos (x y : ℝ) : ℂ := ⟨x, y⟩

/-- The similarity that takes positions of the reference image to positions of another image: turn by `-θ` about the first set, scale by
`s`, and move the first set to `c`. -/
noncomputable def similarity (s θ : ℝ) (ref c : ℂ) (z : ℂ) : ℂ := c + s * Complex.exp (-(θ * Complex.I)) * (z - ref)

end Imfit.Spec
