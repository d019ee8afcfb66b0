import Verif.Model.XR
import Mathlib.Algebra.BigOperators.Group.Finset.Basic

/-!
# What convolution means

Independent of the code: images are functions of row and column, the PSF origin is the pixel (rows/2, columns/2), and light
outside the image is zero.
-/

namespace Imfit.Spec

/-- The pixel list (row by row) of an image given by rows and columns. -/
def image (cols rows : Nat) (f : Nat → Nat → ℝ) : List XR :=
  (List.range (rows * cols)).map fun k => XR.fin (f (k / cols) (k % cols))

/-- Pixel value, zero outside the image. -/
def zeroOutside (cols rows : Nat) (f : Nat → Nat → ℝ) (y x : ℤ) : ℝ :=
  if 0 ≤ y ∧ y < rows ∧ 0 ≤ x ∧ x < cols then f y.toNat x.toNat else 0

/-- Linear convolution of an image with a PSF centred at its pixel (rowsP/2, colsP/2). -/
def linearConvolution (colsI rowsI colsP rowsP : Nat) (img psf : Nat → Nat → ℝ) (y x : Nat) : ℝ :=
  ∑ i ∈ Finset.range rowsP, ∑ j ∈ Finset.range colsP,
    psf i j * zeroOutside colsI rowsI img ((y : ℤ) - ((i : ℤ) - (rowsP / 2 : Nat))) ((x : ℤ) - ((j : ℤ) - (colsP / 2 : Nat)))

/-- Total of an image. -/
def total (cols rows : Nat) (f : Nat → Nat → ℝ) : ℝ := ∑ y ∈ Finset.range rows, ∑ x ∈ Finset.range cols, f y x

end Imfit.Spec
