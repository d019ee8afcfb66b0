import Verif.Spec.Convolve
import Verif.Model.Res
import Mathlib.Order.Fin.Basic

/-!
# What a point source looks like

A point source of flux `I` at pixel (x0, y0) puts `I` times the PSF image on the pixels around it: the central pixel of a PSF image with
2a+1 columns and 2b+1 rows lies on (x0, y0), rows stay rows and columns stay columns, and there is no light outside the PSF image.
-/

namespace Imfit.Spec

/-- Light of a point source of flux one, `dx` pixels to the right of and `dy` pixels above its position. -/
def pointLight (a b : ℕ) (f : ℕ → ℕ → ℝ) (dx dy : ℤ) : ℝ := zeroOutside (2 * a + 1) (2 * b + 1) f (b + dy) (a + dx)

/-- What GSL promises about two-dimensional interpolation: with strictly increasing abscissae and one value for each node, stored row by row, the
interpolating function takes these values at the nodes. -/
def Interpolates (spline : List XR → List XR → List XR → XR → XR → Res XR) : Prop :=
  ∀ (xs ys z : List ℝ), xs.Pairwise (· < ·) → ys.Pairwise (· < ·) → z.length = xs.length * ys.length →
    ∀ (i j : ℕ) (hi : i < xs.length) (hj : j < ys.length) (hz : j * xs.length + i < z.length),
      spline (xs.map XR.fin) (ys.map XR.fin) (z.map XR.fin) (XR.fin xs[i]) (XR.fin ys[j]) = .ok (XR.fin z[j * xs.length + i])

end Imfit.Spec
