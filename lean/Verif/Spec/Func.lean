import Mathlib.Analysis.SpecialFunctions.Pow.Real
import Mathlib.Algebra.BigOperators.Intervals
import Mathlib.Analysis.SpecialFunctions.Trigonometric.Basic

/-!
# Specification of elliptical image functions and of sub-sampled pixels
-/

namespace Imfit.Spec

open Finset

/-- Radius of an offset `(dx, dy)` on ellipses with axis ratio `q` whose major axis makes the angle `θ` with the x axis. -/
noncomputable def ellRadius (q θ dx dy : ℝ) : ℝ :=
  Real.sqrt ((dx * Real.cos θ + dy * Real.sin θ) ^ 2 + ((dy * Real.cos θ - dx * Real.sin θ) / q) ^ 2)

/-- Coordinate of the `i`-th of `n` equally spaced points in the pixel centred at `x`. -/
noncomputable def gridPoint (n i : ℕ) (x : ℝ) : ℝ := x - 1 / 2 + (i + 1 / 2) / n

/-- Mean of `g` over the `n × n` grid of points in the pixel centred at `(x, y)`. -/
noncomputable def pixelMean (n : ℕ) (g : ℝ → ℝ → ℝ) (x y : ℝ) : ℝ :=
  (∑ i ∈ range n, ∑ j ∈ range n, g (gridPoint n i x) (gridPoint n j y)) / (n * n)

/-- Parameters of an elliptical function: position angle (degrees), ellipticity, amplitude, size and shape parameter (Sersic index or Moffat beta; not used by the
others). -/
structure Phys where
  pa : ℝ
  ell : ℝ
  amp : ℝ
  size : ℝ
  shape : ℝ

/-- Angle of the major axis with the x axis, in radians, for a position angle in degrees from the y axis. -/
noncomputable def Phys.angle (ph : Phys) : ℝ := (ph.pa + 90) * (17453292519943295 / 10 ^ 18)

/-- The parameters as seen by an image with the given factor for sizes, rotation and factor for intensities. -/
def Phys.inImage (ph : Phys) (ps rot is : ℝ) : Phys :=
  { ph with pa := ph.pa - rot, amp := ph.amp * is, size := ph.size * ps }

/-- The approximations to the Sersic parameter `b_n` of Ciotti & Bertin (1999, for n > 0.36) and MacArthur et al. (2003). -/
noncomputable def bn (n : ℝ) : ℝ :=
  if 0.36 < n then
    2 * n - 0.333333333333333 + 0.009876543209876543 / n + 0.0018028610621203215 / n ^ 2 + 0.00011409410586365319 / n ^ 3
      - 0.000071510122958919723 / n ^ 4
  else 0.01945 - 0.8902 * n + 10.95 * n ^ 2 - 19.67 * n ^ 3 + 13.43 * n ^ 4

/-- Scale length of a Moffat function with the given FWHM and beta. -/
noncomputable def moffatAlpha (fwhm beta : ℝ) : ℝ := fwhm / 2 / Real.sqrt (2 ^ (1 / beta) - 1)

/-- Documented profiles. -/
noncomputable def expProfile (ph : Phys) (r : ℝ) : ℝ := ph.amp * Real.exp (-(r / ph.size))
noncomputable def gaussProfile (ph : Phys) (r : ℝ) : ℝ := ph.amp * Real.exp (-(r ^ 2 / (2 * ph.size ^ 2)))
noncomputable def sersicProfile (ph : Phys) (r : ℝ) : ℝ := ph.amp * Real.exp (-(bn ph.shape * ((r / ph.size) ^ (1 / ph.shape) - 1)))
noncomputable def moffatProfile (ph : Phys) (r : ℝ) : ℝ := ph.amp / (1 + (r / moffatAlpha ph.size ph.shape) ^ 2) ^ ph.shape

end Imfit.Spec
