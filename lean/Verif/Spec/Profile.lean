import Verif.Spec.Plane
import Verif.Spec.Func
import Mathlib.Analysis.SpecialFunctions.Trigonometric.DerivHyp

/-!
# Specification of one-dimensional profiles
-/

namespace Imfit.Spec

/-- The intensity of a surface brightness `mu` with the zero point `zp`. -/
noncomputable def flux (zp mu : ℝ) : ℝ := (10 : ℝ) ^ ((zp - mu) * (2 / 5))

/-- The surface brightness of an intensity. -/
noncomputable def mag (zp i : ℝ) : ℝ := zp - 5 / 2 * (Real.log i / Real.log 10)

/-- The formula of Ciotti & Bertin (1999), published for n > 0.36. -/
noncomputable def bnCB (n : ℝ) : ℝ :=
  2 * n - 0.333333333333333 + 0.009876543209876543 / n + 0.0018028610621203215 / n ^ 2 + 0.00011409410586365319 / n ^ 3 - 0.000071510122958919723 / n ^ 4

/-- A Sersic profile with the coefficient `b`. -/
noncomputable def sersicWith (b n ie re r : ℝ) : ℝ := ie * Real.exp (-(b * ((r / re) ^ (1 / n) - 1)))

/-- A core-Sersic profile with the coefficient `b`. -/
noncomputable def coreSersicWith (b n ib re rb a g r : ℝ) : ℝ :=
  ib * 2 ^ (-(g / a)) * Real.exp (b * (2 ^ (1 / a) * rb / re) ^ (1 / n)) * (1 + (rb / r) ^ a) ^ (g / a) *
    Real.exp (-(b * ((r ^ a + rb ^ a) / re ^ a) ^ (1 / (a * n))))

/-- A Moffat function. -/
noncomputable def moffatI (i0 fwhm beta r : ℝ) : ℝ := i0 / (1 + (r / moffatAlpha fwhm beta) ^ 2) ^ beta

/-- The third and fourth Gauss-Hermite polynomials (van der Marel & Franx 1993). -/
noncomputable def hermite3 (w : ℝ) : ℝ := (2 * Real.sqrt 2 * w ^ 3 - 3 * Real.sqrt 2 * w) / Real.sqrt 6
noncomputable def hermite4 (w : ℝ) : ℝ := (4 * w ^ 4 - 12 * w ^ 2 + 3) / Real.sqrt 24

/-- The Gauss-Hermite series of van der Marel & Franx. -/
noncomputable def gaussHermiteI (a sigma h3 h4 dx : ℝ) : ℝ :=
  a * Real.exp (-((dx / sigma) ^ 2 / 2)) * (1 + h3 * hermite3 (dx / sigma) + h4 * hermite4 (dx / sigma))

end Imfit.Spec
