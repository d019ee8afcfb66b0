import Verif.Spec.Profile
import Mathlib.Algebra.BigOperators.Group.Finset.Basic

/-!
# What convolution of a profile means
-/

namespace Imfit.Spec

/-- The value of a profile of `n` points, zero beyond its ends. -/
def zeroBeyond (n : Nat) (f : Nat → ℝ) (i : ℤ) : ℝ := if 0 ≤ i ∧ i < n then f i.toNat else 0

/-- The function `f` seen through a PSF given at `p` points `dx` apart, with its centre at the point `p/2`. -/
noncomputable def seen (p : Nat) (psf : Nat → ℝ) (dx : ℝ) (f : ℝ → ℝ) (x : ℝ) : ℝ :=
  (∑ k ∈ Finset.range p, psf k * f (x - ((k : ℝ) - (p / 2 : Nat)) * dx)) / ∑ k ∈ Finset.range p, psf k

end Imfit.Spec
