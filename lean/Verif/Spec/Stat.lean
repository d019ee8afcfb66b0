import Verif.Spec.Fit

/-!
# Specification of the fit statistics (real-valued)
-/

namespace Imfit.Spec

open Imfit

/-- Index, in the (padded) model image, of the pixel with the same column and row as data pixel `z` (row-major): shifted by
the PSF padding. -/
def padIndex (i : FitInput XR) (z : Nat) : Nat :=
  match i.psf with
  | some (a, b) => (z / i.nCols + b) * (i.nCols + 2 * a) + (z % i.nCols + a)
  | none => z

/-- Model value belonging to data pixel `z`. -/
noncomputable def modelAt (i : FitInput XR) (img : List ℝ) (z : Nat) : ℝ := img.getD (padIndex i z) 0

/-- Noise variance from a model value `m` (no clipping). -/
noncomputable def Chars.modelVariance {i : FitInput XR} (c : Chars i) (m : ℝ) : ℝ :=
  (m + c.sky) / c.effGain + (i.nCombined : ℝ) * (c.readNoise / c.effGain) ^ 2

/-- `w` is the weight (1/sigma) used for pixel `z` with model image `img`. -/
def PixWeight {i : FitInput XR} (c : Chars i) (img : List ℝ) (z : Nat) (w : ℝ) : Prop :=
  if i.stat = .chi2Model then
    0 < c.modelVariance (modelAt i img z) ∧ w = 1 / Real.sqrt (c.modelVariance (modelAt i img z))
  else WeightIs c z w

/-- The pixels over which a statistic is summed: all pixels, or a bootstrap sample. `Mode s s' T`: the model object `s'` is `s`
in the mode that sums over `T`. -/
inductive Mode (n nv : Nat) (s : MO XR) : MO XR → List Nat → Prop
  | plain : Mode n nv s s (List.range n)
  | boot (T : List Nat) (hl : T.length = nv) (hT : ∀ b ∈ T, b < n) :
      Mode n nv s { s with doBootstrap := true, bootIdx := some T } T

/-- Sum of squares. -/
def sumSq (l : List ℝ) : ℝ := (l.map fun x => x ^ 2).sum

/-- Poisson maximum-likelihood-ratio term for observed counts `D` and expected counts `M`. -/
noncomputable def mlrTerm (D M : ℝ) : ℝ := M - D + D * Real.log (D / M)

/-- Counts (detected photons) of an intensity `x`. -/
noncomputable def Chars.counts {i : FitInput XR} (c : Chars i) (x : ℝ) : ℝ := c.effGain * (x + c.sky)

open Classical in
/-- Weighted residual of pixel `z`: weight times (data - model) for used pixels, 0 for all others. -/
noncomputable def resid (i : FitInput XR) (w d : Nat → ℝ) (img : List ℝ) (z : Nat) : ℝ :=
  if Used i z then w z * (d z - modelAt i img z) else 0

end Imfit.Spec
