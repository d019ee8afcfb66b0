import Verif.Spec.Options
import Verif.Spec.Profile1

/-!
# Specification of `psfconvolve` and `psfconvolve1d`
-/

namespace Imfit.Spec

/-- The flags and options of `psfconvolve`. -/
def convDecls : List Decl := [⟨true, false, ["help".toList, "h".toList]⟩, flagDecl "copyheader", flagDecl "printimages", optDecl "debug"]

/-- The flags and options of `psfconvolve1d`. -/
def convDecls1 : List Decl := [⟨true, false, ["help".toList, "h".toList]⟩, flagDecl "printProfiles", optDecl "debug"]

/-- The `k`-th file name on the command line, or the default. -/
def fileName (g : CmdGiven) (k : Nat) (default : String) : Str := g.args[k]?.getD default.toList

/-- The weighted mean of a profile of `n` points, with a PSF of `p` points centred at the point `p/2` as weights and nothing beyond the ends of the profile. -/
noncomputable def smeared (n p : Nat) (P I : Nat → ℝ) (i : Nat) : ℝ :=
  (∑ k ∈ Finset.range p, P k * zeroBeyond n I ((i : ℤ) - ((k : ℤ) - (p / 2 : Nat)))) / ∑ k ∈ Finset.range p, P k

/-- The weighted mean of an image, with a PSF centred at the pixel (rows/2, columns/2) as weights and nothing beyond the edges. -/
noncomputable def smeared2 (cols rows colsP rowsP : Nat) (P I : Nat → Nat → ℝ) (y x : Nat) : ℝ :=
  (∑ i ∈ Finset.range rowsP, ∑ j ∈ Finset.range colsP,
    P i j * if 0 ≤ (y : ℤ) - (i - (rowsP / 2 : Nat)) ∧ (y : ℤ) - (i - (rowsP / 2 : Nat)) < rows ∧ 0 ≤ (x : ℤ) - (j - (colsP / 2 : Nat)) ∧ (x : ℤ) - (j - (colsP / 2 : Nat)) < cols then
      I ((y : ℤ) - (i - (rowsP / 2 : Nat))).toNat ((x : ℤ) - (j - (colsP / 2 : Nat))).toNat else 0) /
    ∑ i ∈ Finset.range rowsP, ∑ j ∈ Finset.range colsP, P i j

end Imfit.Spec
