import Verif.Model.Dream
import Mathlib.Algebra.Order.Floor.Semiring

/-!
# Statistics of Markov chains

The textbook quantities, and the contract of the statistics functions of GSL for finite numbers in exact arithmetic.
-/

namespace Imfit.Spec

open Imfit XR

/-- The mean. -/
noncomputable def mean (l : List ℝ) : ℝ := l.sum / l.length

/-- The sum of the squared differences from `m`, divided by one less than the number of values. -/
noncomputable def varAbout (l : List ℝ) (m : ℝ) : ℝ := (l.map fun x => (x - m) ^ 2).sum / (l.length - 1)

/-- The sample variance. -/
noncomputable def var (l : List ℝ) : ℝ := varAbout l (mean l)

/-- The variance within the chains: the mean of their variances. -/
noncomputable def within (chains : List (List ℝ)) : ℝ := mean (chains.map var)

/-- The variance of the means of the chains. -/
noncomputable def between (chains : List (List ℝ)) : ℝ := var (chains.map mean)

/-- The potential scale reduction of Gelman and Rubin (1992) for `m` chains of `n` values. -/
noncomputable def scaleReduction (n : ℕ) (chains : List (List ℝ)) : ℝ :=
  Real.sqrt (((n - 1) / n * within chains + (1 + 1 / (chains.length : ℝ)) * between chains) / within chains)

/-- The quantile of sorted data by linear interpolation, as GSL documents it. -/
noncomputable def quantile (l : List ℝ) (f : ℝ) : ℝ :=
  (1 - (f * (l.length - 1) - ⌊f * ((l.length : ℝ) - 1)⌋₊)) * l.getD ⌊f * ((l.length : ℝ) - 1)⌋₊ 0 +
    (f * (l.length - 1) - ⌊f * ((l.length : ℝ) - 1)⌋₊) * l.getD (⌊f * ((l.length : ℝ) - 1)⌋₊ + 1) 0

/-- The statistics functions of GSL, and `std::sort`, for finite numbers without rounding. -/
structure ExactGsl (G : Gsl XR) : Prop where
  mean : ∀ l : List ℝ, l ≠ [] → G.mean (l.map fin) = fin (mean l)
  varM : ∀ (l : List ℝ) m, 2 ≤ l.length → G.varM (l.map fin) (fin m) = fin (varAbout l m)
  sort : ∀ l : List ℝ, ∃ s : List ℝ, G.sort (l.map fin) = s.map fin ∧ s.Perm l ∧ s.Pairwise (· ≤ ·)
  quantile : ∀ (l : List ℝ) f, l ≠ [] → 0 ≤ f → f < 1 → G.quantile (l.map fin) (fin f) = fin (quantile l f)
  maxIndex : ∀ l : List ℝ, l ≠ [] → ∃ v, l[G.maxIndex (l.map fin)]? = some v ∧ ∀ x ∈ l, x ≤ v

/-- The chains: value of parameter `j` of chain `i` in generation `k`, in the memory of a run. -/
def Holds (c : DreamCfg XR) (state : List (Option (List XR))) (x : ℕ → ℕ → ℕ → ℝ) (k0 k1 : ℕ) : Prop :=
  ∀ k i, k0 ≤ k → k < k1 → i < c.numChains → ∃ row, state[k * c.numChains + i]? = some (some row) ∧ ∀ j, j < c.nvar → row[j]? = some (fin (x k i j))

/-- The values of parameter `j` of chain `i` in the `n` generations from `k0` on. -/
def values (x : ℕ → ℕ → ℕ → ℝ) (k0 n i j : ℕ) : List ℝ := (List.range n).map fun k => x (k0 + k) i j

/-- The same for all `m` chains. -/
def chainsOf (x : ℕ → ℕ → ℕ → ℝ) (m k0 n j : ℕ) : List (List ℝ) := (List.range m).map fun i => values x k0 n i j

end Imfit.Spec
