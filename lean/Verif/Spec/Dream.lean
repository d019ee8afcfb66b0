import Verif.Model.Dream

/-!
# What is asked of the Markov-chain sampler

The contract of the random generator, and what a permitted parameter vector is.
-/

namespace Imfit.Spec

open Imfit

/-- What GSL documents about the draws: an integer below `n`; a rearrangement of `n` items; counts for `K` outcomes that add up to `N` if all outcomes are equally
probable, and to no more than `N` for whatever probabilities. Nothing is assumed about which values are drawn. -/
structure GoodRng {σ α : Type} [FP α] (R : Rng σ α) : Prop where
  uint : ∀ n s, 0 < n → (R.uint n s).1 < n
  perm : ∀ n s, (R.perm n s).1.Perm (List.range n)
  multi_length : ∀ K N p s, (R.multi K N p s).1.length = K
  multi_le : ∀ K N p s, (R.multi K N p s).1.sum ≤ N
  multi_uniform : ∀ K N s, 0 < K → (R.multi K N (List.replicate K (1 / lit (K : ℚ))) s).1.sum = N

/-- The vector has a value for each parameter, no value is below its lower or above its upper limit, and the locked parameters have the value given by the lower
limit (`core/mcmc_main.cpp:376-384` puts the value of a fixed parameter into both limits). -/
def Permitted {α : Type} [FP α] (lock : List Bool) (lo hi row : List α) : Prop :=
  row.length = lock.length ∧ ∀ (j : Nat) l a b x, lock[j]? = some l → lo[j]? = some a → hi[j]? = some b → row[j]? = some x →
    flt x a = false ∧ flt b x = false ∧ (l = true → x = a)

/-- The documented range of `gsl_stats_max_index`. -/
def GoodGsl {α : Type} (G : Gsl α) : Prop := ∀ l, l ≠ [] → G.maxIndex l < l.length

end Imfit.Spec
