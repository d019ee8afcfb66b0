import Verif.Spec.Options
import Verif.Model.Mcmc

/-!
# Specification of `imfit-mcmc`
-/

namespace Imfit.Spec

variable {α : Type}

/-- The flags and options of `imfit-mcmc`. -/
def mcmcDecls : List Decl :=
  [⟨true, false, ["help".toList, "h".toList]⟩, ⟨true, false, ["version".toList, "v".toList]⟩] ++
  ["list-functions", "list-parameters", "sample-config", "errors-are-variances", "errors-are-weights", "mask-zero-is-bad", "no-normalize", "no-subsampling", "model-errors", "cashstat",
    "poisson-mlr", "mlr", "quiet", "silent", "loud"].map flagDecl ++
  ["noise", "mask", "psf"].map optDecl ++ ["overpsf", "overpsf_scale", "overpsf_region"].map listDecl ++ ["sky", "gain", "readnoise", "exptime", "ncombined"].map optDecl ++
  [⟨false, false, ["config".toList, "c".toList]⟩, ⟨false, false, ["output".toList, "o".toList]⟩] ++ [flagDecl "append"] ++
  ["nchains", "max-chain-length", "burnin-length", "gelman-evals", "gelman-rubin-limit", "uniform-offset", "gaussian-offset", "max-threads", "seed"].map optDecl

/-- The values are numbers where numbers are wanted. -/
structure McmcWellFormed (g : CmdGiven) : Prop where
  sky : ∀ t ∈ g.first "sky", IsReal t
  gain : ∀ t ∈ g.first "gain", IsUnsigned t
  readnoise : ∀ t ∈ g.first "readnoise", IsUnsigned t
  exptime : ∀ t ∈ g.first "exptime", IsUnsigned t
  ncombined : ∀ t ∈ g.first "ncombined", IsWhole 2147483647 t
  nchains : ∀ t ∈ g.first "nchains", IsWhole 2147483647 t
  maxLength : ∀ t ∈ g.first "max-chain-length", IsWhole 2147483647 t
  burnin : ∀ t ∈ g.first "burnin-length", IsWhole 2147483647 t
  gelman : ∀ t ∈ g.first "gelman-evals", IsWhole 2147483647 t
  limit : ∀ t ∈ g.first "gelman-rubin-limit", IsUnsigned t
  uniform : ∀ t ∈ g.first "uniform-offset", IsUnsigned t
  gaussian : ∀ t ∈ g.first "gaussian-offset", IsUnsigned t
  threads : ∀ t ∈ g.first "max-threads", IsWhole 2147483647 t
  seed : ∀ t ∈ g.first "seed", IsWhole 9223372036854775807 t
  scales : ∀ t ∈ g.every "overpsf_scale", IsWhole 2147483647 t

/-- The settings are those that were asked for, and the defaults elsewhere. A number of chains that is not positive stands for one chain per free parameter. -/
structure ObeysMcmc [FP α] (num : Str → α) (cores : Int) (g : CmdGiven) (o : McmcOpts α) : Prop where
  image : o.base.image = g.args.head?
  modelErrors : o.base.modelErrors = g.has "model-errors"
  cash : o.base.cash = g.has "cashstat"
  mlr : o.base.mlr = (g.has "poisson-mlr" || g.has "mlr")
  solver : o.base.solver = 1 ∧ o.base.statOnly = false
  normalizePSF : o.base.normalizePSF = !g.has "no-normalize"
  subsampling : o.base.subsampling = !g.has "no-subsampling"
  verbose : o.base.verbose = if g.has "loud" then 2 else if g.has "quiet" then 0 else if g.has "silent" then -1 else 1
  errorType : o.base.errorType = if g.has "errors-are-weights" then WEIGHTS_ARE_WEIGHTS else if g.has "errors-are-variances" then WEIGHTS_ARE_VARIANCES else WEIGHTS_ARE_SIGMAS
  maskFormat : o.base.maskFormat = if g.has "mask-zero-is-bad" then MASK_ZERO_IS_BAD else MASK_ZERO_IS_GOOD
  configFile : o.base.configFile = (g.first "config").getD "imfit_config.dat".toList
  noiseImage : o.base.noise = g.first "noise"
  psf : o.base.psf = g.first "psf"
  overPsfs : o.base.overPsfs = if g.every "overpsf" = [] then none else some (g.every "overpsf")
  overScales : o.base.overScales = (g.every "overpsf_scale").map wholeVal
  overRegions : o.base.overRegions = g.every "overpsf_region"
  mask : o.base.mask = g.first "mask"
  sky : o.base.sky = ((g.first "sky").map num).getD 0 ∧ o.base.skySet = (g.first "sky").isSome
  gain : o.base.gain = ((g.first "gain").map num).getD 1 ∧ o.base.gainSet = (g.first "gain").isSome
  readNoise : o.base.readNoise = ((g.first "readnoise").map num).getD 0 ∧ o.base.readNoiseSet = (g.first "readnoise").isSome
  expTime : o.base.expTime = ((g.first "exptime").map num).getD 1 ∧ o.base.expTimeSet = (g.first "exptime").isSome
  nCombined : o.base.nCombined = ((g.first "ncombined").map wholeVal).getD 1 ∧ o.base.nCombinedSet = (g.first "ncombined").isSome
  outputRoot : o.outputRoot = (g.first "output").getD "mcmc_out".toList
  append : o.append = g.has "append"
  nChains : o.nChains = ((g.first "nchains").map wholeVal).getD (-1)
  maxEvals : o.maxEvals = ((g.first "max-chain-length").map wholeVal).getD 100000
  nBurnIn : o.nBurnIn = ((g.first "burnin-length").map wholeVal).getD 5000
  nGelmanEvals : o.nGelmanEvals = ((g.first "gelman-evals").map wholeVal).getD 5000
  limit : o.limit = ((g.first "gelman-rubin-limit").map num).getD (lit (1 + 1 / 100))
  noise : o.noise = ((g.first "uniform-offset").map num).getD (lit (1 / 100))
  bstar : o.bstar = ((g.first "gaussian-offset").map num).getD (lit (1 / 10 ^ 6))
  maxThreads : o.base.maxThreads = ((g.first "max-threads").map wholeVal).getD cores
  seed : o.base.seed = ((g.first "seed").map wholeVal).getD 0

end Imfit.Spec
