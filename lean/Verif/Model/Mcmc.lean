import Verif.Model.Options
import Verif.Model.Dream

/-!
# `imfit-mcmc`

Source: `core/mcmc_main.cpp`, `core/options_mcmc.h`, `core/options_base.h`.

The members of `OptionsBase` are in `base`; those of `ImfitOptions` that are not in `OptionsBase` keep their defaults there and are not used. Messages are left out; `strtod` is a
parameter.
-/

namespace Imfit

variable {α : Type}

/-- `MCMCOptions`. `core/options_mcmc.h:83-105`. -/
structure McmcOpts (α : Type) where
  base : ImfitOpts α
  append : Bool
  outputRoot : Str
  nChains : Int
  maxEvals : Int
  nBurnIn : Int
  nGelmanEvals : Int
  limit : α
  noise : α
  bstar : α

/-- The constructors, and the number of processor cores. `core/options_base.h:30-83`, `core/options_mcmc.h:23-81`, `core/mcmc_main.cpp:156-160`. -/
def defaultMcmc [FP α] (cores : Int) : McmcOpts α where
  base := defaultOpts cores
  append := false
  outputRoot := "mcmc_out".toList
  nChains := -1
  maxEvals := 100000
  nBurnIn := 5000
  nGelmanEvals := 5000
  limit := lit (101 / 100)
  noise := lit (1 / 100)
  bstar := lit (1 / 1000000)

/-- Flags. `core/mcmc_main.cpp:555-571`. -/
def mcmcFlags : List (List Str) :=
  [["help".toList, "h".toList], ["version".toList, "v".toList], ["list-functions".toList], ["list-parameters".toList], ["sample-config".toList], ["errors-are-variances".toList],
    ["errors-are-weights".toList], ["mask-zero-is-bad".toList], ["no-normalize".toList], ["no-subsampling".toList], ["model-errors".toList], ["cashstat".toList], ["poisson-mlr".toList],
    ["mlr".toList], ["quiet".toList], ["silent".toList], ["loud".toList]]

/-- The parser of `imfit-mcmc`. `core/mcmc_main.cpp:554-598`. -/
def mcmcParser : CLine :=
  let p := mcmcFlags.foldl CLine.addFlag CLine.new
  let p := [["noise".toList], ["mask".toList], ["psf".toList]].foldl CLine.addOption p
  let p := [["overpsf".toList], ["overpsf_scale".toList], ["overpsf_region".toList]].foldl CLine.addQueueOption p
  let p := [["sky".toList], ["gain".toList], ["readnoise".toList], ["exptime".toList], ["ncombined".toList], ["config".toList, "c".toList], ["output".toList, "o".toList]].foldl CLine.addOption p
  let p := p.addFlag ["append".toList]
  let p := [["nchains".toList], ["max-chain-length".toList], ["burnin-length".toList], ["gelman-evals".toList], ["gelman-rubin-limit".toList], ["uniform-offset".toList],
    ["gaussian-offset".toList], ["max-threads".toList], ["seed".toList]].foldl CLine.addOption p
  p.strict

/-- The blocks of `ProcessInput` after parsing, in the order of the source. `core/mcmc_main.cpp:609-873`. -/
def mcmcSteps (num : Str → α) (p : CLine) : List (McmcOpts α → Res (McmcOpts α)) :=
  [(fun o => if 0 < p.args.length then do let a ← p.argument 0; .ok { o with base.image := some a } else .ok o),
    exitFlag p "help".toList,
    (fun o => if p.empty then .error .exit else .ok o),
    exitFlag p "version".toList,
    exitFlag p "list-functions".toList,
    exitFlag p "list-parameters".toList,
    exitFlag p "sample-config".toList,
    onFlag p "model-errors".toList fun o => { o with base.modelErrors := true },
    onFlag p "cashstat".toList fun o => { o with base.cash := true },
    onFlag p "poisson-mlr".toList fun o => { o with base.mlr := true },
    onFlag p "mlr".toList fun o => { o with base.mlr := true },
    onFlag p "no-normalize".toList fun o => { o with base.normalizePSF := false },
    onFlag p "no-subsampling".toList fun o => { o with base.subsampling := false },
    onFlag p "silent".toList fun o => { o with base.verbose := -1 },
    onFlag p "quiet".toList fun o => { o with base.verbose := 0 },
    onFlag p "loud".toList fun o => { o with base.verbose := 2 },
    onFlag p "errors-are-variances".toList fun o => { o with base.errorType := WEIGHTS_ARE_VARIANCES },
    onFlag p "errors-are-weights".toList fun o => { o with base.errorType := WEIGHTS_ARE_WEIGHTS },
    onFlag p "mask-zero-is-bad".toList fun o => { o with base.maskFormat := MASK_ZERO_IS_BAD },
    onOption p "config".toList fun t => .ok fun o => { o with base.configFile := t },
    onOption p "noise".toList fun t => .ok fun o => { o with base.noise := some t },
    onOption p "psf".toList fun t => .ok fun o => { o with base.psf := some t },
    onQueue p "overpsf".toList fun ts => .ok fun o => { o with base.overPsfs := some ts },
    onQueue p "overpsf_scale".toList fun ts => do let zs ← readScales ts; .ok fun o => { o with base.overScales := zs },
    onQueue p "overpsf_region".toList fun ts => .ok fun o => { o with base.overRegions := ts },
    onOption p "mask".toList fun t => .ok fun o => { o with base.mask := some t },
    onOption p "sky".toList (asReal num .anyReal fun x o => { o with base.sky := x, base.skySet := true }),
    onOption p "gain".toList (asReal num .posReal fun x o => { o with base.gain := x, base.gainSet := true }),
    onOption p "readnoise".toList (asReal num .posReal fun x o => { o with base.readNoise := x, base.readNoiseSet := true }),
    onOption p "exptime".toList (asReal num .posReal fun x o => { o with base.expTime := x, base.expTimeSet := true }),
    onOption p "ncombined".toList (asInt .posInt fun z o => { o with base.nCombined := z, base.nCombinedSet := true }),
    onOption p "output".toList fun t => .ok fun o => { o with outputRoot := t },
    onFlag p "append".toList fun o => { o with append := true },
    onOption p "nchains".toList (asLong .posInt fun z o => { o with nChains := longToInt z }),
    onOption p "max-chain-length".toList (asLong .posInt fun z o => { o with maxEvals := longToInt z }),
    onOption p "burnin-length".toList (asLong .posInt fun z o => { o with nBurnIn := longToInt z }),
    onOption p "gelman-evals".toList (asLong .posInt fun z o => { o with nGelmanEvals := longToInt z }),
    onOption p "gelman-rubin-limit".toList (asReal num .posReal fun x o => { o with limit := x }),
    onOption p "uniform-offset".toList (asReal num .posReal fun x o => { o with noise := x }),
    onOption p "gaussian-offset".toList (asReal num .posReal fun x o => { o with bstar := x }),
    onOption p "max-threads".toList (asLong .posInt fun z o => { o with base.maxThreads := longToInt z }),
    onOption p "seed".toList (asLong .posInt fun z o => { o with base.seed := z })]

/-- `ProcessInput`. `core/mcmc_main.cpp:486-877`. -/
def mcmcInput [FP α] (num : Str → α) (cores : Int) (argv : List Str) : Res (McmcOpts α) := do
  let r ← parseCommandLine mcmcParser argv
  if r.1 < 0 then .error .exit else (mcmcSteps num r.2).foldlM (fun o s => s o) (defaultMcmc cores)

/-- `HandleConfigFileOptions`, which has the text of that of `imfit`. `core/mcmc_main.cpp:927-993`. -/
def mcmcConfig (num : Str → α) (opts : List (Str × Str)) (o : McmcOpts α) : Res (McmcOpts α) := do
  let b ← configOptions num opts o.base
  .ok { o with base := b }

/-- The statistic that `SetupModelObject` chooses, from the members of `OptionsBase`. `core/mcmc_main.cpp:241-242`, `core/setup_model_object.cpp:115-155`. -/
def mcmcStat (o : McmcOpts α) : Res StatChoice := chooseStat o.base

/-- A parameter of the model: `limits` and `limited` after the shift by the offset of the image section. -/
structure McmcParam (α : Type) where
  fixed : Bool
  value : α
  limited : Bool × Bool
  lo : α
  hi : α

/-- From the options and parameters to the settings of DREAM. A free parameter without two limits ends the program. The seed is `none` if the clock is used.
`core/mcmc_main.cpp:284-295, 358-416, 437-441`. -/
def mcmcSettings [FP α] (params : List (McmcParam α)) (o : McmcOpts α) : Res (DreamCfg α × Option Int) :=
  if params.any fun p => !p.fixed && (!p.limited.1 || !p.limited.2) then .error .exit
  else .ok (mcmcCfg (params.map fun p => (p.fixed, p.value, p.lo, p.hi)) o.append o.nChains.toNat o.maxEvals.toNat o.nBurnIn.toNat o.nGelmanEvals.toNat o.limit o.noise o.bstar,
    if 0 < o.base.seed then some o.base.seed else none)

end Imfit
