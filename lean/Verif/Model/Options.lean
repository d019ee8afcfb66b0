import Verif.Model.CmdLine
import Verif.Model.Config
import Verif.Model.Fit
import Verif.Model.Nlopt

/-!
# Options of `imfit`

Source: `ProcessInput` and `HandleConfigFileOptions` of `core/imfit_main.cpp`, `core/options_base.h`, `core/options_imfit.h`, `NotANumber` of `core/utilities.cpp`,
`ValidNLOptSolverName` of `solvers/nlopt_fit.cpp`, `GetPhysicalCoreCount` of `core/count_cpu_cores.cpp` (Linux) and the choice of the fit statistic in
`core/setup_model_object.cpp`.

Messages are left out. A file name and the flag that tells that there is one are a single `Option`. `strtod` is a parameter. The code is that with NLopt.
-/

namespace Imfit

variable {α : Type}

/-! ## Numbers on the command line -/

/-- Restrictions of `NotANumber`. `core/utilities_pub.h:18-22`. -/
inductive NumKind
  | anyInt
  | nonzeroInt
  | posInt
  | anyReal
  | posReal
  deriving DecidableEq

/-- `NotANumber(s, 0, kind)`. `core/utilities.cpp:564-611`. The character behind the last one is NUL, which is no digit. -/
def notANumber : NumKind → Str → Bool
  | _, [] => true
  | .anyInt, c :: s => if c = '-' then notANumber .anyInt s else !c.isDigit
  | .nonzeroInt, c :: _ => if c = '-' then false else !c.isDigit
  | .posInt, c :: _ => !(c.isDigit && c != '0')
  | .anyReal, c :: s => if c = '-' then notANumber .anyReal s else if c = '.' then notANumber .anyInt s else !c.isDigit
  | .posReal, c :: s => if c = '-' then true else if c = '.' then notANumber .anyInt s else !c.isDigit

/-- C `atol` with 64 bits. -/
def atol (s : Str) : Res Int :=
  let t := signSplit (s.dropWhile isSpaceC)
  let v := digitsVal 0 (t.2.takeWhile Char.isDigit)
  let z : Int := if t.1 then -(v : Int) else v
  if -9223372036854775808 ≤ z ∧ z ≤ 9223372036854775807 then .ok z else .error .overflow

/-- Conversion of a `long` to `int`. -/
def longToInt (z : Int) : Int := Int.bmod z (2 ^ 32)

/-! ## The options -/

def MPFIT_SOLVER : Int := 1
def DIFF_EVOLN_SOLVER : Int := 2
def NMSIMPLEX_SOLVER : Int := 3
def GENERIC_NLOPT_SOLVER : Int := 5

/-- `ImfitOptions`. `core/options_base.h:92-150`, `core/options_imfit.h:59-94`. -/
structure ImfitOpts (α : Type) where
  image : Option Str
  printImages : Bool
  statOnly : Bool
  modelErrors : Bool
  cash : Bool
  mlr : Bool
  solver : Int
  nloptName : Str
  useLHS : Bool
  normalizePSF : Bool
  subsampling : Bool
  verbose : Int
  errorType : Int
  maskFormat : Int
  configFile : Str
  noise : Option Str
  psf : Option Str
  overPsfs : Option (List Str)
  overScales : List Int
  overRegions : List Str
  mask : Option Str
  saveModel : Option Str
  saveResidual : Option Str
  saveWeights : Option Str
  saveParams : Str
  sky : α
  skySet : Bool
  gain : α
  gainSet : Bool
  readNoise : α
  readNoiseSet : Bool
  expTime : α
  expTimeSet : Bool
  nCombined : Int
  nCombinedSet : Bool
  ftol : α
  bootstrap : Option Int
  saveBootstrap : Option Str
  maxThreads : Int
  seed : Int

/-- The constructors, and the number of processor cores. `core/options_base.h:30-83`, `core/options_imfit.h:22-56`, `core/imfit_main.cpp:165-170`. -/
def defaultOpts [FP α] (cores : Int) : ImfitOpts α where
  image := none
  printImages := false
  statOnly := false
  modelErrors := false
  cash := false
  mlr := false
  solver := MPFIT_SOLVER
  nloptName := "NM".toList
  useLHS := false
  normalizePSF := true
  subsampling := true
  verbose := 1
  errorType := WEIGHTS_ARE_SIGMAS
  maskFormat := MASK_ZERO_IS_GOOD
  configFile := "imfit_config.dat".toList
  noise := none
  psf := none
  overPsfs := none
  overScales := []
  overRegions := []
  mask := none
  saveModel := none
  saveResidual := none
  saveWeights := none
  saveParams := "bestfit_parameters_imfit.dat".toList
  sky := 0
  skySet := false
  gain := 1
  gainSet := false
  readNoise := 0
  readNoiseSet := false
  expTime := 1
  expTimeSet := false
  nCombined := 1
  nCombinedSet := false
  ftol := lit (1 / 100000000)
  bootstrap := none
  saveBootstrap := none
  maxThreads := cores
  seed := 0

/-- Flags. `core/imfit_main.cpp:605-632`. -/
def imfitFlags1 : List (List Str) :=
  [["help".toList, "h".toList], ["version".toList, "v".toList], ["list-functions".toList], ["list-parameters".toList], ["sample-config".toList], ["printimage".toList],
    ["chisquare-only".toList], ["fitstat-only".toList], ["errors-are-variances".toList], ["errors-are-weights".toList], ["mask-zero-is-bad".toList], ["no-normalize".toList],
    ["no-subsampling".toList], ["model-errors".toList], ["cashstat".toList], ["poisson-mlr".toList], ["mlr".toList], ["nm".toList]]

/-- `core/imfit_main.cpp:627-632`. -/
def imfitFlags2 : List (List Str) := [["de".toList], ["de-lhs".toList], ["quiet".toList], ["silent".toList], ["loud".toList]]

/-- Options with a value. `core/imfit_main.cpp:633-635, 639-654`. -/
def imfitOptions2 : List (List Str) :=
  [["save-params".toList], ["save-model".toList], ["save-residual".toList], ["save-weights".toList], ["sky".toList], ["gain".toList], ["readnoise".toList], ["exptime".toList],
    ["ncombined".toList], ["ftol".toList], ["bootstrap".toList], ["save-bootstrap".toList], ["config".toList, "c".toList], ["max-threads".toList], ["seed".toList]]

/-- The parser of `imfit`. `core/imfit_main.cpp:605-659`. -/
def imfitParser : CLine :=
  let p := imfitFlags1.foldl CLine.addFlag CLine.new
  let p := p.addOption ["nlopt".toList]
  let p := imfitFlags2.foldl CLine.addFlag p
  let p := [["noise".toList], ["mask".toList], ["psf".toList]].foldl CLine.addOption p
  let p := [["overpsf".toList], ["overpsf_scale".toList], ["overpsf_region".toList]].foldl CLine.addQueueOption p
  let p := imfitOptions2.foldl CLine.addOption p
  p.strict

/-- `if (FlagSet(n)) ...`. The options are of the type `σ`. -/
def onFlag {σ : Type} (p : CLine) (n : Str) (f : σ → σ) (o : σ) : Res (σ) := do
  let b ← p.flagSet n
  if b then .ok (f o) else .ok o

/-- `GetTargetString(n)`, which has the index 0 as default. -/
def firstTarget (p : CLine) (n : Str) : Res Str := do
  let t ← p.target n 0
  pure (t.getD "<INTERNAL ERROR>".toList)

/-- `if (OptionSet(n)) ... GetTargetString(n) ...`. -/
def onOption {σ : Type} (p : CLine) (n : Str) (f : Str → Res (σ → σ)) (o : σ) : Res (σ) := do
  let b ← p.optionSet n
  if b then do
    let t ← firstTarget p n
    let g ← f t
    .ok (g o)
  else .ok o

/-- Flags that end the program. -/
def exitFlag {σ : Type} (p : CLine) (n : Str) (o : σ) : Res (σ) := do
  let b ← p.flagSet n
  if b then .error .exit else .ok o

/-- All values of an option that can be given several times. -/
def allTargets (p : CLine) (n : Str) : Res (List Str) := do
  let k ← p.nTargets n
  loopMap k fun i => do
    let t ← p.target n i
    pure (t.getD "<INTERNAL ERROR>".toList)

/-- The same with `if (OptionSet(n))`. -/
def onQueue {σ : Type} (p : CLine) (n : Str) (f : List Str → Res (σ → σ)) (o : σ) : Res (σ) := do
  let b ← p.optionSet n
  if b then do
    let t ← allTargets p n
    let g ← f t
    .ok (g o)
  else .ok o

/-- A value that is a number of the given kind, or the end of the program. -/
def asReal {σ : Type} (num : Str → α) (k : NumKind) (set : α → σ → σ) (t : Str) : Res (σ → σ) :=
  if notANumber k t then .error .exit else .ok (set (num t))

/-- The same for integers read by `atoi`. -/
def asInt {σ : Type} (k : NumKind) (set : Int → σ → σ) (t : Str) : Res (σ → σ) :=
  if notANumber k t then .error .exit else do
    let z ← atoi t
    .ok (set z)

/-- The same for integers read by `atol`. -/
def asLong {σ : Type} (k : NumKind) (set : Int → σ → σ) (t : Str) : Res (σ → σ) :=
  if notANumber k t then .error .exit else do
    let z ← atol t
    .ok (set z)

/-- `overpsf_scale`: every value is checked and read in turn. `core/imfit_main.cpp:815-826`. -/
def readScales : List Str → Res (List Int)
  | [] => .ok []
  | t :: ts =>
    if notANumber .posInt t then .error .exit
    else do
      let z ← atoi t
      let zs ← readScales ts
      .ok (z :: zs)

/-- The blocks of `ProcessInput` after parsing, in the order of the source. `core/imfit_main.cpp:670-974`. -/
def inputSteps (num : Str → α) (p : CLine) : List (ImfitOpts α → Res (ImfitOpts α)) :=
  [(fun o => if 0 < p.args.length then do let a ← p.argument 0; .ok { o with image := some a } else .ok o),
    exitFlag p "help".toList,
    (fun o => if p.empty then .error .exit else .ok o),
    exitFlag p "version".toList,
    exitFlag p "list-functions".toList,
    exitFlag p "list-parameters".toList,
    exitFlag p "sample-config".toList,
    onFlag p "printimage".toList fun o => { o with printImages := true },
    onFlag p "chisquare-only".toList fun o => { o with statOnly := true },
    onFlag p "fitstat-only".toList fun o => { o with statOnly := true },
    onFlag p "model-errors".toList fun o => { o with modelErrors := true },
    onFlag p "cashstat".toList fun o => { o with cash := true },
    onFlag p "poisson-mlr".toList fun o => { o with mlr := true },
    onFlag p "mlr".toList fun o => { o with mlr := true },
    onFlag p "nm".toList fun o => { o with solver := NMSIMPLEX_SOLVER },
    onOption p "nlopt".toList fun t => if validNLOptSolverName t then .ok fun o => { o with solver := GENERIC_NLOPT_SOLVER, nloptName := t } else .error .exit,
    onFlag p "de".toList fun o => { o with solver := DIFF_EVOLN_SOLVER },
    onFlag p "de-lhs".toList fun o => { o with solver := DIFF_EVOLN_SOLVER, useLHS := true },
    onFlag p "no-normalize".toList fun o => { o with normalizePSF := false },
    onFlag p "no-subsampling".toList fun o => { o with subsampling := false },
    onFlag p "silent".toList fun o => { o with verbose := -1 },
    onFlag p "quiet".toList fun o => { o with verbose := 0 },
    onFlag p "loud".toList fun o => { o with verbose := 2 },
    onFlag p "errors-are-variances".toList fun o => { o with errorType := WEIGHTS_ARE_VARIANCES },
    onFlag p "errors-are-weights".toList fun o => { o with errorType := WEIGHTS_ARE_WEIGHTS },
    onFlag p "mask-zero-is-bad".toList fun o => { o with maskFormat := MASK_ZERO_IS_BAD },
    onOption p "config".toList fun t => .ok fun o => { o with configFile := t },
    onOption p "noise".toList fun t => .ok fun o => { o with noise := some t },
    onOption p "psf".toList fun t => .ok fun o => { o with psf := some t },
    onQueue p "overpsf".toList fun ts => .ok fun o => { o with overPsfs := some ts },
    onQueue p "overpsf_scale".toList fun ts => do let zs ← readScales ts; .ok fun o => { o with overScales := zs },
    onQueue p "overpsf_region".toList fun ts => .ok fun o => { o with overRegions := ts },
    onOption p "mask".toList fun t => .ok fun o => { o with mask := some t },
    onOption p "save-model".toList fun t => .ok fun o => { o with saveModel := some t },
    onOption p "save-residual".toList fun t => .ok fun o => { o with saveResidual := some t },
    onOption p "save-weights".toList fun t => .ok fun o => { o with saveWeights := some t },
    onOption p "save-params".toList fun t => .ok fun o => { o with saveParams := t },
    onOption p "sky".toList (asReal num .anyReal fun x o => { o with sky := x, skySet := true }),
    onOption p "gain".toList (asReal num .posReal fun x o => { o with gain := x, gainSet := true }),
    onOption p "readnoise".toList (asReal num .posReal fun x o => { o with readNoise := x, readNoiseSet := true }),
    onOption p "exptime".toList (asReal num .posReal fun x o => { o with expTime := x, expTimeSet := true }),
    onOption p "ncombined".toList (asInt .posInt fun z o => { o with nCombined := z, nCombinedSet := true }),
    onOption p "ftol".toList (asReal num .posReal fun x o => { o with ftol := x }),
    onOption p "bootstrap".toList (asLong .posInt fun z o => { o with bootstrap := some (longToInt z) }),
    onOption p "save-bootstrap".toList fun t => .ok fun o => { o with saveBootstrap := some t },
    onOption p "max-threads".toList (asLong .posInt fun z o => { o with maxThreads := longToInt z }),
    onOption p "seed".toList (asLong .posInt fun z o => { o with seed := z })]

/-- `ProcessInput`. `core/imfit_main.cpp:527-977`. -/
def processInput [FP α] (num : Str → α) (cores : Int) (argv : List Str) : Res (ImfitOpts α) := do
  let r ← parseCommandLine imfitParser argv
  if r.1 < 0 then .error .exit else (inputSteps num r.2).foldlM (fun o s => s o) (defaultOpts cores)

/-! ## Options in the configuration file -/

/-- One turn of `HandleConfigFileOptions`. `core/imfit_main.cpp:1008-1059`. -/
def configOption (num : Str → α) (o : ImfitOpts α) (kv : Str × Str) : Res (ImfitOpts α) :=
  if kv.1 = "GAIN".toList then .ok (if o.gainSet then o else { o with gain := num kv.2 })
  else if kv.1 = "READNOISE".toList then .ok (if o.readNoiseSet then o else { o with readNoise := num kv.2 })
  else if kv.1 = "EXPTIME".toList then .ok (if o.expTimeSet then o else { o with expTime := num kv.2 })
  else if kv.1 = "ORIGINAL_SKY".toList then .ok (if o.skySet then o else { o with sky := num kv.2 })
  else if kv.1 = "NCOMBINED".toList then
    if o.nCombinedSet then .ok o
    else do
      let z ← atoi kv.2
      .ok { o with nCombined := z }
  else .ok o

/-- `HandleConfigFileOptions`. `core/imfit_main.cpp:995-1061`. -/
def configOptions (num : Str → α) (opts : List (Str × Str)) (o : ImfitOpts α) : Res (ImfitOpts α) := opts.foldlM (configOption num) o

/-! ## Threads and the fit statistic -/

/-- The lines of `/proc/cpuinfo` that are looked at: not empty, and no comments. `core/count_cpu_cores.cpp:61-65`. -/
def cpuLine (l : Str) : Bool := l ≠ [] && l.head? ≠ some '#'

/-- The number after "cpu cores", from the last such line. `core/count_cpu_cores.cpp:68-79`. -/
def coresStep (s : List Str × Int) (l : Str) : Res (List Str × Int) :=
  if hasSub "physical id".toList l then .ok (if l ∈ s.1 then s else (l :: s.1, s.2))
  else if hasSub "cpu cores".toList l then do
    let tokens ← splitString l isBlank
    let t ← rdI tokens ((tokens.length : Int) - 1)
    let z ← atol t
    .ok (s.1, longToInt z)
  else .ok s

/-- `GetPhysicalCoreCount` (Linux); a file that cannot be opened has no lines. `core/count_cpu_cores.cpp:45-83`. -/
def physicalCores (lines : List Str) : Res Int := do
  let s ← (lines.filter cpuLine).foldlM coresStep ([], 0)
  let z := (s.1.length : Int) * s.2
  if -2147483648 ≤ z ∧ z ≤ 2147483647 then .ok z else .error .overflow

/-- `SetMaxThreads`, called by `SetupModelObject` (`imfit` has always set `maxThreadsSet`). `core/model_object.cpp:258-265`, `core/setup_model_object.cpp:51-52`. -/
def setMaxThreads (n : Int) : Res Int := if 1 ≤ n then .ok n else .error .assert

/-- The choice of the fit statistic. `core/setup_model_object.cpp:120-157`. -/
def chooseStat (o : ImfitOpts α) : Res StatChoice :=
  if o.cash then if o.solver = MPFIT_SOLVER ∧ o.statOnly = false then .error .exit else .ok .cash
  else if o.mlr then .ok .poissonMLR
  else if o.noise.isSome then .ok (.chi2User o.errorType)
  else if o.modelErrors then .ok .chi2Model
  else .ok .chi2Data

end Imfit
