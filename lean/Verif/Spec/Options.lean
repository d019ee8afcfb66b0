import Verif.Spec.CmdLine
import Verif.Model.Options

/-!
# Specification of the options of `imfit`

What is given on a command line are flags, values of options, and other arguments. `ObeysCmd` says, setting by setting, what they mean.
-/

namespace Imfit.Spec

variable {α : Type}

/-- What a command line gives. -/
structure CmdGiven where
  flag : Str → Bool
  values : Str → List Str
  args : List Str

/-- What the events of a command line give. -/
def cmdGiven (ds : List Decl) (es : List Ev) : CmdGiven where
  flag n := (owner ds n).any fun i => decide (Ev.flag i ∈ es)
  values n := ((owner ds n).map fun i => valuesOf i es).getD []
  args := argsOf es

/-- The flag `--n` is given. -/
def CmdGiven.has (g : CmdGiven) (n : String) : Bool := g.flag n.toList

/-- The value that counts is the first one. -/
def CmdGiven.first (g : CmdGiven) (n : String) : Option Str := (g.values n.toList).head?

/-- All values. -/
def CmdGiven.every (g : CmdGiven) (n : String) : List Str := g.values n.toList

def flagDecl (n : String) : Decl := ⟨true, false, [n.toList]⟩
def optDecl (n : String) : Decl := ⟨false, false, [n.toList]⟩
def listDecl (n : String) : Decl := ⟨false, true, [n.toList]⟩

/-- The flags and options of `imfit`. -/
def imfitDecls : List Decl :=
  [⟨true, false, ["help".toList, "h".toList]⟩, ⟨true, false, ["version".toList, "v".toList]⟩] ++
  ["list-functions", "list-parameters", "sample-config", "printimage", "chisquare-only", "fitstat-only", "errors-are-variances", "errors-are-weights", "mask-zero-is-bad",
    "no-normalize", "no-subsampling", "model-errors", "cashstat", "poisson-mlr", "mlr", "nm"].map flagDecl ++
  [optDecl "nlopt"] ++ ["de", "de-lhs", "quiet", "silent", "loud"].map flagDecl ++ ["noise", "mask", "psf"].map optDecl ++
  ["overpsf", "overpsf_scale", "overpsf_region"].map listDecl ++
  ["save-params", "save-model", "save-residual", "save-weights", "sky", "gain", "readnoise", "exptime", "ncombined", "ftol", "bootstrap", "save-bootstrap"].map optDecl ++
  [⟨false, false, ["config".toList, "c".toList]⟩] ++ ["max-threads", "seed"].map optDecl

/-! ## Numbers -/

/-- A numeral between 1 and `m`. -/
def IsWhole (m : Nat) (t : Str) : Prop := ∃ n : Nat, 1 ≤ n ∧ n ≤ m ∧ t = (Nat.repr n).toList

/-- The value of a numeral. -/
def wholeVal (t : Str) : Int := (Nat.ofDigitChars 10 t 0 : Nat)

def Digits (t : Str) : Prop := ∀ c ∈ t, c.isDigit = true

/-- `e5`, `E-3` or nothing. -/
def IsExponent (t : Str) : Prop := t = [] ∨ ∃ e s d, t = e :: s ++ d ∧ (e = 'e' ∨ e = 'E') ∧ (s = [] ∨ s = ['-'] ∨ s = ['+']) ∧ d ≠ [] ∧ Digits d

/-- A real number without a sign. -/
def IsUnsigned (t : Str) : Prop :=
  ∃ a b e, t = a ++ b ++ e ∧ Digits a ∧ (b = [] ∧ a ≠ [] ∨ ∃ d, b = '.' :: d ∧ Digits d ∧ (a ≠ [] ∨ d ≠ [])) ∧ IsExponent e

/-- A real number. -/
def IsReal (t : Str) : Prop := IsUnsigned t ∨ ∃ u, t = '-' :: u ∧ IsUnsigned u

/-- The values are numbers where numbers are wanted. -/
structure WellFormed (g : CmdGiven) : Prop where
  nlopt : ∀ t ∈ g.first "nlopt", t ∈ ["COBYLA", "BOBYQA", "NEWUOA", "PRAXIS", "NM", "SBPLX"].map String.toList
  sky : ∀ t ∈ g.first "sky", IsReal t
  gain : ∀ t ∈ g.first "gain", IsUnsigned t
  readnoise : ∀ t ∈ g.first "readnoise", IsUnsigned t
  exptime : ∀ t ∈ g.first "exptime", IsUnsigned t
  ftol : ∀ t ∈ g.first "ftol", IsUnsigned t
  ncombined : ∀ t ∈ g.first "ncombined", IsWhole 2147483647 t
  bootstrap : ∀ t ∈ g.first "bootstrap", IsWhole 2147483647 t
  threads : ∀ t ∈ g.first "max-threads", IsWhole 2147483647 t
  seed : ∀ t ∈ g.first "seed", IsWhole 9223372036854775807 t
  scales : ∀ t ∈ g.every "overpsf_scale", IsWhole 2147483647 t

/-- Nothing asks for a mere message. -/
def Working (g : CmdGiven) : Prop := ∀ n ∈ ["help", "version", "list-functions", "list-parameters", "sample-config"], g.has n = false

/-- The settings are those that were asked for, and the defaults elsewhere. -/
structure ObeysCmd [FP α] (num : Str → α) (cores : Int) (g : CmdGiven) (o : ImfitOpts α) : Prop where
  image : o.image = g.args.head?
  printImages : o.printImages = g.has "printimage"
  statOnly : o.statOnly = (g.has "chisquare-only" || g.has "fitstat-only")
  modelErrors : o.modelErrors = g.has "model-errors"
  cash : o.cash = g.has "cashstat"
  mlr : o.mlr = (g.has "poisson-mlr" || g.has "mlr")
  solver : o.solver = if g.has "de" || g.has "de-lhs" then 2 else if (g.first "nlopt").isSome then 5 else if g.has "nm" then 3 else 1
  nloptName : o.nloptName = (g.first "nlopt").getD "NM".toList
  useLHS : o.useLHS = g.has "de-lhs"
  normalizePSF : o.normalizePSF = !g.has "no-normalize"
  subsampling : o.subsampling = !g.has "no-subsampling"
  verbose : o.verbose = if g.has "loud" then 2 else if g.has "quiet" then 0 else if g.has "silent" then -1 else 1
  errorType : o.errorType = if g.has "errors-are-weights" then WEIGHTS_ARE_WEIGHTS else if g.has "errors-are-variances" then WEIGHTS_ARE_VARIANCES else WEIGHTS_ARE_SIGMAS
  maskFormat : o.maskFormat = if g.has "mask-zero-is-bad" then MASK_ZERO_IS_BAD else MASK_ZERO_IS_GOOD
  configFile : o.configFile = (g.first "config").getD "imfit_config.dat".toList
  noise : o.noise = g.first "noise"
  psf : o.psf = g.first "psf"
  overPsfs : o.overPsfs = if g.every "overpsf" = [] then none else some (g.every "overpsf")
  overScales : o.overScales = (g.every "overpsf_scale").map wholeVal
  overRegions : o.overRegions = g.every "overpsf_region"
  mask : o.mask = g.first "mask"
  saveModel : o.saveModel = g.first "save-model"
  saveResidual : o.saveResidual = g.first "save-residual"
  saveWeights : o.saveWeights = g.first "save-weights"
  saveParams : o.saveParams = (g.first "save-params").getD "bestfit_parameters_imfit.dat".toList
  sky : o.sky = ((g.first "sky").map num).getD 0 ∧ o.skySet = (g.first "sky").isSome
  gain : o.gain = ((g.first "gain").map num).getD 1 ∧ o.gainSet = (g.first "gain").isSome
  readNoise : o.readNoise = ((g.first "readnoise").map num).getD 0 ∧ o.readNoiseSet = (g.first "readnoise").isSome
  expTime : o.expTime = ((g.first "exptime").map num).getD 1 ∧ o.expTimeSet = (g.first "exptime").isSome
  nCombined : o.nCombined = ((g.first "ncombined").map wholeVal).getD 1 ∧ o.nCombinedSet = (g.first "ncombined").isSome
  ftol : o.ftol = ((g.first "ftol").map num).getD (lit (1 / 10 ^ 8))
  bootstrap : o.bootstrap = (g.first "bootstrap").map wholeVal
  saveBootstrap : o.saveBootstrap = g.first "save-bootstrap"
  maxThreads : o.maxThreads = ((g.first "max-threads").map wholeVal).getD cores
  seed : o.seed = ((g.first "seed").map wholeVal).getD 0

end Imfit.Spec
