import Verif.Spec.Options
import Verif.Model.Multimfit

/-!
# Specification of `multimfit`
-/

namespace Imfit.Spec

variable {α : Type}

/-- The flags and options of `multimfit`. -/
def multDecls : List Decl :=
  [⟨true, false, ["help".toList, "h".toList]⟩, ⟨true, false, ["version".toList, "v".toList]⟩] ++
  ["list-functions", "list-parameters", "sample-config", "printimage", "chisquare-only", "fitstat-only", "errors-are-variances", "errors-are-weights", "mask-zero-is-bad",
    "nosubsampling", "model-errors", "cashstat", "poisson-mlr", "mlr", "nm"].map flagDecl ++
  [optDecl "nlopt"] ++ ["de", "quiet", "silent", "loud", "logging"].map flagDecl ++
  ["save-params-root", "save-model", "save-residual", "save-weights", "ftol", "bootstrap", "save-bootstrap"].map optDecl ++
  [⟨false, false, ["config".toList, "c".toList]⟩, ⟨false, false, ["image-info".toList, "i".toList]⟩] ++ ["max-threads", "seed"].map optDecl

/-- The values are numbers where numbers are wanted. -/
structure MultWellFormed (g : CmdGiven) : Prop where
  nlopt : ∀ t ∈ g.first "nlopt", t ∈ ["COBYLA", "BOBYQA", "NEWUOA", "PRAXIS", "NM", "SBPLX"].map String.toList
  ftol : ∀ t ∈ g.first "ftol", IsUnsigned t
  bootstrap : ∀ t ∈ g.first "bootstrap", IsWhole 2147483647 t
  threads : ∀ t ∈ g.first "max-threads", IsWhole 2147483647 t
  seed : ∀ t ∈ g.first "seed", IsWhole 9223372036854775807 t

/-- The settings are those that were asked for, and the defaults elsewhere. The three settings of the statistic have no default (`none`). -/
structure ObeysMult [FP α] (num : Str → α) (g : CmdGiven) (o : MultOpts α) : Prop where
  printImages : o.printImages = g.has "printimage"
  statOnly : o.statOnly = (g.has "chisquare-only" || g.has "fitstat-only")
  modelErrors : o.modelErrors = if g.has "model-errors" then some true else none
  cash : o.cash = if g.has "cashstat" then some true else none
  mlr : o.mlr = if g.has "poisson-mlr" || g.has "mlr" then some true else none
  solver : o.solver = if g.has "de" then 2 else if (g.first "nlopt").isSome then 5 else if g.has "nm" then 3 else 1
  nloptName : o.nloptName = (g.first "nlopt").getD "NM".toList
  subsampling : o.subsampling = !g.has "nosubsampling"
  verbose : o.verbose = if g.has "loud" then 2 else if g.has "quiet" then 0 else if g.has "silent" then -1 else 1
  logging : o.logging = g.has "logging"
  errorType : o.errorType = if g.has "errors-are-weights" then WEIGHTS_ARE_WEIGHTS else if g.has "errors-are-variances" then WEIGHTS_ARE_VARIANCES else WEIGHTS_ARE_SIGMAS
  maskFormat : o.maskFormat = if g.has "mask-zero-is-bad" then MASK_ZERO_IS_BAD else MASK_ZERO_IS_GOOD
  configFile : o.configFile = (g.first "config").getD "imfit_config.dat".toList
  imageInfo : o.imageInfo = g.first "image-info"
  saveModel : o.saveModel = g.first "save-model"
  saveResidual : o.saveResidual = g.first "save-residual"
  saveWeights : o.saveWeights = g.first "save-weights"
  paramsRoot : o.paramsRoot = (g.first "save-params-root").getD "bestfit_parameters_multimfit".toList
  ftol : o.ftol = ((g.first "ftol").map num).getD (lit (1 / 10 ^ 8))
  bootstrap : o.bootstrap = (g.first "bootstrap").map wholeVal
  saveBootstrap : o.saveBootstrap = g.first "save-bootstrap"
  maxThreads : o.maxThreads = (g.first "max-threads").map wholeVal
  seed : o.seed = ((g.first "seed").map wholeVal).getD 0

/-- What the user can know of the statistic: Cash, Poisson MLR, or χ² with the errors of the image, of the model or of the data. `c`, `m` and `e` say whether Cash statistic, Poisson MLR
and model errors are in use. -/
def statOf (c m e : Bool) (i : ImgInfo α) : StatChoice :=
  if c then .cash else if m then .poissonMLR else
    match i.err, i.errType with
    | some _, 0 => .chi2User 100
    | some _, 1 => .chi2User 110
    | some _, _ => .chi2User 120
    | none, _ => if e then .chi2Model else .chi2Data

/-- The model object of an image has the data, PSF, mask, noise and characteristics of this image, with the formats of the image-info file. -/
structure FromImage (i : ImgInfo α) (threads : Option Int) (c m e : Bool) (s : ObjSetup α) : Prop where
  threads : s.threads = threads
  data : s.data = i.data
  psf : s.psf = i.psf.map fun n => (n, true)
  gain : s.gain = i.gain
  readNoise : s.readNoise = i.readNoise
  expTime : s.expTime = i.expTime
  sky : s.sky = i.originalSky
  nCombined : s.nCombined = i.nCombined
  mask : s.mask = i.mask.map fun n => (n, if i.maskGood then 10 else 20)
  stat : s.stat = statOf c m e i
  noise : s.noise = if c || m then none else i.err

end Imfit.Spec
