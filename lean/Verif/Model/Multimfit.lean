import Verif.Model.Options
import Verif.Model.ImageInfo
import Verif.Model.OsPsf

/-!
# `multimfit`: the options, what the model objects of the images are given, and the files that are written

Source: `core/multimfit_main.cpp`, `core/options_multimfit.h`, `core/options_base.h`, `core/setup_model_object.cpp`, `core/print_results_multi.cpp` 53-141.

`OptionsBase` and `MultimfitOptions` do not give values to `useModelForErrors`, `useCashStatistic` and `usePoissonMLR`; `make_shared` calls the constructor, which leaves them
indeterminate. Here they are `none` until they are set, and to read `none` is a fault. Messages and times are left out; `strtod` is a parameter, and so is whether images can be read and
files can be opened. The parameters of the model and of the fit are in `Driver`.
-/

namespace Imfit

variable {α : Type}

/-- `MultimfitOptions`. `core/options_base.h:90-150`, `core/options_multimfit.h:57-89`. -/
structure MultOpts (α : Type) where
  printImages : Bool
  statOnly : Bool
  modelErrors : Option Bool
  cash : Option Bool
  mlr : Option Bool
  solver : Int
  nloptName : Str
  subsampling : Bool
  verbose : Int
  logging : Bool
  errorType : Int
  maskFormat : Int
  configFile : Str
  imageInfo : Option Str
  saveModel : Option Str
  saveResidual : Option Str
  saveWeights : Option Str
  paramsRoot : Str
  ftol : α
  bootstrap : Option Int
  saveBootstrap : Option Str
  maxThreads : Option Int
  seed : Int

/-- The constructors. `core/options_base.h:30-88`, `core/options_multimfit.h:23-55`. -/
def defaultMult [FP α] : MultOpts α where
  printImages := false
  statOnly := false
  modelErrors := none
  cash := none
  mlr := none
  solver := MPFIT_SOLVER
  nloptName := "NM".toList
  subsampling := true
  verbose := 1
  logging := false
  errorType := WEIGHTS_ARE_SIGMAS
  maskFormat := MASK_ZERO_IS_GOOD
  configFile := "imfit_config.dat".toList
  imageInfo := none
  saveModel := none
  saveResidual := none
  saveWeights := none
  paramsRoot := "bestfit_parameters_multimfit".toList
  ftol := lit (1 / 100000000)
  bootstrap := none
  saveBootstrap := none
  maxThreads := none
  seed := 0

/-- Flags. `core/multimfit_main.cpp:949-964, 966`. -/
def multFlags : List (List Str) :=
  [["help".toList, "h".toList], ["version".toList, "v".toList], ["list-functions".toList], ["list-parameters".toList], ["sample-config".toList], ["printimage".toList], ["chisquare-only".toList], ["fitstat-only".toList], ["errors-are-variances".toList], ["errors-are-weights".toList], ["mask-zero-is-bad".toList], ["nosubsampling".toList], ["model-errors".toList], ["cashstat".toList], ["poisson-mlr".toList], ["mlr".toList], ["nm".toList]]

/-- The parser of `multimfit`. `core/multimfit_main.cpp:949-988`. -/
def multParser : CLine :=
  let p := multFlags.foldl CLine.addFlag CLine.new
  let p := p.addOption ["nlopt".toList]
  let p := [["de".toList], ["quiet".toList], ["silent".toList], ["loud".toList], ["logging".toList]].foldl CLine.addFlag p
  let p := [["save-params-root".toList], ["save-model".toList], ["save-residual".toList], ["save-weights".toList], ["ftol".toList], ["bootstrap".toList], ["save-bootstrap".toList],
    ["config".toList, "c".toList], ["image-info".toList, "i".toList], ["max-threads".toList], ["seed".toList]].foldl CLine.addOption p
  p.strict

/-- The blocks of `ProcessInput` after parsing, in the order of the source. `core/multimfit_main.cpp:1004-1173`. -/
def multSteps (num : Str → α) (p : CLine) : List (MultOpts α → Res (MultOpts α)) :=
  [exitFlag p "help".toList,
    (fun o => if p.empty then .error .exit else .ok o),
    exitFlag p "version".toList,
    exitFlag p "list-functions".toList,
    exitFlag p "list-parameters".toList,
    exitFlag p "sample-config".toList,
    onFlag p "printimage".toList fun o => { o with printImages := true },
    onFlag p "chisquare-only".toList fun o => { o with statOnly := true },
    onFlag p "fitstat-only".toList fun o => { o with statOnly := true },
    onFlag p "model-errors".toList fun o => { o with modelErrors := some true },
    onFlag p "cashstat".toList fun o => { o with cash := some true },
    onFlag p "poisson-mlr".toList fun o => { o with mlr := some true },
    onFlag p "mlr".toList fun o => { o with mlr := some true },
    onFlag p "nm".toList fun o => { o with solver := NMSIMPLEX_SOLVER },
    onOption p "nlopt".toList fun t => if validNLOptSolverName t then .ok fun o => { o with solver := GENERIC_NLOPT_SOLVER, nloptName := t } else .error .exit,
    onFlag p "de".toList fun o => { o with solver := DIFF_EVOLN_SOLVER },
    onFlag p "nosubsampling".toList fun o => { o with subsampling := false },
    onFlag p "silent".toList fun o => { o with verbose := -1 },
    onFlag p "quiet".toList fun o => { o with verbose := 0 },
    onFlag p "loud".toList fun o => { o with verbose := 2 },
    onFlag p "logging".toList fun o => { o with logging := true },
    onFlag p "errors-are-variances".toList fun o => { o with errorType := WEIGHTS_ARE_VARIANCES },
    onFlag p "errors-are-weights".toList fun o => { o with errorType := WEIGHTS_ARE_WEIGHTS },
    onFlag p "mask-zero-is-bad".toList fun o => { o with maskFormat := MASK_ZERO_IS_BAD },
    onOption p "config".toList fun t => .ok fun o => { o with configFile := t },
    onOption p "image-info".toList fun t => .ok fun o => { o with imageInfo := some t },
    onOption p "save-model".toList fun t => .ok fun o => { o with saveModel := some t },
    onOption p "save-residual".toList fun t => .ok fun o => { o with saveResidual := some t },
    onOption p "save-weights".toList fun t => .ok fun o => { o with saveWeights := some t },
    onOption p "save-params-root".toList fun t => .ok fun o => { o with paramsRoot := t },
    onOption p "ftol".toList (asReal num .posReal fun x o => { o with ftol := x }),
    onOption p "bootstrap".toList (asLong .posInt fun z o => { o with bootstrap := some (longToInt z) }),
    onOption p "save-bootstrap".toList fun t => .ok fun o => { o with saveBootstrap := some t },
    onOption p "max-threads".toList (asLong .posInt fun z o => { o with maxThreads := some (longToInt z) }),
    onOption p "seed".toList (asLong .posInt fun z o => { o with seed := z })]

/-- `ProcessInput`. `core/multimfit_main.cpp:877-1177`. -/
def multInput [FP α] (num : Str → α) (argv : List Str) : Res (MultOpts α) := do
  let r ← parseCommandLine multParser argv
  if r.1 < 0 then .error .exit else (multSteps num r.2).foldlM (fun o s => s o) defaultMult

/-! ## The images -/

/-- Reading a member that may be indeterminate. -/
def known {β : Type} : Option β → Res β
  | some b => .ok b
  | none => .error .uninit

/-- The members of `options` that the loop over the images overwrites. -/
structure ImageVars (α : Type) where
  maskPresent : Bool
  noisePresent : Bool
  psfPresent : Bool
  overPresent : Bool
  maskFormat : Int
  errorType : Int
  gain : α
  readNoise : α
  expTime : α
  sky : α
  nCombined : Int

/-- Their values before the loop. `core/options_base.h:36-68`. -/
def ImageVars.init [FP α] (o : MultOpts α) : ImageVars α where
  maskPresent := false
  noisePresent := false
  psfPresent := false
  overPresent := false
  maskFormat := o.maskFormat
  errorType := o.errorType
  gain := 1
  readNoise := 0
  expTime := 1
  sky := 0
  nCombined := 1

/-- What `SetupModelObject` gives to the model object of an image: names stand for the images. -/
structure ObjSetup (α : Type) where
  threads : Option Int
  data : Option Str
  /-- with the flag `normalizePSF` -/
  psf : Option (Str × Bool)
  gain : α
  readNoise : α
  expTime : α
  sky : α
  nCombined : Int
  over : List (OsPsf α) × List OsInfo
  mask : Option (Str × Int)
  stat : StatChoice
  noise : Option Str

/-- The choice of the statistic. `core/setup_model_object.cpp:115-155`. -/
def multStat (o : MultOpts α) (v : ImageVars α) : Res StatChoice := do
  let c ← known o.cash
  if c then if o.solver = MPFIT_SOLVER ∧ o.statOnly = false then .error .exit else .ok .cash
  else do
    let m ← known o.mlr
    if m then .ok .poissonMLR
    else if v.noisePresent then .ok (.chi2User v.errorType)
    else do
      let e ← known o.modelErrors
      .ok (if e then .chi2Model else .chi2Data)

/-- `SetMaxThreads`, if a number of threads is given. `core/setup_model_object.cpp:51-52`. -/
def setThreads (o : MultOpts α) : Res (Option Int) :=
  match o.maxThreads with
  | none => .ok none
  | some n => do
    let k ← setMaxThreads n
    .ok (some k)

/-- `SetupModelObject`. `core/setup_model_object.cpp:36-160`. `multimfit` has no option for `normalizePSF`. -/
def setupObject (o : MultOpts α) (v : ImageVars α) (i : ImgInfo α) (over : List (OsPsf α) × List OsInfo) : Res (ObjSetup α) := do
  let t ← setThreads o
  let s ← multStat o v
  .ok {
    threads := t
    data := i.data
    psf := if v.psfPresent then i.psf.map fun n => (n, true) else none
    gain := v.gain
    readNoise := v.readNoise
    expTime := v.expTime
    sky := v.sky
    nCombined := v.nCombined
    over := if v.overPresent then over else ([], [])
    mask := if v.maskPresent then i.mask.map fun n => (n, v.maskFormat) else none
    stat := s
    noise := match s with
      | .chi2User _ => i.err
      | _ => none }

/-- The numbers for the types of errors. `core/imageparams_file_parser.cpp:501-506`. -/
def errCode : Nat → Int
  | 0 => WEIGHTS_ARE_SIGMAS
  | 1 => WEIGHTS_ARE_VARIANCES
  | _ => WEIGHTS_ARE_WEIGHTS

/-- One turn of the loop over the images. `readable i`: the data, mask, noise and PSF images can be read, and have the right sizes. Names of images are words of a line, not empty.
`core/multimfit_main.cpp:301-401`. -/
def imageStep (o : MultOpts α) (readable : ImgInfo α → Bool) (read : Str → Option (OsPsf α)) (v : ImageVars α) (i : ImgInfo α) : Res (ImageVars α × ObjSetup α) :=
  let v := { v with maskPresent := false, noisePresent := false, psfPresent := false }
  let v := { v with readNoise := i.readNoise, gain := i.gain, sky := i.originalSky, expTime := i.expTime, nCombined := i.nCombined }
  if readable i then do
    let v := if i.mask.isSome then { v with maskPresent := true, maskFormat := if i.maskGood then MASK_ZERO_IS_GOOD else MASK_ZERO_IS_BAD } else v
    let v := if i.err.isSome then { v with noisePresent := true, errorType := errCode i.errType } else v
    let v := if i.psf.isSome then { v with psfPresent := true } else v
    let r ← if i.overNames = [] then .ok (v, ([], [])) else
      match loadRegionsMulti read i.overRegions i.overNames i.overScales with
      | .error f => .error f
      | .ok none => .error .exit
      | .ok (some l) => .ok ({ v with overPresent := true }, l)
    let obj ← setupObject o r.1 i r.2
    .ok (r.1, obj)
  else .error .exit

/-- The loop. -/
def imageLoop (o : MultOpts α) (readable : ImgInfo α → Bool) (read : Str → Option (OsPsf α)) (v : ImageVars α) : List (ImgInfo α) → Res (List (ObjSetup α))
  | [] => .ok []
  | i :: is => do
    let r ← imageStep o readable read v i
    let os ← imageLoop o readable read r.1 is
    .ok (r.2 :: os)

/-- The statistic of the object for all images, after the loop. `core/multimfit_main.cpp:477-494`. -/
def totalStat (o : MultOpts α) : Res (Bool × Bool) := do
  let c ← known o.cash
  if c then if o.solver = MPFIT_SOLVER ∧ o.statOnly = false then .error .exit else .ok (true, false)
  else do
    let m ← known o.mlr
    .ok (false, m)

/-- From the options and the images to the model objects, and whether Cash statistic or Poisson MLR are used in all. `infos` are the contents of the image-info file. `core/multimfit_main.cpp:267-494`. -/
def multObjects [FP α] (o : MultOpts α) (readable : ImgInfo α → Bool) (read : Str → Option (OsPsf α)) (infos : List (ImgInfo α)) : Res (List (ObjSetup α) × Bool × Bool) :=
  match o.imageInfo with
  | none => .error .exit
  | some _ =>
    if infos.all fun i => i.data.isSome then do
      let _ ← setThreads o
      let os ← imageLoop o readable read (ImageVars.init o) infos
      let t ← totalStat o
      .ok (os, t)
    else .error .exit

/-! ## The files that are written -/

/-- A call of `BootstrapErrors`. -/
structure BootCall where
  rounds : Int
  limits : Bool
  file : Option Str
  deriving DecidableEq

/-- Files are opened with `fopen`, without a test of the result. -/
def openAll (can : Str → Bool) (names : List Str) : Res Unit := if names.all can then .ok () else .error .null

/-- Names of the files with the parameters of the images. `core/print_results_multi.cpp:61-70`. -/
def paramFiles (root : Str) (n : Nat) : List Str :=
  (List.range n).map fun i => if i = 0 then root ++ "_refimage.dat".toList else root ++ "_image".toList ++ (Nat.repr (i + 1)).toList ++ ".dat".toList

/-- From the fit to the end: the files that are written, in order, and the bootstrap that is done. `n` is the number of images, `limits` whether there are limits of parameters,
`stopped` whether the user stopped the fit. Images that cannot be saved give a warning. `core/multimfit_main.cpp:676-862`. -/
def multOutputs (o : MultOpts α) (n : Nat) (limits stopped : Bool) (can : Str → Bool) : Res (List Str × Option BootCall) := do
  let summary := if o.statOnly then [] else [o.paramsRoot ++ "_summary.dat".toList]
  if summary.all can then do
    openAll can (paramFiles o.paramsRoot n)
    let info := if n = 0 then [] else [o.paramsRoot ++ "_imageinfo.dat".toList]
    openAll can info
    let k := o.bootstrap.getD 0
    let boot : Option BootCall := if o.bootstrap.isSome ∧ 0 < k ∧ (stopped && !o.statOnly) = false then some ⟨k, if o.statOnly then false else limits, o.saveBootstrap.filter can⟩ else none
    let saved := if boot.isSome then o.saveBootstrap.toList else []
    openAll can saved
    let images := match o.saveModel with
      | none => []
      | some r => ((List.range n).map fun i => r ++ "_".toList ++ (Nat.repr i).toList ++ ".fits".toList).filter can
    .ok (summary ++ paramFiles o.paramsRoot n ++ info ++ saved ++ images, boot)
  else .error .exit

end Imfit
