import Verif.Model.ImageInfo
import Verif.Model.Multi

/-!
# Starting a fit

Source: `core/add_functions.cpp` (`AddFunctions`), the part of `core/imfit_main.cpp` between reading the configuration file and calling the solver (the same
lines are in `core/mcmc_main.cpp`), the corresponding part of `core/multimfit_main.cpp`, and `core/utilities_multimfit.cpp`.

What is known about the function classes is a parameter (`Catalogue`). Reading of images, the set-up of the image data (`Model/Fit.lean`), the set-up
of the parameter holder (`generalSetup` in `Model/Multi.lean`), estimates of memory use and messages are left out. `none` stands for the end of the
program with an error message.
-/

namespace Imfit

variable {α : Type}

/-- The function classes: parameter names of the class registered under a name (`none`: no such class), the status of `SetExtraParams`, and whether
`ModelObject::AddFunction` accepts the function (it refuses a point source without PSF). -/
structure Catalogue where
  params : Str → Option (List Str)
  setExtra : Str → List (Str × Str) → Int
  accepts : Str → Bool

/-- A function object in a model. `extra`: the optional parameters that `SetExtraParams` was called with. -/
structure FnBuilt where
  name : Str
  label : Str
  extra : List (Str × Str)
  pars : List Str

/-- `map<string, string> extraParamsMap = extraParams[i]`, if there are any maps. `core/add_functions.cpp:405-406, 423-424`. -/
def extraFor (extras : List (List (Str × Str))) (i : Nat) : Res (List (Str × Str)) :=
  if extras.length = 0 then .ok [] else rd extras i

/-- `globalFuncFlags[i]`, if there are any flags. `core/add_functions.cpp:407-408, 438-441`. -/
def flagFor (flags : List Bool) (i : Nat) : Res Bool :=
  if flags.length = 0 then .ok true else rd flags i

/-- One turn of the loop of `AddFunctions`, `core/add_functions.cpp:410-449`. `accepts` is the verdict of `AddFunction`. -/
def addOne (cat : Catalogue) (accepts : Str → Bool) (labels : List Str) (extras : List (List (Str × Str))) (flags : List Bool) (i : Nat) (name : Str) :
    Res (Option FnBuilt) :=
  match cat.params name with
  | none => .ok none
  | some ps => do
    let lab ← rd labels i
    let e ← extraFor extras i
    if e ≠ [] ∧ cat.setExtra name e < 0 then .ok none
    else do
      let _ ← flagFor flags i
      if accepts name then .ok (some ⟨name, lab, e, ps⟩) else .ok none

/-- The loop of `AddFunctions`, `core/add_functions.cpp:410-450`. -/
def addLoop (cat : Catalogue) (accepts : Str → Bool) (labels : List Str) (extras : List (List (Str × Str))) (flags : List Bool) :
    Nat → List Str → Res (Option (List FnBuilt))
  | _, [] => .ok (some [])
  | i, n :: ns => do
    match ← addOne cat accepts labels extras flags i n with
    | none => .ok none
    | some f => do
      match ← addLoop cat accepts labels extras flags (i + 1) ns with
      | none => .ok none
      | some fs => .ok (some (f :: fs))

/-- What a model object knows after `AddFunctions`. -/
structure Built where
  fns : List FnBuilt
  /-- `fsetStartFlags` -/
  flags : List Bool
  /-- `nParamsTot` -/
  total : Nat
  /-- `parameterLabels` -/
  labels : List Str

/-- `AddFunctions`, `core/add_functions.cpp:389-461`, for a model object that had `tot0` parameters and the parameter names `labels0`. -/
def addFunctions (cat : Catalogue) (accepts : Str → Bool) (tot0 : Nat) (labels0 : List Str) (names labels : List Str) (starts : List Nat)
    (extras : List (List (Str × Str))) (flags : List Bool) : Res (Option Built) := do
  match ← addLoop cat accepts labels extras flags 0 names with
  | none => .ok none
  | some fs => do
    let d ← defineFunctionSets (fs.map fun f => f.pars.length) starts tot0
    .ok (some ⟨fs, d.1, d.2, labels0 ++ populateNames ((fs.map FnBuilt.pars).zip d.1)⟩)

/-- `mp_par` with its member `offset`. -/
structure ParRec (α : Type) where
  info : ParInfo α
  offset : Int

/-- What the solver is given. -/
structure FitStart (α : Type) where
  built : Built
  /-- `paramsVect` -/
  values : List α
  /-- `parameterInfo` -/
  recs : List (ParRec α)
  nFree : Int

/-- `limits[0] -= offset; limits[1] -= offset`. -/
def shiftBoth [FP α] (p : ParInfo α) (d : Int) : ParInfo α := { p with lo := p.lo - lit (d : ℚ), hi := p.hi - lit (d : ℚ) }

/-- One turn of the loop over the limits, `core/imfit_main.cpp:293-305`. -/
def startRec [FP α] (b : Built) (lims : List (ParInfo α)) (ox oy : Int) (i : Nat) : Res (ParRec α) := do
  let p ← rd lims i
  let n ← getParameterName b.labels b.total i
  if n = some kX0 then .ok ⟨shiftBoth p ox, ox⟩
  else if n = some kY0 then .ok ⟨shiftBoth p oy, oy⟩
  else .ok ⟨p, 0⟩

/-- One turn of the loop over the values, `core/imfit_main.cpp:350-357`. -/
def startValue [FP α] (b : Built) (vals : List α) (ox oy : Int) (i : Nat) : Res α := do
  let v ← rd vals i
  let n ← getParameterName b.labels b.total i
  if n = some kX0 then .ok (v - lit (ox : ℚ))
  else if n = some kY0 then .ok (v - lit (oy : ℚ))
  else .ok v

/-- `nFreeParams`: one less for each fixed parameter. `core/imfit_main.cpp:261, 294-295`, `core/multimfit_main.cpp:498, 610-612`. -/
def countFree (total : Nat) (recs : List (ParRec α)) : Int :=
  recs.foldl (fun n r => if r.info.fixed then n - 1 else n) (total : Int)

/-- `imfit` from the configuration file to the call of the solver, `core/imfit_main.cpp:251-357` (and `core/mcmc_main.cpp:245-366`). -/
def startFit [FP α] (cat : Catalogue) (c : Config α) (ox oy : Int) : Res (Option (FitStart α)) := do
  match ← addFunctions cat cat.accepts 0 [] c.names c.labels c.starts c.opts [] with
  | none => .ok none
  | some b =>
    if b.total ≠ c.vals.length then .ok none
    else if b.total = 0 then .ok none
    else do
      let recs ← loopMap b.total fun i => startRec b c.lims ox oy i
      let vals ← loopMap b.total fun i => startValue b c.vals ox oy i
      .ok (some ⟨b, vals, recs, countFree b.total recs⟩)

/-! ## Several images -/

/-- Start indices of the functions of one image: for every function (not every set) one index. `core/multimfit_main.cpp:411-418`. -/
def localStarts (nGlobal : Nat) (st : PState0 α) : Res (List Nat) :=
  loopMap st.names.length fun j => do
    let s ← rd st.starts j
    .ok (nGlobal + s)

/-- `AddFunctions` for the model object of one image, `core/multimfit_main.cpp:402-443`. The vector `optionalParamsMap` is never filled
(`core/multimfit_main.cpp:157, 215-217`). -/
def buildImage (cat : Catalogue) (c : Config α) (im : ImgInfo α) : Res (Option Built) :=
  match im.functions with
  | none => addFunctions cat cat.accepts 0 [] c.names c.labels c.starts [] (List.replicate c.names.length true)
  | some st => do
    let ls ← localStarts c.names.length st
    addFunctions cat cat.accepts 0 [] (c.names ++ st.names) (c.labels ++ st.labels) (c.starts ++ ls) []
      (List.replicate c.names.length true ++ List.replicate st.names.length false)

/-- All images in turn, `core/multimfit_main.cpp:300-450`. -/
def buildImages (cat : Catalogue) (c : Config α) : List (ImgInfo α) → Res (Option (List Built))
  | [] => .ok (some [])
  | im :: ims => do
    match ← buildImage cat c im with
    | none => .ok none
    | some b => do
      match ← buildImages cat c ims with
      | none => .ok none
      | some bs => .ok (some (b :: bs))

/-- Names of the image-description parameters, `core/model_object_multimage.cpp:184-190`. -/
def descNames : List Str := [iPixelScale, ['R', 'O', 'T', 'A', 'T', 'I', 'O', 'N'], iFluxScale, kX0, kY0]

/-- The names of these parameters for all images but the first. -/
def descLabels : Nat → List Str
  | 0 => []
  | k + 1 => descNames ++ descLabels k

/-- Values of the parameters of the images' own functions. `core/multimfit_main.cpp:500-506`. -/
def localVals (ims : List (ImgInfo α)) : List α := ims.flatMap fun im => (im.functions.map PState0.vals).getD []

/-- Limits of the parameters of one image's own functions, `core/multimfit_main.cpp:590-606`. -/
def localRecs (im : ImgInfo α) : Res (List (ParRec α)) :=
  match im.functions with
  | none => .ok []
  | some st => loopMap st.vals.length fun j => do
    let p ← rd st.lims j
    .ok ⟨p, 0⟩

/-- Limits for all images. -/
def allLocalRecs : List (ImgInfo α) → Res (List (ParRec α))
  | [] => .ok []
  | im :: ims => do
    let a ← localRecs im
    let b ← allLocalRecs ims
    .ok (a ++ b)

/-- The vector `parameterInfo` before offsets are taken into account, `core/multimfit_main.cpp:560-608`. -/
def multiRecs (nDesc : Nat) (descLims : List (ParInfo α)) (c : Config α) (ims : List (ImgInfo α)) : Res (List (ParRec α)) := do
  let a ← loopMap nDesc fun i => do
    let p ← rd descLims i
    .ok (⟨p, 0⟩ : ParRec α)
  let b ← loopMap c.vals.length fun i => do
    let p ← rd c.lims i
    .ok (⟨p, 0⟩ : ParRec α)
  let l ← allLocalRecs ims
  .ok (a ++ b ++ l)

/-- The vector `paramsVect` before offsets are taken into account, `core/multimfit_main.cpp:652-664`: the second loop runs to `nParamsTot`. -/
def multiValues [FP α] (nDesc total : Nat) (desc : List α) (c : Config α) (ims : List (ImgInfo α)) : Res (List α) := do
  let a ← forN nDesc (List.replicate total 0) fun i o => do
    let v ← rd desc i
    wr o i v
  let b ← forN (total - nDesc) a fun k o => do
    let v ← rd c.vals k
    wr o (nDesc + k) v
  forN (localVals ims).length b fun k o => do
    let v ← rd (localVals ims) k
    wr o (nDesc + c.vals.length + k) v

/-- `if (limited[k] == 1) limits[k] -= offset`, both sides, and the offset. `core/utilities_multimfit.cpp:54-58`. -/
def shiftLimited [FP α] (r : ParRec α) (d : Int) : ParRec α :=
  ⟨{ r.info with lo := if r.info.lim0 then r.info.lo - lit (d : ℚ) else r.info.lo, hi := if r.info.lim1 then r.info.hi - lit (d : ℚ) else r.info.hi }, d⟩

/-- `paramVect[i] -= offset` and the same for the limits. -/
def shiftAt [FP α] (s : List α × List (ParRec α)) (i : Nat) (d : Int) : Res (List α × List (ParRec α)) := do
  let v ← rd s.1 i
  let vs ← wr s.1 i (v - lit (d : ℚ))
  let r ← rd s.2 i
  let rs ← wr s.2 i (shiftLimited r d)
  .ok (vs, rs)

/-- X0, Y0 of the image descriptions, `core/utilities_multimfit.cpp:48-71`; `k` counts from 0 for the second image. -/
def shiftDesc [FP α] (offsets : List (Int × Int)) (k : Nat) (s : List α × List (ParRec α)) : Res (List α × List (ParRec α)) := do
  let o ← rd offsets (k + 1)
  let s ← shiftAt s ((k + 1) * N_IMAGE_PARAMS - 2) o.1
  shiftAt s ((k + 1) * N_IMAGE_PARAMS - 1) o.2

/-- X0, Y0 of the function sets, `core/utilities_multimfit.cpp:76-95`. -/
def shiftGlobal [FP α] (labels : List Str) (total nDesc : Nat) (o : Int × Int) (k : Nat) (s : List α × List (ParRec α)) : Res (List α × List (ParRec α)) := do
  let n ← getParameterName labels total (nDesc + k)
  if n = some kX0 then shiftAt s (nDesc + k) o.1
  else if n = some kY0 then shiftAt s (nDesc + k) o.2
  else .ok s

/-- `CorrectForImageOffsets`, `core/utilities_multimfit.cpp:34-97`. -/
def correctOffsets [FP α] (labels : List Str) (total nImages : Nat) (offsets : List (Int × Int)) (s : List α × List (ParRec α)) :
    Res (List α × List (ParRec α)) := do
  let s ← forN (nImages - 1) s (fun k s => shiftDesc offsets k s)
  let o ← rd offsets 0
  forN (total - N_IMAGE_PARAMS * (nImages - 1)) s (fun k s => shiftGlobal labels total (N_IMAGE_PARAMS * (nImages - 1)) o k s)

/-- The number of parameters of the multi-image model; its use before it has a value is an error. -/
def knownTotal : Option Int → Res Nat
  | none => .error .uninit
  | some t => .ok t.toNat

/-- `multimfit` from its two input files to the call of the solver, `core/multimfit_main.cpp:285-670`. `per0` is what `nPerImageParams` holds before
`FinalModelSetup` adds to it (`none`: nothing, see `finalModelCounts`); `offsets` are the offsets of the images' sections. -/
def startMulti [FP α] (cat : Catalogue) (per0 : Option Int) (c : Config α) (ims : List (ImgInfo α)) (offsets : List (Int × Int)) :
    Res (Option (FitStart α)) := do
  let d ← imageDescParams ims []
  match ← buildImages cat c ims with
  | none => .ok none
  | some bs => do
    match ← addFunctions cat (fun _ => decide (0 < ims.length)) (N_IMAGE_PARAMS * (ims.length - 1)) (descLabels (ims.length - 1)) c.names c.labels
        c.starts [] [] with
    | none => .ok none
    | some b => do
      let total ← knownTotal (finalModelCounts per0 (b.fns.map fun f => f.pars.length).sum c.starts.length b.total (bs.map Built.total)).1
      if (total : Int) ≠ d.2 + c.vals.length + (localVals ims).length then .ok none
      else do
        let recs ← multiRecs d.2.toNat d.1.2.1 c ims
        let vals ← multiValues d.2.toNat total d.1.1 c ims
        let s ← correctOffsets b.labels total ims.length offsets (vals, recs)
        .ok (some ⟨{ b with total := total }, s.1, s.2, countFree total recs⟩)

end Imfit
