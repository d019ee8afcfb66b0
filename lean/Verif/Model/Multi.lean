import Verif.Model.Math
import Verif.Model.Fit
import Verif.Model.Layout

/-!
# Multi-image models

Source: `core/paramvector_processing.cpp`, `core/param_holder.cpp`, `core/model_object_multimage.cpp`. Memory allocation is assumed to succeed for
non-negative sizes. The older free function `AssembleParamsForImage` (`core/paramvector_processing.cpp:109-159`) is `assemble` without the local part.
-/

namespace Imfit

variable {α : Type}

/-- `N_IMAGE_PARAMS`, `core/definitions_multimage.h`. -/
def N_IMAGE_PARAMS : Nat := 5

/-- `DEG2RAD`, `core/paramvector_processing.cpp:33`. -/
def DEG2RAD : ℚ := 17453292519943295 / 10 ^ 18

/-- Image-description parameters of one image. -/
structure ImgPar (α : Type) where
  pixScale : α
  rotation : α
  intensityScale : α
  x0 : α
  y0 : α

/-- `ExtractImageParams`, `core/paramvector_processing.cpp:42-62`, for image number `k + 1` (for image 0 the function changes nothing). -/
def extractImageParams (params : List α) (k : Nat) : Res (ImgPar α) := do
  let s ← rd params (N_IMAGE_PARAMS * k)
  let r ← rd params (N_IMAGE_PARAMS * k + 1)
  let i ← rd params (N_IMAGE_PARAMS * k + 2)
  let x ← rd params (N_IMAGE_PARAMS * k + 3)
  let y ← rd params (N_IMAGE_PARAMS * k + 4)
  pure ⟨s, r, i, x, y⟩

/-- `CalculateOffset_X0Y0`, `core/paramvector_processing.cpp:80-104`. Returns X0, Y0 and the status. -/
def calculateOffset [FP α] [FM α] (x0Ref y0Ref xnRef ynRef x0Im y0Im pixScale rotation : α) : α × α × Int :=
  if fle pixScale 0 then (0, 0, -1)
  else
    let rad := lit DEG2RAD * rotation
    let c := fcos rad
    let s := fsin rad
    let dx := xnRef - x0Ref
    let dy := ynRef - y0Ref
    let dxIm := dx * c + dy * s
    let dyIm := -dx * s + dy * c
    (x0Im + pixScale * dxIm, y0Im + pixScale * dyIm, 0)

/-- Data members of `ParamHolder` that do not depend on the parameter values (`core/param_holder.h:45-72`). -/
structure PHolder where
  nImages : Nat
  nImageParams : Nat
  nModelParams : Nat
  nFunctionSets : Nat
  /-- `parameterSizes[n]`, `functionSetStartFlags[n]` -/
  fns : List (Nat × Bool)
  nLocal : List Int

/-- The loop that adds up the local parameter counts. `core/param_holder.cpp:113-114`. -/
def sumLocal (counts : List Int) (nImages : Nat) (start : Int) : Res Int :=
  forN nImages start fun i acc => do
    let c ← rd counts i
    pure (acc + c)

/-- The sizes of the per-image parameter arrays; a negative size cannot be allocated. `core/param_holder.cpp:136-141`. -/
def perImageSizes (nModel : Int) (counts : List Int) (nImages : Nat) : Res (List Nat) :=
  loopMap nImages fun i => do
    let c ← rd counts i
    if nModel + c < 0 then .error .null else pure (nModel + c).toNat

/-- `ParamHolder::GeneralSetup`, `core/param_holder.cpp:101-143`; `nLocal0` is the value of `nLocalParams` left by earlier calls (0 after construction).
Without an image the assignment `pixelScales[0] = 1.0` is out of bounds. Returns the holder and the sizes of the per-image arrays. -/
def generalSetup (nLocal0 : Int) (nImages nParamsTot nFunctionSets : Nat) (fns : List (Nat × Bool)) (counts : List Int) :
    Res (PHolder × List Nat) :=
  if nImages = 0 then .error .oob
  else do
    let nl ← sumLocal counts nImages nLocal0
    let nImageParams := N_IMAGE_PARAMS * (nImages - 1)
    let nModel : Int := (nParamsTot : Int) - nImageParams - nl
    let sizes ← perImageSizes nModel counts nImages
    pure (⟨nImages, nImageParams, nModel.toNat, nFunctionSets, fns, counts⟩, sizes)

/-- Copy of the global parameters. `core/param_holder.cpp:224-225`. -/
def copyModelParams (h : PHolder) (params out : List α) : Res (List α) :=
  forN h.nModelParams out fun i o => do
    let v ← rd params (h.nImageParams + i)
    wr o i v

/-- X0, Y0 of one further function set. `core/param_holder.cpp:245-254`. -/
def placeSet [FP α] [FM α] (h : PHolder) (params : List α) (im : ImgPar α) (xr yr : α) (offset : Nat) (start : Bool) (out : List α) :
    Res (List α) :=
  if start then do
    let xn ← rd params (h.nImageParams + offset)
    let yn ← rd params (h.nImageParams + offset + 1)
    let p := calculateOffset xr yr xn yn im.x0 im.y0 im.pixScale im.rotation
    let o ← wr out offset p.1
    wr o (offset + 1) p.2.1
  else .ok out

/-- The loop over the second and later functions. `core/param_holder.cpp:241-258`. The status of `CalculateOffset_X0Y0` is not looked at. -/
def placeSets [FP α] [FM α] (h : PHolder) (params : List α) (im : ImgPar α) (xr yr : α) : List (Nat × Bool) → Nat → List α → Res (List α)
  | [], _, out => .ok out
  | (size, start) :: rest, offset, out => do
    let o ← placeSet h params im xr yr offset start out
    placeSets h params im xr yr rest ((if start then offset + 2 else offset) + size) o

/-- Further function sets, if there are any. `core/param_holder.cpp:236-258`. -/
def placeFurther [FP α] [FM α] (h : PHolder) (params : List α) (im : ImgPar α) (out : List α) : Res (List α) :=
  if 1 < h.nFunctionSets then do
    let xr ← rd params h.nImageParams
    let yr ← rd params (h.nImageParams + 1)
    let f0 ← rd h.fns 0
    placeSets h params im xr yr h.fns.tail (f0.1 + 2) out
  else .ok out

/-- Positions for the second and later images. `core/param_holder.cpp:229-259`. -/
def placeAll [FP α] [FM α] (h : PHolder) (params : List α) : Nat → List α → Res (List α)
  | 0, out => .ok out
  | k + 1, out => do
    let im ← extractImageParams params k
    let o ← wr out 0 im.x0
    let o ← wr o 1 im.y0
    placeFurther h params im o

/-- Where the local parameters of an image start. `core/param_holder.cpp:266-268`. -/
def localStart (h : PHolder) (image : Nat) : Res Int :=
  forN image ((h.nImageParams + h.nModelParams : Nat) : Int) fun n acc => do
    let c ← rd h.nLocal n
    pure (acc + c)

/-- Copy of the local parameters. `core/param_holder.cpp:262-271`. -/
def copyLocal (h : PHolder) (params : List α) (image : Nat) (out : List α) : Res (List α) := do
  let n ← rd h.nLocal image
  if 0 < n then do
    let st ← localStart h image
    forN n.toNat out fun i o => do
      let v ← rdI params (st + i)
      wr o (h.nModelParams + i) v
  else .ok out

/-- `ParamHolder::AssembleParametersForImage`, `core/param_holder.cpp:215-272`. -/
def assemble [FP α] [FM α] (h : PHolder) (params : List α) (image : Nat) (out : List α) : Res (List α) := do
  let o ← copyModelParams h params out
  let o ← placeAll h params image o
  copyLocal h params image o

/-- Image-description values of one image as used by the function objects (pixel scale, rotation, intensity scale).
`core/param_holder.cpp:155-171, 183-188`. -/
def imageDesc [FP α] (params : List α) : Nat → Res (α × α × α)
  | 0 => .ok (1, 0, 1)
  | k + 1 => do
    let im ← extractImageParams params k
    pure (im.pixScale, im.rotation, im.intensityScale)

/-- `ModelObjectMultImage::FinalModelSetup`, `core/model_object_multimage.cpp:275-296`, up to the set-up of the parameter holder: total number of parameters
and local counts. `perImage0` is `nPerImageParams` before the call (`none`: never initialised, which is what the constructors leave,
`core/model_object.cpp:112-179`, `core/model_object_multimage.cpp:84-91`). -/
def finalModelCounts (perImage0 : Option Int) (nFunctionParams nFunctionSets nParamsTot : Nat) (imageParamCounts : List Nat) : Option Int × List Int :=
  let nGlobal : Int := nFunctionParams + 2 * nFunctionSets
  let extra := imageParamCounts.map fun (n : Nat) => (n : Int) - nGlobal
  let per := perImage0.map fun p => p + (extra.map fun e => if 0 < e then e else 0).sum
  (per.map fun p => (nParamsTot : Int) + p, extra)

/-! ## Fit statistics of several images -/

/-- `ModelObjectMultImage::GetNValidPixels`, `core/model_object_multimage.cpp:238-245`; indeterminate if a count is. -/
def multiNValid (ms : List (MO α)) : Option Int :=
  ms.foldl (fun acc m => do let a ← acc; let b ← m.nValid; pure (a + b)) (some 0)

/-- `nDataVals` after the calls of `AddModelObject`, `core/model_object_multimage.cpp:192`. -/
def multiNData (ms : List (MO α)) : Nat := ms.foldl (fun acc m => acc + m.nDataVals) 0

/-- `CreateModelImage` of the images (`Model/Image.lean`): image number, image-description values and parameter vector to padded model image. -/
abbrev Render (α : Type) := Nat → α × α × α → List α → Res (List α)

/-- The state of image `i` after `SetImageParameters` and `CreateModelImage` with its own parameter vector (`size` entries).
`core/model_object_multimage.cpp:374-380`, `core/param_holder.cpp:148-200`. -/
def prepareImage [FP α] [FM α] (h : PHolder) (render : Render α) (params : List α) (i size : Nat) (m : MO α) : Res (MO α) := do
  let d ← imageDesc params i
  let p ← assemble h params i (List.replicate size 0)
  let img ← render i d p
  pure (withModel m img)

/-- Statistic of one image in a multi-image fit, `core/model_object_multimage.cpp:393-401`; `cash` is the flag of the multi-image object. -/
def imageStatistic [FP α] (cash : Bool) (m : MO α) : Res (MO α × α) :=
  if cash then do let v ← cashStatistic m; pure (m, v) else chiSquared m

/-- The loop of `ModelObjectMultImage::GetFitStatistic`, `core/model_object_multimage.cpp:377-404`; `prep` sets image `i` up. -/
def statisticLoop [FP α] (cash : Bool) (prep : Nat → MO α → Res (MO α)) : List (MO α) → Nat → α → Res (List (MO α) × α)
  | [], _, acc => .ok ([], acc)
  | m :: rest, i, acc => do
    let m1 ← prep i m
    let r ← imageStatistic cash m1
    let q ← statisticLoop cash prep rest (i + 1) (acc + r.2)
    pure (r.1 :: q.1, q.2)

/-- `ModelObjectMultImage::GetFitStatistic`, `core/model_object_multimage.cpp:359-404`. -/
def multiStatistic [FP α] [FM α] (cash : Bool) (h : PHolder) (sizes : List Nat) (render : Render α) (params : List α) (ms : List (MO α)) :
    Res (List (MO α) × α) :=
  statisticLoop cash (fun i m => do let n ← rd sizes i; prepareImage h render params i n m) ms 0 0

/-- Store a piece of the deviates at `yResults + start`. -/
def storeAt (out : List α) (start : Nat) (piece : List α) : Res (List α) :=
  forN piece.length out fun z o => do
    let v ← rd piece z
    wr o (start + z) v

/-- The loop of `ModelObjectMultImage::ComputeDeviates`, `core/model_object_multimage.cpp:421-440`. The next image starts `GetNDataValues()` places
further on, in bootstrap mode too. -/
def deviatesLoop [FP α] (prep : Nat → MO α → Res (MO α)) : List (MO α) → Nat → Nat → List α → Res (List (MO α) × List α)
  | [], _, _, out => .ok ([], out)
  | m :: rest, i, start, out => do
    let m1 ← prep i m
    let r ← computeDeviates m1
    let o ← storeAt out start r.2
    let q ← deviatesLoop prep rest (i + 1) (start + m.nDataVals) o
    pure (r.1 :: q.1, q.2)

/-- `ModelObjectMultImage::ComputeDeviates`, `core/model_object_multimage.cpp:408-441`; `out` is the array `yResults` of the caller. -/
def multiDeviates [FP α] [FM α] (h : PHolder) (sizes : List Nat) (render : Render α) (params : List α) (ms : List (MO α)) (out : List α) :
    Res (List (MO α) × List α) :=
  deviatesLoop (fun i m => do let n ← rd sizes i; prepareImage h render params i n m) ms 0 0 out

/-- The size of the array of deviates requested from the Levenberg-Marquardt solver: all data values in a fit
(`core/multimfit_main.cpp:710`), the valid pixels in bootstrap resampling (`core/bootstrap_errors.cpp:167, 205`). -/
def multiNDeviates (boot : Bool) (ms : List (MO α)) : Option Int :=
  if boot then multiNValid ms else some (multiNData ms)

/-- `ModelObjectMultImage::MakeBootstrapSample` / `UseBootstrap`, `core/model_object_multimage.cpp:727-770`, with the given single-image operation; `p` is the
position in the stream of random numbers. -/
def multiBootstrap (one : MO α → Nat → Res (MO α × Nat)) : List (MO α) → Nat → Res (List (MO α) × Nat)
  | [], p => .ok ([], p)
  | m :: rest, p => do
    let r ← one m p
    let q ← multiBootstrap one rest r.2
    pure (r.1 :: q.1, q.2)

end Imfit
