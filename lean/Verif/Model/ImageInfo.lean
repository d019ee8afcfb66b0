import Verif.Model.Config
import Verif.Model.Loop

/-!
# Image-information files (multi-image fits)

Source: `core/imageparams_file_parser.cpp`, `core/definitions_multimage.h`. A file is its text. Not modelled: a file that cannot be opened (it is
reported and then treated as empty), and messages other than the codes and line numbers in them. `strtod` and `strtol` are parameters.
`ReadImageParamsFile` stores its variable `k` as the number of every line before `k` has a value (line 594); the model has a parameter for
whatever value is found there.
-/

namespace Imfit

/-! Key words, `core/imageparams_file_parser.cpp:51-80`. -/

def iNcols : Str := ['N', 'C', 'O', 'L', 'S']
def iNrows : Str := ['N', 'R', 'O', 'W', 'S']
def iNcolsNrows : Str := ['N', 'C', 'O', 'L', 'S', ',', 'N', 'R', 'O', 'W', 'S']
def iNrowsNcols : Str := ['N', 'R', 'O', 'W', 'S', ',', 'N', 'C', 'O', 'L', 'S']
def iWeight : Str := ['W', 'E', 'I', 'G', 'H', 'T']
def iGain : Str := ['G', 'A', 'I', 'N']
def iReadNoise : Str := ['R', 'E', 'A', 'D', 'N', 'O', 'I', 'S', 'E']
def iNcombined : Str := ['N', 'C', 'O', 'M', 'B', 'I', 'N', 'E', 'D']
def iExpTime : Str := ['E', 'X', 'P', 'T', 'I', 'M', 'E']
def iSky : Str := ['O', 'R', 'I', 'G', 'I', 'N', 'A', 'L', '_', 'S', 'K', 'Y']
def iData : Str := ['D', 'A', 'T', 'A']
def iMask : Str := ['M', 'A', 'S', 'K']
def iError : Str := ['E', 'R', 'R', 'O', 'R']
def iPsf : Str := ['P', 'S', 'F']
def iMaskGood : Str := ['M', 'A', 'S', 'K', '_', 'Z', 'E', 'R', 'O', '_', 'I', 'S', '_', 'G', 'O', 'O', 'D']
def iMaskBad : Str := ['M', 'A', 'S', 'K', '_', 'Z', 'E', 'R', 'O', '_', 'I', 'S', '_', 'B', 'A', 'D']
def iSigmas : Str := ['E', 'R', 'R', 'O', 'R', 'S', '_', 'A', 'R', 'E', '_', 'S', 'I', 'G', 'M', 'A', 'S']
def iVariances : Str := ['E', 'R', 'R', 'O', 'R', 'S', '_', 'A', 'R', 'E', '_', 'V', 'A', 'R', 'I', 'A', 'N', 'C', 'E', 'S']
def iWeights : Str := ['E', 'R', 'R', 'O', 'R', 'S', '_', 'A', 'R', 'E', '_', 'W', 'E', 'I', 'G', 'H', 'T', 'S']
def iOverPsf : Str := ['O', 'V', 'E', 'R', 'S', 'A', 'M', 'P', 'L', 'E', 'D', '_', 'P', 'S', 'F']
def iOverScale : Str := ['O', 'V', 'E', 'R', 'S', 'A', 'M', 'P', 'L', 'E', '_', 'S', 'C', 'A', 'L', 'E']
def iOverRegion : Str := ['O', 'V', 'E', 'R', 'S', 'A', 'M', 'P', 'L', 'E', 'D', '_', 'R', 'E', 'G', 'I', 'O', 'N']
def iPixelScale : Str := ['P', 'I', 'X', 'E', 'L', '_', 'S', 'C', 'A', 'L', 'E']
def iImagePA : Str := ['I', 'M', 'A', 'G', 'E', '_', 'P', 'A']
def iFluxScale : Str := ['F', 'L', 'U', 'X', '_', 'S', 'C', 'A', 'L', 'E']
def iX0 : Str := ['X', '0']
def iY0 : Str := ['Y', '0']
def iImageStart : Str := ['I', 'M', 'A', 'G', 'E', '_', 'S', 'T', 'A', 'R', 'T']
def iFunctionsStart : Str := ['F', 'U', 'N', 'C', 'T', 'I', 'O', 'N', 'S', '_', 'S', 'T', 'A', 'R', 'T']

/-- `ImageInfo`, `core/definitions_multimage.h:30-131`. A file name and its `_present` flag are one field. -/
structure ImgInfo (α : Type) where
  weight : α
  gain : α
  expTime : α
  readNoise : α
  originalSky : α
  nCombined : Int
  data : Option Str
  mask : Option Str
  maskGood : Bool
  err : Option Str
  /-- 0 sigmas, 1 variances, 2 weights -/
  errType : Nat
  psf : Option Str
  overNames : List Str
  overScales : List Int
  overRegions : List Str
  nColumns : Int
  nRows : Int
  pixelScale : α
  rotation : α
  intensityScale : α
  x0 : α
  y0 : α
  pixelScaleLim : ParInfo α
  rotationLim : ParInfo α
  intensityScaleLim : ParInfo α
  x0Lim : ParInfo α
  y0Lim : ParInfo α
  /-- names, labels, start indices, values, limits-exist and limits of the functions of this image -/
  functions : Option (PState0 α)

variable {α : Type} [FP α]

/-- Constructor, `core/definitions_multimage.h:36-75`. -/
def ImgInfo.init : ImgInfo α where
  weight := 1
  gain := 1
  expTime := 1
  readNoise := 0
  originalSky := 0
  nCombined := 1
  data := none
  mask := none
  maskGood := true
  err := none
  errType := 0
  psf := none
  overNames := []
  overScales := []
  overRegions := []
  nColumns := 0
  nRows := 0
  pixelScale := 1
  rotation := 0
  intensityScale := 1
  x0 := 0
  y0 := 0
  pixelScaleLim := ParInfo.zero
  rotationLim := ParInfo.zero
  intensityScaleLim := ParInfo.zero
  x0Lim := ParInfo.zero
  y0Lim := ParInfo.zero
  functions := none

/-- Number readers: `strtod`, and `(int)strtol(s, nullptr, 0)`. -/
structure NumLib (α : Type) where
  d : Strtod α
  toInt : Str → Int

/-- The two limits in `GetParameterAndLimits`, `core/imageparams_file_parser.cpp:325-348`: record and status. -/
def imgLimits (nl : NumLib α) (v : α) (extra : Str) : Res (ParInfo α × Int) := do
  let ps ← splitString extra (· == ',')
  let a ← rd ps 0
  let b ← rd ps 1
  let lo := nl.d.val a
  let hi := nl.d.val b
  .ok (⟨false, true, true, lo, hi⟩, if FP.fle hi lo || (FP.flt v lo || FP.flt hi v) then -1 else 2)

/-- The third word, `core/imageparams_file_parser.cpp:319-350`. -/
def imgExtra (nl : NumLib α) (v : α) (extra : Str) : Res (ParInfo α × Int) :=
  if extra = kFixed then .ok ({ ParInfo.zero with fixed := true }, 1)
  else if ',' ∈ extra then imgLimits nl v extra
  else .ok (ParInfo.zero, 0)

/-- `GetParameterAndLimits`, `core/imageparams_file_parser.cpp:301-353`: value, record and status. -/
def getParameterAndLimits (nl : NumLib α) (l : Str) : Res (α × ParInfo α × Int) := do
  let ps ← splitString l isBlank
  let t ← rd ps 1
  let v := nl.d.val t
  if ps.length > 2 then do
    let e ← rd ps 2
    let r ← imgExtra nl v e
    .ok (v, r.1, r.2)
  else .ok (v, ParInfo.zero, 0)

/-- The rule for `PIXEL_SCALE` and `IMAGE_PA`: fixed unless limits were set. -/
def fixedUnless (old : ParInfo α) (p : α × ParInfo α × Int) : ParInfo α :=
  if p.2.2 = 2 then p.2.1 else { old with fixed := true }

/-- Two numbers separated by a comma. -/
def twoInts (nl : NumLib α) (s : Str) : Res (Int × Int) := do
  let ps ← splitString s (· == ',')
  let a ← rd ps 0
  let b ← rd ps 1
  .ok (nl.toInt a, nl.toInt b)

/-- Use the second word. -/
def second (ps : List Str) (f : Str → ImgInfo α) : Res (ImgInfo α) := do
  let t ← rd ps 1
  .ok (f t)

/-- Use value, limits and status. -/
def withLimits (nl : NumLib α) (l : Str) (f : α × ParInfo α × Int → ImgInfo α) : Res (ImgInfo α) := do
  let p ← getParameterAndLimits nl l
  .ok (f p)

/-- Use two numbers in the second word. -/
def secondInts (nl : NumLib α) (ps : List Str) (f : Int × Int → ImgInfo α) : Res (ImgInfo α) := do
  let t ← rd ps 1
  let p ← twoInts nl t
  .ok (f p)

/-- `StoreInfoFromLine`, `core/imageparams_file_parser.cpp:362-521`. -/
def storeInfo (nl : NumLib α) (l : Str) (i : ImgInfo α) : Res (ImgInfo α) := do
  let ps ← splitString l isBlank
  let name ← rd ps 0
  if name = iGain then second ps fun t => { i with gain := nl.d.val t }
  else if name = iReadNoise then second ps fun t => { i with readNoise := nl.d.val t }
  else if name = iSky then second ps fun t => { i with originalSky := nl.d.val t }
  else if name = iExpTime then second ps fun t => { i with expTime := nl.d.val t }
  else if name = iWeight then second ps fun t => { i with weight := nl.d.val t }
  else if name = iPixelScale then withLimits nl l fun p => { i with pixelScale := p.1, pixelScaleLim := fixedUnless i.pixelScaleLim p }
  else if name = iImagePA then withLimits nl l fun p => { i with rotation := p.1, rotationLim := fixedUnless i.rotationLim p }
  else if name = iFluxScale then withLimits nl l fun p => { i with intensityScale := p.1, intensityScaleLim := p.2.1 }
  else if name = iX0 then withLimits nl l fun p => { i with x0 := p.1, x0Lim := p.2.1 }
  else if name = iY0 then withLimits nl l fun p => { i with y0 := p.1, y0Lim := p.2.1 }
  else if name = iNcols then second ps fun t => { i with nColumns := nl.toInt t }
  else if name = iNrows then second ps fun t => { i with nRows := nl.toInt t }
  else if name = iNrowsNcols then secondInts nl ps fun p => { i with nRows := p.1, nColumns := p.2 }
  else if name = iNcolsNrows then secondInts nl ps fun p => { i with nColumns := p.1, nRows := p.2 }
  else if name = iNcombined then second ps fun t => { i with nCombined := nl.toInt t }
  else if name = iData then second ps fun t => { i with data := some t }
  else if name = iMask then second ps fun t => { i with mask := some t }
  else if name = iError then second ps fun t => { i with err := some t }
  else if name = iPsf then second ps fun t => { i with psf := some t }
  else if name = iOverScale then second ps fun t => { i with overScales := i.overScales ++ [nl.toInt t] }
  else if name = iOverPsf then second ps fun t => { i with overNames := i.overNames ++ [t] }
  else if name = iOverRegion then second ps fun t => { i with overRegions := i.overRegions ++ [t] }
  else if name = iMaskGood then .ok { i with maskGood := true }
  else if name = iMaskBad then .ok { i with maskGood := false }
  else if name = iSigmas then .ok { i with errType := 0 }
  else if name = iVariances then .ok { i with errType := 1 }
  else if name = iWeights then .ok { i with errType := 2 }
  else .ok i

/-- The loop of `AddInfoFromLines`, `core/imageparams_file_parser.cpp:536-543`: the information, and the index of the first `FUNCTIONS_START` line (0 if none). -/
def addInfoLoop (nl : NumLib α) : Nat → ImgInfo α → List Str → Res (ImgInfo α × Nat)
  | _, i, [] => .ok (i, 0)
  | k, i, l :: ls =>
    if hasSub iFunctionsStart l then .ok (i, k)
    else do
      let i' ← storeInfo nl l i
      addInfoLoop nl (k + 1) i' ls

/-- `AddInfoFromLines`, `core/imageparams_file_parser.cpp:530-547`. -/
def addInfoFromLines (nl : NumLib α) (ls : List Str) : Res (ImgInfo α × Nat) := addInfoLoop nl 0 ImgInfo.init ls

/-- Errors found in the lines, `core/imageparams_file_parser.cpp:142-160`: code -4 and the stored number of the line. -/
def vetImageLoop (nl : NumLib α) (num : Int) : List Str → Res (List (Int × Int))
  | [] => .ok []
  | l :: ls =>
    if hasSub iImageStart l then vetImageLoop nl num ls
    else if hasSub iFunctionsStart l then vetImageLoop nl num ls
    else do
      let v ← validParameterLine nl.d l true
      let r ← vetImageLoop nl num ls
      if v.1 then .ok r else .ok ((-4, num) :: r)

/-- `VetInputLines`, `core/imageparams_file_parser.cpp:113-172`: the errors (codes and line numbers). `num` is the number stored for every line. -/
def vetInputLines (nl : NumLib α) (num : Int) (ls : List Str) : Res (List (Int × Int)) :=
  if ls = [] then .ok [(-1, 0)]
  else do
    let r ← vetImageLoop nl num ls
    if ls.any (hasSub iImageStart) then .ok r else .ok (r ++ [(-3, 0)])

/-- Indices of the `IMAGE_START` lines, `core/imageparams_file_parser.cpp:613-616`. -/
def imageStarts : Nat → List Str → List Nat
  | _, [] => []
  | k, l :: ls => if hasSub iImageStart l then k :: imageStarts (k + 1) ls else imageStarts (k + 1) ls

/-- Lines of each image, `core/imageparams_file_parser.cpp:624-633`: from its start to the next start, or to the end. -/
def imageBlocks (ls : List Str) : List Nat → List (List Str)
  | [] => []
  | [s] => [ls.drop s]
  | s :: s' :: r => (ls.drop s).take (s' - s) :: imageBlocks ls (s' :: r)

/-- Result of `ReadImageParamsFile`. -/
inductive ReadImg (α : Type) where
  /-- -1, with the errors reported -/
  | badLines (errs : List (Int × Int))
  /-- -1, because the functions of an image could not be read -/
  | badFunctions
  /-- 0 -/
  | good (infos : List (ImgInfo α))

/-- One image, `core/imageparams_file_parser.cpp:635-663`. `none`: returns -1. -/
def readImageBlock (nl : NumLib α) (ls : List Str) : Res (Option (ImgInfo α)) := do
  let p ← addInfoFromLines nl ls
  if p.2 > 0 then do
    match ← parseFunctionSection nl.d true false [] (ls.drop (p.2 + 1)) with
    | none => .ok none
    | some st => .ok (some { p.1 with functions := some st })
  else .ok (some p.1)

/-- All images in turn. -/
def readImageBlocks (nl : NumLib α) : List (List Str) → Res (Option (List (ImgInfo α)))
  | [] => .ok (some [])
  | b :: bs => do
    match ← readImageBlock nl b with
    | none => .ok none
    | some i => do
      match ← readImageBlocks nl bs with
      | none => .ok none
      | some is => .ok (some (i :: is))

/-- What is returned. -/
def ReadImg.ofOption : Option (List (ImgInfo α)) → ReadImg α
  | none => .badFunctions
  | some is => .good is

/-- `ReadImageParamsFile`, `core/imageparams_file_parser.cpp:555-667`. `k0` is the value found in the variable `k`. -/
def readImageParams (nl : NumLib α) (k0 : Int) (file : Str) : Res (ReadImg α) := do
  let ls ← keepLines (textLines file)
  let errs ← vetInputLines nl k0 ls
  if errs ≠ [] then .ok (.badLines errs)
  else do
    let r ← readImageBlocks nl (imageBlocks ls (imageStarts 0 ls))
    .ok (.ofOption r)

/-- `FindIfParamLimitsExist`, `core/imageparams_file_parser.cpp:204-211`. -/
def limitsExist (p : ParInfo α) : Bool := p.fixed || p.lim0 || p.lim1

/-- One turn of the loop of `GetImageDescriptionParams`, `core/imageparams_file_parser.cpp:240-293`. -/
def descStep (infos : List (ImgInfo α)) (i : Nat) (st : List α × List (ParInfo α) × Bool) : Res (List α × List (ParInfo α) × Bool) := do
  let im ← rd infos (i + 1)
  let a ← wr st.1 (i * 5) im.pixelScale
  let a ← wr a (i * 5 + 1) im.rotation
  let a ← wr a (i * 5 + 2) im.intensityScale
  let a ← wr a (i * 5 + 3) im.x0
  let a ← wr a (i * 5 + 4) im.y0
  .ok (a, st.2.1 ++ [im.pixelScaleLim, im.rotationLim, im.intensityScaleLim, im.x0Lim, im.y0Lim],
    st.2.2 || (limitsExist im.pixelScaleLim || limitsExist im.rotationLim || limitsExist im.intensityScaleLim || limitsExist im.x0Lim ||
      limitsExist im.y0Lim))

/-- `GetImageDescriptionParams`, `core/imageparams_file_parser.cpp:223-297` (and, without limits, 180-198): values, their number, limits, and whether
there are any. `lims` is what the vector of limits held before. Without images the number is -5. -/
def imageDescParams (infos : List (ImgInfo α)) (lims : List (ParInfo α)) : Res ((List α × List (ParInfo α) × Bool) × Int) := do
  let st ← forN (infos.length - 1) (List.replicate (5 * (infos.length - 1)) 0, lims, false) (fun i st => descStep infos i st)
  .ok (st, 5 * ((infos.length : Int) - 1))

end Imfit
