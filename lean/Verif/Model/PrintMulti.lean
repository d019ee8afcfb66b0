import Verif.Model.Print
import Verif.Model.Driver
import Verif.Model.Layout

/-!
# Output of fits to several images

Source: `core/print_results_multi.cpp` (`SaveImageInfoParameters`, `PrintSingleImageInfoToStrings`) and `core/model_object_multimage.cpp`
(`GetAllImageDescriptionParameters`, `PrintModelParamsHorizontalString`, `GetParamHeader`, and of `PrintModelParamsToStrings` the part about the
image-description parameters). The `printf` conversions of numbers are parameters. Files that cannot be opened are not modelled. The number `nCombined` is an
`int` printed with `%g`: the argument that `%g` takes was never passed, which is undefined (`uninit`).
-/

namespace Imfit

variable {α : Type}

/-- `GetAllImageDescriptionParameters`, `core/model_object_multimage.cpp:614-619`: copies the first values into an array of `5 n` zeros
(`core/print_results_multi.cpp:97-102`), `n` images. -/
def allDescParams [FP α] (n : Nat) (params : List α) : Res (List α) :=
  forN ((n - 1) * 5) (List.replicate (n * 5) 0) fun i out => do
    let v ← rd params i
    wr out i v

/-- `GetErrors` into a fresh array, `core/print_results_multi.cpp:107-108`, `solvers/solver_results.cpp:225-229`. -/
def errorsFor [FP α] (total : Nat) (errs : List α) : Res (List α) :=
  forN errs.length (List.replicate total 0) fun i out => do
    let v ← rd errs i
    wr out i v

/-- The lines about oversampled PSFs, `core/print_results_multi.cpp:181-194`. -/
def overLines (d : Int → Str) (im : ImgInfo α) : Res (List Line) :=
  if im.overNames = [] then .ok []
  else do
    let ls ← (List.range im.overRegions.length).mapM fun i => do
      let a ← if i < im.overNames.length then do
          let f ← rd im.overNames i
          let s ← rd im.overScales i
          .ok [[iOverPsf ++ "         ".toList ++ f ++ ['\n']], [iOverScale ++ "        ".toList ++ d s ++ ['\n']]]
        else .ok []
      let r ← rd im.overRegions i
      .ok (a ++ [[iOverRegion ++ "      ".toList ++ r ++ ['\n']]])
    .ok ls.flatten

/-- A file name, if there is one. -/
def nameLine (key : Str) : Option Str → List Line
  | none => []
  | some f => [[key ++ "    ".toList ++ f ++ ['\n']]]

/-- A number, if it is not the default. -/
def numLine [FP α] (g : α → Str) (key : Str) (v dflt : α) : List Line :=
  if fne v dflt then [[key ++ ['\t', '\t'] ++ g v ++ ['\n']]] else []

/-- One image-description parameter printed with `PARAM_FORMAT` and a line feed. -/
def descLine (pr : NumFmt α) (key : Str) (desc : List α) (errs : Option (List α)) (k : Int) : Res Line := do
  let v ← rdI desc k
  let e ← match errs with
    | none => .ok none
    | some es => do let e ← rdI es k; .ok (some e)
  .ok [parText pr [] key v e, ['\n']]

/-- The same with `XY_FORMAT`. -/
def descXYLine (pr : NumFmt α) (key : Str) (desc : List α) (errs : Option (List α)) (k : Int) : Res Line := do
  let v ← rdI desc k
  let e ← match errs with
    | none => .ok none
    | some es => do let e ← rdI es k; .ok (some e)
  .ok (xyText pr [] key v e)

/-- The image-description parameters of an image that is not the reference image, `core/print_results_multi.cpp:196-220`. -/
def descInfoLines (pr : NumFmt α) (desc : List α) (errs : Option (List α)) (off : Int) : Res (List Line) := do
  let a ← descLine pr iPixelScale desc errs (0 + off)
  let b ← descLine pr iImagePA desc errs (1 + off)
  let c ← descLine pr iFluxScale desc errs (2 + off)
  let x ← descXYLine pr iX0 desc errs (3 + off)
  let y ← descXYLine pr iY0 desc errs (4 + off)
  .ok [a, b, c, x, y]

/-- Nothing for the reference image. -/
def descPart (pr : NumFmt α) (ref : Bool) (desc : List α) (errs : Option (List α)) (off : Int) : Res (List Line) :=
  if ref then .ok [] else descInfoLines pr desc errs off

/-- The argument of `%g` for `nCombined`, `core/print_results_multi.cpp:170-171`. -/
def combinedLine (im : ImgInfo α) : Res (List Line) := if im.nCombined ≠ 1 then .error .uninit else .ok []

/-- `PrintSingleImageInfoToStrings`, `core/print_results_multi.cpp:156-228`. `g` is `%g`, `d` is `%d`. -/
def imageInfoLines [FP α] (pr : NumFmt α) (g : α → Str) (d : Int → Str) (im : ImgInfo α) (ref : Bool) (desc : List α) (errs : Option (List α)) (off : Int) :
    Res (List Line) := do
  let n ← combinedLine im
  let o ← overLines d im
  let p ← descPart pr ref desc errs off
  .ok ([[iImageStart ++ ['\n']]] ++ nameLine iData im.data ++ numLine g iSky im.originalSky 0 ++ numLine g iGain im.gain 1 ++
    numLine g iReadNoise im.readNoise 0 ++ n ++ nameLine iMask im.mask ++ nameLine iError im.err ++ nameLine iPsf im.psf ++ o ++ p ++ [[['\n']]])

/-- The comments between the images, `core/print_results_multi.cpp:116-124`. -/
def imageComment : Nat → List Line
  | 0 => [["# Reference image\n".toList]]
  | 1 => [["# Additional images\n".toList]]
  | _ => []

/-- The loop over the images, `core/print_results_multi.cpp:115-132`. -/
def imageInfoLoop [FP α] (pr : NumFmt α) (g : α → Str) (d : Int → Str) (desc : List α) (errs : Option (List α)) : List (ImgInfo α) → Nat → Res (List Line)
  | [], _ => .ok []
  | im :: ims, i => do
    let ls ← imageInfoLines pr g d im (i == 0) desc errs (((i : Int) - 1) * 5)
    let r ← imageInfoLoop pr g d desc errs ims (i + 1)
    .ok (imageComment i ++ ls ++ r)

/-- Errors of the image-description parameters, `core/print_results_multi.cpp:104-112`. -/
def descErrors [FP α] (n total : Nat) : Option (List α) → Res (Option (List α))
  | none => .ok none
  | some es => do
    let all ← errorsFor total es
    let e ← allDescParams n all
    .ok (some e)

/-- `SaveImageInfoParameters`, `core/print_results_multi.cpp:85-149`: the text of the file. `errs` are the errors stored by the Levenberg-Marquardt solver
(`none`: another solver was used), `total` the number of parameters of the model. -/
def saveImageInfo [FP α] (pr : NumFmt α) (g : α → Str) (d : Int → Str) (header : List Str) (params : List α) (errs : Option (List α)) (total : Nat)
    (ims : List (ImgInfo α)) : Res Str := do
  let desc ← allDescParams ims.length params
  let es ← descErrors ims.length total errs
  let ls ← imageInfoLoop pr g d desc es ims 0
  let ts ← ls.mapM formatLine
  .ok ((header.map (· ++ ['\n'])).flatten ++ "\n# IMAGE PARAMETERS\n\n".toList ++ ts.flatten)

/-- The values of the image-description parameters of image `k + 1` (counted from 0) as `PrintModelParamsToStrings` shows them,
`core/model_object_multimage.cpp:514-543`: with the offset of the image section. -/
def shownDesc [FP α] (params : List α) (k : Nat) (ox oy : Int) : Res (List α) := do
  let p ← extractImageParams params k
  .ok [p.pixScale, p.rotation, p.intensityScale, p.x0 + lit (ox : ℚ), p.y0 + lit (oy : ℚ)]

/-! ## Rows and header of a file of bootstrap results -/

/-- The image-description part, `core/model_object_multimage.cpp:659-662`: the first value, and the others up to `nDesc`. -/
def multiRowDesc (fmt : α → Str) (sep : Str) (params : List α) (nDesc : Nat) : Res Str := do
  let v ← rd params 0
  forN (nDesc - 1) (fmt v) fun i acc => do
    let w ← rd params (i + 1)
    .ok (acc ++ (sep ++ fmt w))

/-- X0 and Y0, if the function starts a set, `core/model_object_multimage.cpp:666-673`. -/
def multiRowXY [FP α] (fmt : α → Str) (sep : Str) (params : List α) (ox oy : Int) (offset : Nat) (start : Bool) : Res Str :=
  if start then do
    let x ← rd params offset
    let y ← rd params (offset + 1)
    .ok (sep ++ fmt (x + lit (ox : ℚ)) ++ sep ++ fmt (y + lit (oy : ℚ)))
  else .ok []

/-- The function part, `core/model_object_multimage.cpp:664-684`. -/
def multiRowFns [FP α] (fmt : α → Str) (sep : Str) (params : List α) (ox oy : Int) : List (Nat × Bool) → Nat → Res Str
  | [], _ => .ok []
  | (size, start) :: rest, offset => do
    let xy ← multiRowXY fmt sep params ox oy offset start
    let off1 := if start then offset + 2 else offset
    let f ← horizFn fmt sep params off1 size
    let r ← multiRowFns fmt sep params ox oy rest (off1 + size)
    .ok (xy ++ f ++ r)

/-- `ModelObjectMultImage::PrintModelParamsHorizontalString`, `core/model_object_multimage.cpp:646-685`: `fns` are the functions shared by all images,
`ox`, `oy` the offset of the reference image, `fmt` is `%#.10g`. -/
def multiRow [FP α] (fmt : α → Str) (sep : Str) (params : List α) (nImages : Nat) (ox oy : Int) (fns : List (Nat × Bool)) : Res Str := do
  let d ← multiRowDesc fmt sep params ((nImages - 1) * 5)
  let f ← multiRowFns fmt sep params ox oy fns ((nImages - 1) * 5)
  .ok (d ++ f)

/-- The image-description part of the header, `core/model_object_multimage.cpp:703-710`, for image `n` (from 1). -/
def multiHeaderImage (n : Nat) : Str :=
  "PIXEL_SCALE_IM_".toList ++ showNat (n + 1) ++ ['\t'] ++ ("IMAGE_PA_IM_".toList ++ showNat (n + 1) ++ ['\t']) ++
    ("FLUX_SCALE_IM_".toList ++ showNat (n + 1) ++ ['\t']) ++ ("X0_IM_".toList ++ showNat (n + 1) ++ ['\t']) ++
    ("Y0_IM_".toList ++ showNat (n + 1) ++ ['\t'])

/-- `ModelObjectMultImage::GetParamHeader`, `core/model_object_multimage.cpp:696-717`. `labels`, `tot` and `fns` are those of the model object of the first
image. -/
def multiHeader (nImages : Nat) (labels : List Str) (tot : Nat) (fns : List (Nat × Bool)) : Res Str := do
  let base ← paramHeader labels tot fns
  let b ← substr base 2 none
  .ok ("# ".toList ++ (List.range (nImages - 1)).flatMap (fun i => multiHeaderImage (i + 1)) ++ b)

end Imfit
