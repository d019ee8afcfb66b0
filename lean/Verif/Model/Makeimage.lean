import Verif.Model.Options
import Verif.Model.Image
import Verif.Model.Fits

/-!
# `makeimage`

Source: `core/makeimage_main.cpp`, `core/options_makeimage.h`, `core/options_base.h`, `SetupModelImage` of `core/model_object.cpp`.

Messages, comments in image headers and the measurement of times are left out, and logging is not compiled in. A file name and the flag that tells that there is one are a single
`Option`. `strtod` is a parameter. What is put into an image file is a `Picture`; writing it to the disk is in `Model/Fits.lean`.
-/

namespace Imfit

variable {α : Type}

/-! ## Options -/

/-- `MakeimageOptions`. `core/options_makeimage.h:51-79`, `core/options_base.h:92-150`. `config` is empty if there is no argument. -/
structure MakeOpts (α : Type) where
  config : Str
  printImages : Bool
  saveExpanded : Bool
  normalizePSF : Bool
  subsampling : Bool
  saveImage : Bool
  printFluxes : Bool
  output : Str
  refImage : Option Str
  psf : Option Str
  overPsfs : Option (List Str)
  overScales : List Int
  overRegions : List Str
  nColumns : Int
  nColumnsSet : Bool
  nRows : Int
  nRowsSet : Bool
  noDims : Bool
  zeroPoint : α
  estimationSize : Int
  saveFluxes : Option Str
  functionRoot : Option Str
  timing : Int
  maxThreads : Int
  debug : Int

/-- The constructors, and the number of processor cores. `core/options_makeimage.h:22-48`, `core/options_base.h:30-83`, `core/makeimage_main.cpp:124-128`. -/
def defaultMake [FP α] (cores : Int) : MakeOpts α where
  config := []
  printImages := false
  saveExpanded := false
  normalizePSF := true
  subsampling := true
  saveImage := true
  printFluxes := false
  output := "modelimage.fits".toList
  refImage := none
  psf := none
  overPsfs := none
  overScales := []
  overRegions := []
  nColumns := 0
  nColumnsSet := false
  nRows := 0
  nRowsSet := false
  noDims := true
  zeroPoint := lit (-10000)
  estimationSize := 5000
  saveFluxes := none
  functionRoot := none
  timing := 0
  maxThreads := cores
  debug := 0

/-- Flags. `core/makeimage_main.cpp:449-459`. -/
def makeFlags : List (List Str) :=
  [["help".toList, "h".toList], ["version".toList, "v".toList], ["list-functions".toList], ["list-parameters".toList], ["sample-config".toList], ["printimage".toList],
    ["save-expanded".toList], ["no-normalize".toList], ["no-subsampling".toList], ["print-fluxes".toList], ["nosave".toList]]

/-- The parser of `makeimage`. `core/makeimage_main.cpp:449-480`. -/
def makeParser : CLine :=
  let p := makeFlags.foldl CLine.addFlag CLine.new
  let p := [["output".toList, "o".toList], ["ncols".toList], ["nrows".toList], ["refimage".toList], ["psf".toList]].foldl CLine.addOption p
  let p := [["overpsf".toList], ["overpsf_scale".toList], ["overpsf_region".toList]].foldl CLine.addQueueOption p
  let p := [["zero-point".toList], ["estimation-size".toList], ["save-fluxes".toList], ["output-functions".toList], ["timing".toList], ["max-threads".toList],
    ["debug".toList]].foldl CLine.addOption p
  p.strict

/-- The blocks of `ProcessInput` after parsing, in the order of the source. `core/makeimage_main.cpp:492-668`. -/
def makeSteps (num : Str → α) (p : CLine) : List (MakeOpts α → Res (MakeOpts α)) :=
  [(fun o => if 0 < p.args.length then do let a ← p.argument 0; .ok { o with config := a } else .ok o),
    exitFlag p "help".toList,
    (fun o => if p.empty then .error .exit else .ok o),
    exitFlag p "version".toList,
    exitFlag p "list-functions".toList,
    exitFlag p "list-parameters".toList,
    exitFlag p "sample-config".toList,
    onFlag p "printimage".toList fun o => { o with printImages := true },
    onFlag p "save-expanded".toList fun o => { o with saveExpanded := true },
    onFlag p "no-normalize".toList fun o => { o with normalizePSF := false },
    onFlag p "no-subsampling".toList fun o => { o with subsampling := false },
    onFlag p "nosave".toList fun o => { o with saveImage := false },
    onFlag p "print-fluxes".toList fun o => { o with printFluxes := true, saveImage := false },
    onOption p "output".toList fun t => .ok fun o => { o with output := t },
    onOption p "refimage".toList fun t => .ok fun o => { o with refImage := some t },
    onOption p "psf".toList fun t => .ok fun o => { o with psf := some t },
    onQueue p "overpsf".toList fun ts => .ok fun o => { o with overPsfs := some ts },
    onQueue p "overpsf_scale".toList fun ts => do let zs ← readScales ts; .ok fun o => { o with overScales := zs },
    onQueue p "overpsf_region".toList fun ts => .ok fun o => { o with overRegions := ts },
    onOption p "ncols".toList (asLong .posInt fun z o => { o with nColumns := longToInt z, nColumnsSet := true }),
    onOption p "nrows".toList (asLong .posInt fun z o => { o with nRows := longToInt z, nRowsSet := true }),
    onOption p "zero-point".toList (asReal num .anyReal fun x o => { o with zeroPoint := x }),
    onOption p "estimation-size".toList (asLong .posInt fun z o => { o with estimationSize := longToInt z }),
    onOption p "save-fluxes".toList fun t => .ok fun o => { o with saveFluxes := some t },
    onOption p "output-functions".toList fun t => .ok fun o => { o with functionRoot := some t },
    onOption p "timing".toList (asLong .posInt fun z o => { o with timing := longToInt z, saveImage := false }),
    onOption p "max-threads".toList (asLong .posInt fun z o => { o with maxThreads := longToInt z }),
    onOption p "debug".toList (asLong .anyInt fun z o => { o with debug := longToInt z }),
    (fun o => .ok (if o.nColumns ≠ 0 ∧ o.nRows ≠ 0 then { o with noDims := false } else o))]

/-- `ProcessInput`. `core/makeimage_main.cpp:383-672`. -/
def makeInput [FP α] (num : Str → α) (cores : Int) (argv : List Str) : Res (MakeOpts α) := do
  let r ← parseCommandLine makeParser argv
  if r.1 < 0 then .error .exit else (makeSteps num r.2).foldlM (fun o s => s o) (defaultMake cores)

/-- One turn of `HandleConfigFileOptions`. `core/makeimage_main.cpp:687-722`. -/
def makeConfigOption (o : MakeOpts α) (kv : Str × Str) : Res (MakeOpts α) :=
  if kv.1 = "NCOLS".toList ∨ kv.1 = "NCOLUMNS".toList then
    if o.nColumnsSet then .ok o
    else if notANumber .posInt kv.2 then .error .exit
    else do
      let z ← atoi kv.2
      .ok { o with nColumns := z }
  else if kv.1 = "NROWS".toList then
    if o.nRowsSet then .ok o
    else if notANumber .posInt kv.2 then .error .exit
    else do
      let z ← atoi kv.2
      .ok { o with nRows := z }
  else .ok o

/-- `HandleConfigFileOptions`. `core/makeimage_main.cpp:678-724`. -/
def makeConfig (opts : List (Str × Str)) (o : MakeOpts α) : Res (MakeOpts α) := opts.foldlM makeConfigOption o

/-! ## The size of the image -/

/-- `printFluxesOnly`. `core/makeimage_main.cpp:144-146`. -/
def fluxesOnly (o : MakeOpts α) : Bool := (o.printFluxes || o.saveFluxes.isSome) && !o.saveImage && !o.printImages

/-- `SetupModelImage` as far as the size is concerned. `core/model_object.cpp:1069-1072`. -/
def setupSize (c r : Int) : Res (Int × Int) := if 1 ≤ c ∧ 1 ≤ r then .ok (c, r) else .error .assert

/-- The size of the model image. `core/makeimage_main.cpp:177-213, 245`. The size of a reference image is read from the disk. -/
def makeSize {β : Type} (w : Disk β) (o : MakeOpts α) : Res (Int × Int) :=
  let noDims := if 0 < o.nColumns ∧ 0 < o.nRows then false else o.noDims
  if o.refImage.isNone ∧ noDims ∧ o.saveImage then .error .exit
  else
    let small := decide (o.refImage.isNone ∧ noDims)
    let c := if small then 2 else o.nColumns
    let r := if small then 2 else o.nRows
    if !fluxesOnly o && noDims then do
      let s ← getImageSize w (o.refImage.getD [])
      if s.2.2.2 then setupSize s.2.1 s.2.2.1 else .error .exit
    else setupSize c r

/-! ## The images that are saved -/

/-- An image that is written to a file. -/
structure Picture (α : Type) where
  name : Str
  cols : Int
  rows : Int
  pixels : List α

/-- The part of the model image that is returned to the caller, of `cols` × `rows` pixels. `core/model_object.cpp:1328-1350, 2264-2288`. -/
def cutOut (m : Img α) (cols rows : Nat) : Res (List α) :=
  if m.conv.isSome then
    loopMap (cols * rows) fun z => rd m.modelVec (m.geom.cols * (m.geom.psfRows + z / cols) + m.geom.psfCols + (z - z / cols * cols))
  else .ok m.modelVec

/-- The name of the file for function `i`. `core/makeimage_main.cpp:323-324`. -/
def functionFile (root : Str) (i : Nat) (name : Str) : Str := root ++ (Nat.repr (i + 1)).toList ++ "_".toList ++ name ++ ".fits".toList

/-- Images of single functions, one after the other. `core/makeimage_main.cpp:314-343`. -/
def functionPictures [FP α] (root : Str) (cols rows : Nat) (params : List α) : List Str → Nat → Img α → Res (List (Picture α))
  | [], _, _ => .ok []
  | name :: names, i, m => do
    let m1 ← singleFunctionImage m params i
    let v ← cutOut m1 cols rows
    let l ← functionPictures root cols rows params names (i + 1) m1
    .ok (⟨functionFile root i name, cols, rows, v⟩ :: l)

/-- The model image, and the one with its margins. Without a PSF the variables `nColumns_psf` and `nRows_psf` are not set. `core/makeimage_main.cpp:285-311`. -/
def mainPictures (o : MakeOpts α) (cols rows : Nat) (m : Img α) : Res (List (Picture α)) :=
  if o.saveImage then do
    let v ← cutOut m cols rows
    let p : Picture α := ⟨o.output, cols, rows, v⟩
    if o.saveExpanded then
      if o.psf.isSome then .ok [p, ⟨"expanded_".toList ++ o.output, cols + 2 * m.geom.psfCols, rows + 2 * m.geom.psfRows, m.modelVec⟩] else .error .uninit
    else .ok [p]
  else .ok []

/-- The images that `makeimage` saves for a model of `cols` × `rows` pixels whose functions have the given names. `core/makeimage_main.cpp:269-345`. -/
def makePictures [FP α] (o : MakeOpts α) (cols rows : Nat) (names : List Str) (params : List α) (m : Img α) : Res (List (Picture α)) :=
  if fluxesOnly o then .ok []
  else do
    let m1 ← createModelImage m params
    let a ← mainPictures o cols rows m1
    match o.saveImage, o.functionRoot with
    | true, some root => do
      let b ← functionPictures root cols rows params names 0 m1
      .ok (a ++ b)
    | _, _ => .ok a

end Imfit
