import Verif.Model.Makeimage
import Verif.Model.Driver

/-!
# `makemultimages`

Source: `core/makemultimages_main.cpp`, `core/options_makemultimages.h`, `core/setup_model_object.cpp`, `core/model_object_multimage.cpp` 275-355. The configuration file and the image-info
file are what has been read from them (`Model/Config.lean`, `Model/ImageInfo.lean`); the function classes are a `Catalogue` as in `Model/Driver.lean`. Making the image of a list of functions
from description and parameters of an image is a parameter of the model (`Model/Image.lean` and `Model/Makeimage.lean` have one such function). Not modelled: messages, the release of
memory, reading of the PSF images, and the two variables with the size of the PSF, whose indeterminate values are copied, but not used, when an image has no PSF.
-/

namespace Imfit

variable {α : Type}

/-! ## Options -/

/-- `MakeMultimagesOptions`. `core/options_base.h:92-150`, `core/options_makemultimages.h:66-100`. -/
structure MultiMakeOpts where
  config : Str
  imageInfo : Option Str
  saveExpanded : Bool
  subsampling : Bool
  saveImage : Bool
  root : Str
  estimationSize : Int
  functionRoot : Option Str
  timing : Int
  maxThreads : Option Int
  debug : Int

/-- The constructors. `core/options_base.h:30-83`, `core/options_makemultimages.h:22-64`, `core/definitions.h`. -/
def defaultMultiMake : MultiMakeOpts where
  config := []
  imageInfo := none
  saveExpanded := false
  subsampling := true
  saveImage := true
  root := "modelimage_multi".toList
  estimationSize := 5000
  functionRoot := none
  timing := 0
  maxThreads := none
  debug := 0

/-- The parser of `makemultimages`. `core/makemultimages_main.cpp:480-501`. -/
def multiMakeParser : CLine :=
  let p := [["help".toList, "h".toList], ["version".toList, "v".toList], ["list-functions".toList], ["list-parameters".toList], ["sample-config".toList], ["save-expanded".toList],
    ["nosubsampling".toList], ["nosave".toList]].foldl CLine.addFlag CLine.new
  let p := [["image-info".toList], ["output".toList, "o".toList], ["estimation-size".toList], ["output-functions".toList], ["timing".toList], ["max-threads".toList],
    ["debug".toList]].foldl CLine.addOption p
  p.strict

/-- The blocks of `ProcessInput` after parsing, in the order of the source. `core/makemultimages_main.cpp:513-604`. -/
def multiMakeSteps (p : CLine) : List (MultiMakeOpts → Res MultiMakeOpts) :=
  [(fun o => if 0 < p.args.length then do let a ← p.argument 0; .ok { o with config := a } else .ok o),
    exitFlag p "help".toList,
    (fun o => if p.empty then .error .exit else .ok o),
    exitFlag p "version".toList,
    exitFlag p "list-functions".toList,
    exitFlag p "list-parameters".toList,
    exitFlag p "sample-config".toList,
    onFlag p "save-expanded".toList fun o => { o with saveExpanded := true },
    onFlag p "nosubsampling".toList fun o => { o with subsampling := false },
    onFlag p "nosave".toList fun o => { o with saveImage := false },
    onOption p "image-info".toList fun t => .ok fun o => { o with imageInfo := some t },
    onOption p "output".toList fun t => .ok fun o => { o with root := t },
    onOption p "estimation-size".toList (asLong .posInt fun z o => { o with estimationSize := longToInt z }),
    onOption p "output-functions".toList fun t => .ok fun o => { o with functionRoot := some t },
    onOption p "timing".toList (asLong .posInt fun z o => { o with timing := longToInt z, saveImage := false }),
    onOption p "max-threads".toList (asLong .posInt fun z o => { o with maxThreads := some (longToInt z) }),
    onOption p "debug".toList (asLong .anyInt fun z o => { o with debug := longToInt z })]

/-- `ProcessInput`. `core/makemultimages_main.cpp:434-609`. -/
def multiMakeInput (argv : List Str) : Res MultiMakeOpts := do
  let r ← parseCommandLine multiMakeParser argv
  if r.1 < 0 then .error .exit else (multiMakeSteps r.2).foldlM (fun o s => s o) defaultMultiMake

/-! ## Sizes and functions of the images -/

/-- The size of an image: from its description, else from its data image. `core/makemultimages_main.cpp:221-241, 266`. -/
def describedSize (w : Disk α) (i : ImgInfo α) : Res (Int × Int) :=
  if 0 < i.nColumns ∧ 0 < i.nRows then setupSize i.nColumns i.nRows
  else match i.data with
    | some f => do
      let s ← getImageSize w f
      if s.2.2.2 then setupSize s.2.1 s.2.2.1 else .error .exit
    | none => .error .exit

/-- Size and functions of one image. A refused function ends the program. `core/makemultimages_main.cpp:221-309`; from 261 on the text is that of `core/multimfit_main.cpp:402-450`. -/
def makeModel (cat : Catalogue) (w : Disk α) (c : Config α) (i : ImgInfo α) : Res ((Int × Int) × Built) := do
  let s ← describedSize w i
  match ← buildImage cat c i with
  | none => .error .exit
  | some b => .ok (s, b)

/-- The loop over the images. `nImages` is the number of images that `ReadImageParamsFile` has counted and `infos` what it has stored: its status is not looked at.
`core/makemultimages_main.cpp:183, 206-310`. -/
def makeModels (cat : Catalogue) (w : Disk α) (c : Config α) (nImages : Nat) (infos : List (ImgInfo α)) : Res (List ((Int × Int) × Built)) :=
  loopMap nImages fun k => do
    let i ← rd infos k
    makeModel cat w c i

/-- A model of several images that is ready to make them: the parameter holder, the sizes of its arrays and all parameters. -/
structure MultiReady (α : Type) where
  holder : PHolder
  arrays : List Nat
  params : List α

/-- The functions of all images and the parameters. `per0` is what `nPerImageParams` holds before `FinalModelSetup` adds to it (`none`: nothing, see `finalModelCounts`).
`core/makemultimages_main.cpp:315-377`. -/
def makeReady [FP α] (cat : Catalogue) (per0 : Option Int) (c : Config α) (nImages : Nat) (infos : List (ImgInfo α)) (counts : List Nat) : Res (MultiReady α) := do
  let d ← imageDescParams infos []
  match ← addFunctions cat (fun _ => decide (0 < nImages)) (N_IMAGE_PARAMS * (nImages - 1)) (descLabels (nImages - 1)) c.names c.labels c.starts [] [] with
  | none => .error .exit
  | some b => do
    let n := finalModelCounts per0 (b.fns.map fun f => f.pars.length).sum c.starts.length b.total counts
    let total ← knownTotal n.1
    let h ← generalSetup 0 nImages total c.starts.length ((b.fns.map fun f => f.pars.length).zip b.flags) n.2
    let own := localVals (infos.take nImages)
    if (total : Int) ≠ d.2 + c.vals.length + own.length then .error .exit
    else .ok ⟨h.1, h.2, d.1.1 ++ c.vals ++ own⟩

/-- Making an image: its number, functions, description (pixel scale, rotation, intensity scale) and parameters. -/
abbrev Renders (α : Type) := Nat → List FnBuilt → α × α × α → List α → Res (List α)

/-- Image `k`. `core/model_object_multimage.cpp:336-354`. -/
def makeOne [FP α] [FM α] (render : Renders α) (m : MultiReady α) (fns : List FnBuilt) (k : Nat) : Res (List α) := do
  let d ← imageDesc m.params k
  let n ← rd m.arrays k
  let p ← assemble m.holder m.params k (List.replicate n 0)
  render k fns d p

/-- The name of the file for image `k`, from 0. `core/makemultimages_main.cpp:389`. -/
def multiFile (root : Str) (k : Nat) : Str := root ++ "_".toList ++ (Nat.repr k).toList ++ ".fits".toList

/-- `main` after the files have been read: what is written. `can`: the file can be written; otherwise only a message is printed. `core/makemultimages_main.cpp:179-396`. -/
def multiMake [FP α] [FM α] (cat : Catalogue) (per0 : Option Int) (w : Disk α) (can : Str → Bool) (render : Renders α) (o : MultiMakeOpts) (c : Config α)
    (nImages : Nat) (infos : List (ImgInfo α)) : Res (List (Picture α)) :=
  match o.imageInfo with
  | none => .error .exit
  | some _ => do
    let ms ← makeModels cat w c nImages infos
    let r ← makeReady cat per0 c nImages infos (ms.map fun m => m.2.total)
    let ps ← loopMap ms.length fun k => do
      let m ← rd ms k
      let v ← makeOne render r m.2.fns k
      .ok (⟨multiFile o.root k, m.1.1, m.1.2, v⟩ : Picture α)
    .ok (ps.filter fun p => can p.name)

end Imfit
