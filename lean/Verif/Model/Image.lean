import Verif.Model.Fit

/-!
# Computation of the model image

Source: `core/model_object.cpp:1103-1336` (`CreateModelImage`, `GetSingleFunctionImage`), `core/oversampled_region.cpp`,
`core/downsample.cpp`, `function_objects/func_pointsource.cpp`.

An image function other than `PointSource` is given by its parameter count and the value of `GetValue(x, y)` after
`Setup(params, offset, x0, y0)`; that a function's value depends on nothing else (no state kept from earlier calls)
is an assumption of this file, which the definitions of `Model/Func.lean` and `Model/Plane.lean` have by construction. `PointSource` objects are modelled
with their mutable members. `Convolver::ConvolveImage` is a parameter here (see `Model/Convolve.lean`), and so are the PSF
interpolators (see `Model/Psf.lean`).
-/

namespace Imfit

variable {α : Type}

/-- `PsfInterpolator::GetValue`. -/
abbrev Interp (α : Type) := α → α → α

/-- An image function: parameter count, `IsPointSource()`, and for ordinary functions the value as a function of
(own parameters, x0, y0, x, y). -/
structure FnDesc (α : Type) where
  nParams : Nat
  isPoint : Bool
  val : List α → α → α → α → α → α

/-- A `FunctionObject` instance. `pars`, `x0`, `y0` are stored by `Setup`; `interp` (null or a PSF interpolator), `oscale`
and `iscale` are members of `PointSource` (`function_objects/func_pointsource.cpp:82, 114-117, 132-135, 206-211`). -/
structure FnObj (α : Type) where
  desc : FnDesc α
  pars : List α
  x0 : α
  y0 : α
  interp : Option (Interp α)
  oscale : α
  iscale : α

/-- `Setup(params, offset, x0, y0)`: reads this function's parameters. -/
def fnSetup (o : FnObj α) (params : List α) (offset : Nat) (x0 y0 : α) : Res (FnObj α) := do
  let ps ← loopMap o.desc.nParams fun k => rd params (offset + k)
  pure { o with pars := ps, x0 := x0, y0 := y0 }

/-- `GetValue(x, y)`; for `PointSource` see `function_objects/func_pointsource.cpp:220-229`. -/
def fnValue [FP α] (o : FnObj α) (x y : α) : Res α :=
  if o.desc.isPoint then
    match o.interp with
    | none => .error .null
    | some f => do
      let p ← rd o.pars 0
      pure (p * o.iscale * f (o.oscale * (x - o.x0)) (o.oscale * (y - o.y0)))
  else .ok (o.desc.val o.pars o.x0 o.y0 x y)

/-- State of the set-up loop: position in the parameter vector and current X0, Y0. -/
structure SetupPos (α : Type) where
  offset : Nat
  x0 : α
  y0 : α

/-- Read a new X0, Y0 pair at the start of a function set. `core/model_object.cpp:1127-1132`. -/
def newSet (params : List α) (p : SetupPos α) (start : Bool) : Res (SetupPos α) :=
  if start then do
    let x0 ← rd params p.offset
    let y0 ← rd params (p.offset + 1)
    pure ⟨p.offset + 2, x0, y0⟩
  else .ok p

/-- The loop that distributes the parameters. `core/model_object.cpp:1126-1135`, `1283-1292`. The flags come from
`fsetStartFlags`. -/
def setupFns (params : List α) : List (FnObj α × Bool) → SetupPos α → Res (List (FnObj α) × SetupPos α)
  | [], p => .ok ([], p)
  | (o, start) :: rest, p => do
    let p1 ← newSet params p start
    let o1 ← fnSetup o params p1.offset p1.x0 p1.y0
    let r ← setupFns params rest { p1 with offset := p1.offset + o.desc.nParams }
    pure (o1 :: r.1, r.2)

/-- Kahan accumulator: `newValSum` and `storedError`. -/
structure KS (α : Type) where
  sum : α
  err : α

/-- One compensated addition. `core/model_object.cpp:1167-1170`. -/
def kahanAdd [FP α] (s : KS α) (v : α) : KS α :=
  let adj := v - s.err
  let t := s.sum + adj
  ⟨t, (t - s.sum) - adj⟩

/-- One turn of the loop over functions for one pixel; functions whose `IsPointSource()` differs from `want` are skipped.
`core/model_object.cpp:1164-1172`, `1206-1214`. -/
def pixelStep [FP α] (want : Bool) (x y : α) (s : KS α) (o : FnObj α) : Res (KS α) :=
  if o.desc.isPoint = want then do
    let v ← fnValue o x y
    pure (kahanAdd s v)
  else .ok s

/-- The loop over functions for one pixel. -/
def pixelSum [FP α] (want : Bool) (x y : α) : List (FnObj α) → KS α → Res (KS α)
  | [], s => .ok s
  | o :: rest, s => do
    let s1 ← pixelStep want x y s o
    pixelSum want x y rest s1

/-- Geometry of a (padded) model image. -/
structure Geom where
  cols : Nat
  rows : Nat
  psfCols : Nat
  psfRows : Nat

/-- `nModelVals`. -/
def Geom.n (g : Geom) : Nat := g.cols * g.rows

/-- Coordinates at which pixel `k` of the main model image is evaluated (1-based data-image coordinates).
`core/model_object.cpp:1156-1161`. -/
def mainX [FP α] (g : Geom) (k : Nat) : α := lit (((k % g.cols : Nat) : Int) - (g.psfCols : Int) + 1 : Int)
/-- see `mainX` -/
def mainY [FP α] (g : Geom) (k : Nat) : α := lit (((k / g.cols : Nat) : Int) - (g.psfRows : Int) + 1 : Int)

/-- Fill an image with the sum of the ordinary functions. `core/model_object.cpp:1155-1174`. (`i*nModelColumns + j` is `k`.) -/
def fillImage [FP α] (n : Nat) (X Y : Nat → α) (fns : List (FnObj α)) : Res (List α) :=
  loopMap n fun k => do
    let s ← pixelSum false (X k) (Y k) fns ⟨0, 0⟩
    pure s.sum

/-- Add the point sources to an image. `core/model_object.cpp:1197-1216`. -/
def addPoints [FP α] (n : Nat) (X Y : Nat → α) (fns : List (FnObj α)) (img : List α) : Res (List α) :=
  loopMap n fun k => do
    let s ← pixelSum true (X k) (Y k) fns ⟨0, 0⟩
    let v ← rd img k
    pure (v + s.sum)

/-- An oversampled region (`core/oversampled_region.h`). `conv = none` means no PSF was supplied. -/
structure Region (α : Type) where
  x1 : Int
  y1 : Int
  /-- oversampled image: columns, rows, padding -/
  geom : Geom
  scale : Nat
  conv : Option (List α → List α)
  interp : Option (Interp α)
  /-- main model image: columns, rows, padding -/
  main : Geom

/-- `subpixFrac`, `core/oversampled_region.cpp:230`. -/
def subpix [FP α] (scale : Nat) : α := 1 / lit (scale : ℚ)

/-- Coordinates of oversampled pixel `k`. `core/oversampled_region.cpp:231-232, 313-319`. -/
def regionX [FP α] (r : Region α) (k : Nat) : α :=
  lit (r.x1 : ℚ) + (lit (1 / 2) * subpix r.scale - lit (1 / 2)) +
    lit ((((k % r.geom.cols : Nat) : Int) - (r.geom.psfCols : Int) : Int) : ℚ) * subpix r.scale
/-- see `regionX` -/
def regionY [FP α] (r : Region α) (k : Nat) : α :=
  lit (r.y1 : ℚ) + (lit (1 / 2) * subpix r.scale - lit (1 / 2)) +
    lit ((((k / r.geom.cols : Nat) : Int) - (r.geom.psfRows : Int) : Int) : ℚ) * subpix r.scale

/-- Sum of the sub-pixels of one main pixel: the two innermost loops of `DownsampleAndReplace`.
`core/downsample.cpp:96-103`. -/
def binFlux [FP α] (over : List α) (cols : Nat) (ii1 jj1 : Nat) (scale : Nat) : Res α :=
  forN scale 0 fun a acc => forN scale acc fun b acc2 => do
    let v ← rd over ((ii1 + a) * cols + (jj1 + b))
    pure (acc2 + v)

/-- Region size in main pixels. `core/downsample.cpp:78-79` — the number of rows is computed from the number of
*columns* of the oversampled image, as in the source. -/
def subCols (g : Geom) (scale : Nat) : Nat := (Int.tdiv ((g.cols : Int) - 2 * (g.psfCols : Int)) (scale : Int)).toNat
/-- see `subCols` -/
def subRows (g : Geom) (scale : Nat) : Nat := (Int.tdiv ((g.cols : Int) - 2 * (g.psfRows : Int)) (scale : Int)).toNat

/-- `DownsampleAndReplace`, `core/downsample.cpp:54-109`. -/
def downsample [FP α] (over : List α) (g : Geom) (main : List α) (mg : Geom) (x1 y1 : Int) (scale : Nat) :
    Res (List α) :=
  forN (subRows g scale) main fun is m1 => forN (subCols g scale) m1 fun js m2 => do
    let f ← binFlux over g.cols (is * scale + g.psfRows) (js * scale + g.psfCols) scale
    wrI m2 ((y1 - 1 + (mg.psfRows : Int) + (is : Int)) * (mg.cols : Int) + (x1 - 1 + (mg.psfCols : Int) + (js : Int)))
      (f / lit ((scale * scale : Nat) : ℚ))

/-- Give point sources another interpolator. `core/model_object.cpp:1187-1189`. -/
def setInterp (p : Option (Interp α)) (fns : List (FnObj α)) : List (FnObj α) :=
  fns.map fun o => if o.desc.isPoint then { o with interp := p } else o

/-- Give point sources the interpolator and the scale of a region. `core/oversampled_region.cpp:370-375`. -/
def setRegion [FP α] (r : Region α) (fns : List (FnObj α)) : List (FnObj α) :=
  fns.map fun o => if o.desc.isPoint then { o with interp := r.interp, oscale := lit (r.scale : ℚ) } else o

/-- Apply the convolver if there is one. -/
def applyConv (c : Option (List α → List α)) (img : List α) : List α :=
  match c with
  | some f => f img
  | none => img

/-- `OversampledRegion::ComputeRegionAndDownsample`, `core/oversampled_region.cpp:284-430`. Returns the main image and the
function objects (which keep the region's interpolator and scale). -/
def computeRegion [FP α] (r : Region α) (main : List α) (fns : List (FnObj α)) : Res (List α × List (FnObj α)) := do
  let v1 ← fillImage r.geom.n (regionX r) (regionY r) fns
  let v2 := applyConv r.conv v1
  let fns1 := setRegion r fns
  let v3 ← addPoints r.geom.n (regionX r) (regionY r) fns1 v2
  let m ← downsample v3 r.geom main r.main r.x1 r.y1 r.scale
  pure (m, fns1)

/-- All regions in order. `core/model_object.cpp:1222-1224`. -/
def computeRegions [FP α] : List (Region α) → List α → List (FnObj α) → Res (List α × List (FnObj α))
  | [], main, fns => .ok (main, fns)
  | r :: rest, main, fns => do
    let p ← computeRegion r main fns
    computeRegions rest p.1 p.2

/-- Members of `ModelObject` that take part in image computation. -/
structure Img (α : Type) where
  fns : List (FnObj α)
  starts : List Bool
  geom : Geom
  conv : Option (List α → List α)
  interp : Option (Interp α)
  regions : List (Region α)
  modelVec : List α
  computed : Bool

/-- `pointSourcesPresent` (set by `AddFunction`, `core/model_object.cpp:297-305`). -/
def Img.points (m : Img α) : Bool := m.fns.any fun o => o.desc.isPoint

/-- Point-source step of `CreateModelImage`. `core/model_object.cpp:1182-1218`. -/
def pointStep [FP α] (m : Img α) (fns : List (FnObj α)) (img : List α) : Res (List α × List (FnObj α)) :=
  if m.points then do
    let v ← addPoints m.geom.n (mainX m.geom) (mainY m.geom) (setInterp m.interp fns) img
    pure (v, setInterp m.interp fns)
  else .ok (img, fns)

/-- `ModelObject::CreateModelImage`, `core/model_object.cpp:1103-1229`. A non-finite parameter only gives a warning there. -/
def createModelImage [FP α] (m : Img α) (params : List α) : Res (Img α) := do
  let r ← setupFns params (m.fns.zip m.starts) ⟨0, 0, 0⟩
  let v1 ← fillImage m.geom.n (mainX m.geom) (mainY m.geom) r.1
  let v2 := applyConv m.conv v1
  let p ← pointStep m r.1 v2
  let q ← computeRegions m.regions p.1 p.2
  pure { m with fns := q.2, modelVec := q.1, computed := true }

/-- `CheckParamVector`, `core/model_object.cpp:2481-2495`. -/
def checkParams [FP α] (params : List α) : Bool := params.all fun p => isfin p

/-- Reset the interpolator of one function if it is a point source. `core/model_object.cpp:1297-1298`. -/
def resetInterp (p : Option (Interp α)) (o : FnObj α) : FnObj α :=
  if o.desc.isPoint then { o with interp := p } else o

/-- Convolution step of `GetSingleFunctionImage`: not for point sources. `core/model_object.cpp:1317-1318`. -/
def singleConv (m : Img α) (o : FnObj α) (v : List α) : List α :=
  if o.desc.isPoint then v else applyConv m.conv v

/-- Regions of `GetSingleFunctionImage`: only function `idx` is passed on (once more for each region already done, but the
count argument is 1; the extra entries only repeat the interpolator assignment). `core/model_object.cpp:1321-1326`. -/
def singleRegions [FP α] : List (Region α) → List α → FnObj α → Res (List α × FnObj α)
  | [], main, o => .ok (main, o)
  | r :: rest, main, o => do
    let p ← computeRegion r main [o]
    match p.2 with
    | [o'] => singleRegions rest p.1 o'
    | _ => .error .oob

/-- `ModelObject::GetSingleFunctionImage` up to the final extraction of the data-sized image,
`core/model_object.cpp:1241-1326`. Non-finite parameters end the program. -/
def singleFunctionImage [FP α] (m : Img α) (params : List α) (idx : Nat) : Res (Img α) :=
  if checkParams params then do
    let r ← setupFns params (m.fns.zip m.starts) ⟨0, 0, 0⟩
    let o ← rd r.1 idx
    let o1 := resetInterp m.interp o
    let v1 ← loopMap m.geom.n fun k => fnValue o1 (mainX m.geom k) (mainY m.geom k)
    let v2 := singleConv m o1 v1
    let q ← singleRegions m.regions v2 o1
    pure { m with fns := r.1.set idx q.2, modelVec := q.1 }
  else .error .exit

end Imfit
