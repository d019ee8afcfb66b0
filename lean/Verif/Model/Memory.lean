/-!
# Memory

The arrays of the size of an image that a run of `imfit` allocates, in the order of the code, and the estimate that it prints.
Source: `core/estimate_memory.cpp` and the places named below. `int` and `long` do not overflow. Arrays with one element per parameter, row or column are left out, and so is what the libraries
allocate for themselves.
-/

namespace Imfit

/-- An array: number of elements, and bytes of each. -/
structure Arr where
  count : Nat
  size : Nat

/-- An oversampled region. `isNew`: its PSF is not shared with an earlier region. -/
structure MemRegion where
  x1 : Nat
  x2 : Nat
  y1 : Nat
  y2 : Nat
  scale : Nat
  psfCols : Nat
  psfRows : Nat
  isNew : Bool

/-- What decides about the memory: sizes, input images, statistic, solver, output. -/
structure MemRun where
  cols : Nat
  rows : Nat
  psf : Option (Nat × Nat)
  regions : List MemRegion
  maskImage : Bool
  noiseImage : Bool
  /-- Cash statistic or Poisson MLR -/
  cash : Bool
  levMar : Bool
  nFree : Nat
  /-- unmasked pixels -/
  nValid : Nat
  bootstrap : Bool
  saveModel : Bool
  saveResidual : Bool
  saveWeights : Bool

/-- Pixels of the data image. -/
def MemRun.n (r : MemRun) : Nat := r.cols * r.rows

/-- `if b` an array. -/
def arrIf (b : Bool) (l : List Arr) : List Arr := if b then l else []

/-- `Convolver::DoFullSetup`, `core/convolver.cpp:218-219, 225-242`. -/
def convolverArrays (imCols imRows psfCols psfRows : Nat) : List Arr :=
  let c := imCols + psfCols - 1
  let r := imRows + psfRows - 1
  let real := c * r
  let complex := r * (c / 2 + 1)
  [⟨real, 8⟩, ⟨complex, 16⟩, ⟨real, 8⟩, ⟨complex, 16⟩, ⟨complex, 16⟩, ⟨real, 8⟩]

/-- The images that are read, `core/imfit_main.cpp:195-236`, `core/getimages.cpp:73-135`, `core/image_io.cpp:283`. -/
def inputArrays (r : MemRun) : List Arr :=
  [⟨r.n, 8⟩] ++ arrIf r.maskImage [⟨r.n, 8⟩] ++ arrIf r.noiseImage [⟨r.n, 8⟩] ++
    (match r.psf with
      | none => []
      | some p => [⟨p.1 * p.2, 8⟩]) ++
    r.regions.flatMap fun g => arrIf g.isNew [⟨g.psfCols * g.psfRows, 8⟩]

/-- `AddPSFVector`, `SetupModelImage`, `core/model_object.cpp:837, 497-517`. -/
def modelArrays (r : MemRun) : List Arr :=
  match r.psf with
  | none => [⟨r.n, 8⟩]
  | some p =>
    let c := r.cols + 2 * p.1
    let s := r.rows + 2 * p.2
    [⟨p.1 * p.2, 8⟩] ++ convolverArrays c s p.1 p.2 ++ [⟨c * s, 8⟩]

/-- `AddOversampledPsfInfo` and `SetupModelImage` of the region: the region is cut to the image. `core/model_object.cpp:910-940`, `core/oversampled_region.cpp:234-258`. -/
def regionArrays (r : MemRun) (g : MemRegion) : List Arr :=
  let dx := min g.x2 r.cols + 1 - max g.x1 1
  let dy := min g.y2 r.rows + 1 - max g.y1 1
  let c := dx * g.scale + 2 * g.psfCols
  let s := dy * g.scale + 2 * g.psfRows
  convolverArrays c s g.psfCols g.psfRows ++ [⟨c * s, 8⟩]

/-- Weights and terms of the statistic. `core/setup_model_object.cpp:115-155`, `core/model_object.cpp:650, 977, 1013, 1519, 1554, 1561`. A noise image is used in place as the weights, and not used with
the Cash statistic or the MLR. Errors from the data (`GenerateErrorVector`) and from the model (`UseModelErrors`) both need an array. -/
def statisticArrays (r : MemRun) : List Arr :=
  (if r.cash then [⟨r.n, 8⟩, ⟨r.n, 8⟩] else arrIf (!r.noiseImage) [⟨r.n, 8⟩]) ++ arrIf (!r.maskImage) [⟨r.n, 8⟩]

/-- The fit: `mpfit` (`solvers/mpfit.cpp:506, 510, 516`), and the deviates in `ChiSquared` (`core/model_object.cpp:1639-1642`), which is called for every solver when the result is printed. -/
def fitArrays (r : MemRun) : List Arr :=
  arrIf r.levMar [⟨r.n, 8⟩, ⟨r.n * r.nFree, 8⟩, ⟨r.n, 8⟩] ++ arrIf (!r.cash) [⟨r.n, 8⟩]

/-- Bootstrap indices and output, `core/model_object.cpp:2067, 2266-2269, 2325, 2366`. -/
def outputArrays (r : MemRun) : List Arr :=
  arrIf r.bootstrap [⟨r.nValid, 8⟩] ++ arrIf (r.saveModel && r.psf.isSome) [⟨r.n, 8⟩] ++ arrIf r.saveResidual [⟨r.n, 8⟩] ++ arrIf r.saveWeights [⟨r.n, 8⟩]

/-- All arrays of a run of `imfit`. -/
def runArrays (r : MemRun) : List Arr :=
  inputArrays r ++ modelArrays r ++ r.regions.flatMap (regionArrays r) ++ statisticArrays r ++ fitArrays r ++ outputArrays r

/-- `EstimateConvolverMemoryUse`, `core/estimate_memory.cpp:53-74`: the pixels of the PSF are counted as bytes. -/
def estimateConvolver (imCols imRows psfCols psfRows : Nat) : Nat :=
  let c := imCols + psfCols - 1
  let r := imRows + psfRows - 1
  psfCols * psfRows + 3 * (c * r) * 8 + 3 * ((c / 2 + 1) * r) * 16

/-- One turn of `EstimatePsfOversamplingMemoryUse`, `core/estimate_memory.cpp:103-119`: the region is not cut to the image. -/
def estimateRegion (g : MemRegion) : Nat :=
  let c := (g.x2 + 1 - g.x1) * g.scale + 2 * g.psfCols
  let s := (g.y2 + 1 - g.y1) * g.scale + 2 * g.psfRows
  c * s * 8 + estimateConvolver c s g.psfCols g.psfRows

/-- `EstimateMemoryUse`, `core/estimate_memory.cpp:127-166`. A size of 0 stands for no PSF. -/
def estimateUse (cols rows psfCols psfRows nFree : Nat) (levMar cash residual model : Bool) : Nat :=
  let data := cols * rows * 8
  let c := cols + 2 * psfCols
  let s := rows + 2 * psfRows
  let conv := if 0 < psfCols then estimateConvolver c s psfCols psfRows else 0
  let modelPixels := if 0 < psfCols then c * s else cols * rows
  let k := (if levMar then 3 + nFree else 0) + (if cash then 1 else 0) + (if residual then 1 else 0) + (if model then 1 else 0)
  data + conv + 3 * (modelPixels * 8) + k * data

/-- What `imfit` prints, `core/imfit_main.cpp:329-333`. -/
def estimate (r : MemRun) : Nat :=
  let p := r.psf.getD (0, 0)
  estimateUse r.cols r.rows p.1 p.2 r.nFree r.levMar r.cash r.saveResidual r.saveModel + (r.regions.map estimateRegion).sum

end Imfit
