import Verif.Model.Region
import Verif.Model.Convolve
import Verif.Model.Psf
import Verif.Model.Text

/-!
# PSF images of oversampled regions

Source: `core/getimages.cpp` (`GetOversampledPsfInfo`), `core/store_psf_oversampling.cpp`, `core/psf_oversampling_info.cpp`,
`core/oversampled_region.cpp` (`AddPSFVector`, `SetupModelImage`), `core/convolver.cpp` (`DoFullSetup`), `core/model_object.cpp` (`AddOversampledPsfInfo`).

Pixel arrays are shared between regions by pointer, and one of their users writes to them, so they live in a heap here. Reading FITS files is a parameter.
-/

namespace Imfit

variable {α : Type}

/-- A `PsfOversamplingInfo`: the region string, the pixel array (its place in the heap), the scale, the offset of the image section and the normalisation
flag. `core/psf_oversampling_info.cpp:43-74`. -/
structure OsInfo where
  region : Str
  psf : Nat
  scale : Int
  offset : Int × Int
  normalize : Bool
  deriving DecidableEq, Repr

/-- The loop of `GetOversampledPsfInfo`, `core/getimages.cpp:169-198`, and of `ExtractAndStorePsfOversampling`, `core/store_psf_oversampling.cpp:79-109`,
for the first `n` regions; `none` is the status -1. The first calls `AddImageOffset` with the offset of the image section, the second does not, so that the
offset keeps the value (0, 0) of the constructor. In both the flag `normalizePSF` keeps the value `true` of the constructor. -/
def loadLoop (read : Str → Option (OsPsf α)) (off : Int × Int) (regions files : List Str) (scales : List Int) : Nat → Res (Option (List (OsPsf α) × List OsInfo))
  | 0 => .ok (some ([], []))
  | n + 1 => do
    match ← loadLoop read off regions files scales n with
    | none => pure none
    | some (heap, infos) => do
      let reg ← rd regions n
      if n = 0 ∨ 1 < files.length then do
        let f ← rd files n
        match read f with
        | none => pure none
        | some img => do
          let s ← rd scales n
          pure (some (heap ++ [img], infos ++ [⟨reg, heap.length, s, off, true⟩]))
      else
        match infos.getLast? with
        | none => .error .uninit
        | some p => pure (some (heap, infos ++ [⟨reg, p.psf, p.scale, off, true⟩]))

/-- `GetOversampledPsfInfo`, `core/getimages.cpp:137-201` (`imfit`, `imfit-mcmc`, `makeimage`); `off` is the offset of the image section. -/
def loadRegions (read : Str → Option (OsPsf α)) (off : Int × Int) (regions files : List Str) (scales : List Int) :
    Res (Option (List (OsPsf α) × List OsInfo)) :=
  if regions.length < 1 then .ok none
  else if files.length ≠ scales.length then .ok none
  else if 1 < files.length ∧ files.length ≠ regions.length then .ok none
  else loadLoop read off regions files scales regions.length

/-- `ExtractAndStorePsfOversampling`, `core/store_psf_oversampling.cpp:44-112` (`multimfit`, `makemultimages`). `oversampleRegionSet` is true if there is a
region (`core/imageparams_file_parser.cpp:490-493`). -/
def loadRegionsMulti (read : Str → Option (OsPsf α)) (regions files : List Str) (scales : List Int) : Res (Option (List (OsPsf α) × List OsInfo)) :=
  if files.length ≠ scales.length then .ok none
  else if 1 < files.length ∧ files.length ≠ regions.length then .ok none
  else if regions.length < 1 then .ok none
  else loadLoop read (0, 0) regions files scales regions.length

/-- The two uses of a PSF image by a region: the values from which the interpolator for point sources is made, and the values that are transformed for
the convolution. -/
structure RegionPsf (α : Type) where
  interp : List α
  conv : List α

/-- The parts of `AddOversampledPsfInfo`, `OversampledRegion::AddPSFVector` and `Convolver::DoFullSetup` that use the PSF image: the test of the pixels, the
interpolator (`gsl_spline2d_init` copies the values), then the normalisation in place. `core/model_object.cpp:903-908, 940-943`,
`core/oversampled_region.cpp:175-185, 241`, `core/convolver.cpp:296-306`. -/
def addRegionPsf [FP α] (heap : List (OsPsf α)) (i : OsInfo) : Res (Option (List (OsPsf α) × RegionPsf α)) := do
  let p ← rd heap i.psf
  if !(p.pix.all fun v => isfin v) then pure none
  else
    let q := if i.normalize then normalizePsf p.pix else p.pix
    let heap' ← wr heap i.psf { p with pix := q }
    pure (some (heap', ⟨p.pix, q⟩))

/-- The loop over the regions, `core/setup_model_object.cpp:96-104`. -/
def addRegionPsfs [FP α] : List (OsPsf α) → List OsInfo → Res (Option (List (RegionPsf α)))
  | _, [] => .ok (some [])
  | heap, i :: is => do
    match ← addRegionPsf heap i with
    | none => pure none
    | some (heap', r) =>
      match ← addRegionPsfs heap' is with
      | none => pure none
      | some rs => pure (some (r :: rs))

end Imfit
