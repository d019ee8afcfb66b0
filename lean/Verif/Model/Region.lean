import Verif.Model.Image

/-!
# Setting up an oversampled region

Source: `core/model_object.cpp:881-952` (`AddOversampledPsfInfo`), `core/psf_oversampling_info.cpp:194-205`,
`core/oversampled_region.cpp:163-273`.
-/

namespace Imfit

variable {α : Type}

/-- A rectangle of pixels x1..x2, y1..y2 (inclusive, 1-based). -/
structure Rect where
  x1 : Int
  x2 : Int
  y1 : Int
  y2 : Int

/-- `PsfOversamplingInfo::GetCorrectedRegionCoords`: the offset of the image section is subtracted.
`core/psf_oversampling_info.cpp:194-205` (the text of the region is parsed in `Model/Section.lean`). -/
def correctRect (r : Rect) (xOff yOff : Int) : Rect := ⟨r.x1 - xOff, r.x2 - xOff, r.y1 - yOff, r.y2 - yOff⟩

/-- Restrict a rectangle to the image. `core/model_object.cpp:913-920`. -/
def clipRect (r : Rect) (cols rows : Nat) : Rect :=
  ⟨if r.x1 < 1 then 1 else r.x1, if r.x2 > (cols : Int) then (cols : Int) else r.x2,
   if r.y1 < 1 then 1 else r.y1, if r.y2 > (rows : Int) then (rows : Int) else r.y2⟩

/-- An oversampled PSF image. -/
structure OsPsf (α : Type) where
  cols : Nat
  rows : Nat
  pix : List α

/-- The second half of `AddOversampledPsfInfo` with `OversampledRegion::AddPSFVector` and `SetupModelImage`, after clipping;
`conv` and `interp` stand for the `Convolver` and the `PsfInterpolator_bicubic` made from the PSF (the interpolator only if the PSF is at least
4 x 4, otherwise a null pointer). `core/model_object.cpp:921-951`, `core/oversampled_region.cpp:163-273`. -/
def makeRegion (c : Rect) (scale : Nat) (psf : OsPsf α) (main : Geom) (conv : List α → List α) (interp : Interp α) : Res (Region α) :=
  let dx := c.x2 - c.x1 + 1
  let dy := c.y2 - c.y1 + 1
  if ¬ dx > 0 then .error .assert
  else if ¬ dy > 0 then .error .assert
  else .ok {
    x1 := c.x1
    y1 := c.y1
    geom := ⟨dx.toNat * scale + 2 * psf.cols, dy.toNat * scale + 2 * psf.rows, psf.cols, psf.rows⟩
    scale := scale
    conv := some conv
    interp := if 4 ≤ psf.cols ∧ 4 ≤ psf.rows then some interp else none
    main := main }

/-- `ModelObject::AddOversampledPsfInfo`, `core/model_object.cpp:881-952`: `none` is the status -1 (non-finite PSF pixels). -/
def addRegion [FP α] (r : Rect) (scale : Int) (psf : OsPsf α) (dataCols dataRows : Nat) (main : Geom)
    (conv : List α → List α) (interp : Interp α) : Res (Option (Region α)) :=
  if ¬ (1 ≤ psf.cols ∧ 1 ≤ psf.rows) then .error .assert
  else if ¬ (r.x1 < r.x2 ∧ r.y1 < r.y2) then .error .assert
  else if ¬ 1 ≤ scale then .error .assert
  else if ¬ (0 < main.cols ∧ 0 < main.rows) then .error .assert
  else if !(psf.pix.all fun p => isfin p) then .ok none
  else do
    let g ← makeRegion (clipRect r dataCols dataRows) scale.toNat psf main conv interp
    pure (some g)

end Imfit
