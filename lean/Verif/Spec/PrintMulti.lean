import Verif.Spec.ImageInfo
import Verif.Model.Print

/-!
# What a saved image-information file keeps

Stated with the records of the images only.
-/

namespace Imfit.Spec

variable {α : Type} [FP α]

/-- A number that is written only when it is not the default: what is read. -/
def orDefault (val : Str → α) (text : α → Str) (dflt v : α) : α := if FP.fle v dflt && FP.fle dflt v then dflt else val (text v)

/-- The record of an image after writing and reading. `p`: the values of the five image-description parameters (`none` for the reference image).
Everything that is not mentioned has its default. -/
def survives (nl : NumLib α) (pr : NumFmt α) (g : α → Str) (d : Int → Str) (im : ImgInfo α) (p : Option (ImgPar → α)) : ImgInfo α :=
  { ImgInfo.init with
    data := im.data, mask := im.mask, err := im.err, psf := im.psf
    originalSky := orDefault nl.d.val g 0 im.originalSky
    gain := orDefault nl.d.val g 1 im.gain
    readNoise := orDefault nl.d.val g 0 im.readNoise
    overNames := im.overNames.take im.overRegions.length
    overScales := (im.overScales.take (im.overNames.take im.overRegions.length).length).map fun s => nl.toInt (d s)
    overRegions := if im.overNames = [] then [] else im.overRegions
    pixelScale := (p.map fun v => nl.d.val ((pr.g7 (v .pixelScale)).dropWhile (· == ' '))).getD 1
    rotation := (p.map fun v => nl.d.val ((pr.g7 (v .rotation)).dropWhile (· == ' '))).getD 0
    intensityScale := (p.map fun v => nl.d.val ((pr.g7 (v .intensityScale)).dropWhile (· == ' '))).getD 1
    x0 := (p.map fun v => nl.d.val (pr.f4 (v .x0))).getD 0
    y0 := (p.map fun v => nl.d.val (pr.f4 (v .y0))).getD 0
    pixelScaleLim := { ParInfo.zero with fixed := p.isSome }
    rotationLim := { ParInfo.zero with fixed := p.isSome } }

/-- Values of the image-description parameters of image `k + 1` in a parameter vector. -/
def descOf (params : List α) (k : Nat) : ImgPar → α
  | .pixelScale => params.getD (5 * k) 0
  | .rotation => params.getD (5 * k + 1) 0
  | .intensityScale => params.getD (5 * k + 2) 0
  | .x0 => params.getD (5 * k + 3) 0
  | .y0 => params.getD (5 * k + 4) 0

/-- The images of a saved file. -/
def survivors (nl : NumLib α) (pr : NumFmt α) (g : α → Str) (d : Int → Str) (params : List α) : List (ImgInfo α) → List (ImgInfo α)
  | [] => []
  | im :: ims => survives nl pr g d im none :: ims.mapIdx fun k im => survives nl pr g d im (some (descOf params k))

end Imfit.Spec
