import Verif.Spec.Layout

/-!
# Columns of a table of parameters of several images

Five columns for every image but the first, then the columns of the shared functions.
-/

namespace Imfit.Spec

/-- Names of the image-description parameters. -/
def imageTitles : List Str := ["PIXEL_SCALE".toList, "IMAGE_PA".toList, "FLUX_SCALE".toList, "X0".toList, "Y0".toList]

/-- The titles of the columns for `n` images; `sizes` and `names` describe the shared functions. -/
def multiTitles (n : Nat) (sizes : List (List Nat)) (names : List (List Str)) : List Str :=
  ((List.range (n - 1)).flatMap fun i => imageTitles.map (· ++ "_IM_".toList ++ dec (i + 2))) ++ (slots sizes).map (slotHeader names)

/-- What stands in the columns. -/
def multiEntries {α : Type} [FP α] (fmt : α → Str) (n : Nat) (sizes : List (List Nat)) (ox oy : Int) (params : List α) : List Str :=
  (params.take (5 * (n - 1))).map fmt ++ List.zipWith (fun s v => fmt (slotValue ox oy s v)) (slots sizes) (params.drop (5 * (n - 1)))

end Imfit.Spec
