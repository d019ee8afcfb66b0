import Verif.Props.C37
import Verif.Props.C41

/-!
# C37 — positions and sizes in images with another pixel scale
-/

namespace Imfit

open Spec XR

/-- C37, an inconsistency of the code: `CalculateOffset_X0Y0` multiplies distances by the pixel scale of an image, `SetImageParameters` divides sizes by it. An exponential
with scale length 10 has dropped by the factor e at a distance of 10 in the reference image; in an image with pixel scale 2 the corresponding point is at a
distance of 20, where (scale length 5) the function has dropped by the factor e⁴. -/
theorem C37_sizes_false :
    calculateOffset (fin 0) (fin 0) (fin 10) (fin 0) (fin 0) (fin 0) (fin 2) (fin 0) = (fin 20, fin 0, 0) ∧
    EFun.exponential.value false (defaultDesc : ImgDesc XR) [fin 0, fin 0, fin 1, fin 10] 0 (fin 0) (fin 0) (fin 10) (fin 0) = .ok (fin (Real.exp (-1))) ∧
    EFun.exponential.value false (setImageParameters (fin 2) (fin 0) (fin 1)) [fin 0, fin 0, fin 1, fin 10] 0 (fin 0) (fin 0) (fin 20) (fin 0) =
      .ok (fin (Real.exp (-4))) := by
  have h2 : ¬ ((2 : ℝ) ≤ 0) := by norm_num
  refine ⟨by simp [calculateOffset, h2]; norm_num, ?_, ?_⟩
  · have h := C42_central .exponential false 1 0 1 one_pos ⟨0, 0, 1, 10, 1⟩ (by norm_num) (by norm_num) (by norm_num) [] [] 0 0 10 0 (.inl rfl)
    refine h.trans ?_
    simp only [sub_zero, ellRadius_circle, EFun.spec, expProfile, Phys.inImage]
    rw [show ((10 : ℝ) ^ 2 + 0 ^ 2) = 10 ^ 2 by norm_num, Real.sqrt_sq (by norm_num)]
    norm_num
  · have hd : setImageParameters (fin 2) (fin 0) (fin 1) = ⟨fin (1 / 2), fin 0, fin 1⟩ := by
      simp only [setImageParameters, one_def]
      rw [fin_div_of_ne (by norm_num)]
    rw [hd]
    have h := C42_central .exponential false (1 / 2) 0 1 (by norm_num) ⟨0, 0, 1, 10, 1⟩ (by norm_num) (by norm_num) (by norm_num) [] [] 0 0 20 0 (.inl rfl)
    refine h.trans ?_
    simp only [sub_zero, ellRadius_circle, EFun.spec, expProfile, Phys.inImage]
    rw [show ((20 : ℝ) ^ 2 + 0 ^ 2) = 20 ^ 2 by norm_num, Real.sqrt_sq (by norm_num)]
    norm_num

end Imfit
