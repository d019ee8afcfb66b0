import Verif.Props.C04
import Verif.Lemmas.FitRun

/-!
# C47 — unsupported type codes are reported
-/

namespace Imfit

open Spec XR

/-- The dimensions recorded by the base setup are those of the data image. -/
theorem setupBase_dims {α : Type} [FP α] (i : FitInput α) (b : MO α) (hb : setupBase i = .ok b) :
    b.nDataVals = i.nCols * i.nRows ∧ b.nDataCols = i.nCols ∧ b.nDataRows = i.nRows := by
  have key : ∀ (s0 b : MO α), (addImageData s0 i.data i.nCols i.nRows >>= fun s1 =>
      addImageChars s1 i.gain i.readNoise i.expTime i.nCombined i.sky) = .ok b →
      b.nDataVals = i.nCols * i.nRows ∧ b.nDataCols = i.nCols ∧ b.nDataRows = i.nRows := by
    intro s0 b hb
    unfold addImageData setupModelImage at hb
    by_cases h : i.nCols < 1 ∨ i.nRows < 1
    · rw [if_pos h] at hb; exact absurd hb (by intro e; cases e)
    · rw [if_neg h] at hb
      simp only [ok_bind] at hb
      unfold addImageChars at hb
      split at hb
      · simp only [Except.ok.injEq] at hb
        subst hb
        dsimp only
        split_ifs <;> exact ⟨rfl, rfl, rfl⟩
      · exact absurd hb (by intro e; cases e)
  exact key _ _ hb

/-- Mask-format codes: for every arithmetic and every input whose base setup goes through, an undocumented code makes the setup
program stop with an error exit; no fit is done. The part about error-type codes is false, see `C47_error_code_false`. -/
theorem C47_mask_code_partial {α : Type} [FP α] (i : FitInput α) (m : List α) (code : Int) (hm : i.mask = some (m, code))
    (hc : code ≠ 10 ∧ code ≠ 20) (hb : ∃ b, setupBase i = .ok b) :
    runSetup i = .error .exit := by
  obtain ⟨b, hb⟩ := hb
  have hdim := setupBase_dims i b hb
  have h2 : addMask b m (i.nCols * i.nRows) i.nCols i.nRows code =
      .ok ({ b with maskVec := some m, nValid := some 0, maskExists := false }, -1) := by
    unfold addMask
    rw [hdim.1, hdim.2.1, hdim.2.2]
    simp [MASK_ZERO_IS_GOOD, MASK_ZERO_IS_BAD, hc.1, hc.2]
  unfold runSetup setupFit
  rw [hb]
  simp only [ok_bind]
  unfold setupMask
  rw [hm]
  simp only [h2, ok_bind]
  rfl

/-- The mask call itself returns the status -1 for an undocumented code (API users), for every mask of the right size. -/
theorem C47_addMask_code {α : Type} [FP α] (s : MO α) (m : List α) (code : Int) (hc : code ≠ 10 ∧ code ≠ 20) :
    ∃ s', addMask s m s.nDataVals s.nDataCols s.nDataRows code = .ok (s', -1) := by
  unfold addMask
  simp [MASK_ZERO_IS_GOOD, MASK_ZERO_IS_BAD, hc.1, hc.2]

/-- Two pixels, the second masked; an error image with type code 999. -/
noncomputable def c47Input : FitInput XR :=
  { nCols := 2, nRows := 1, data := [.fin 1, .fin 4], psf := none, mask := some ([.fin 0, .fin 1], 10), errors := [.fin 1, .fin 3],
    stat := .chi2User 999, gain := .fin 1, readNoise := .fin 0, expTime := .fin 1, nCombined := 1, sky := .fin 0 }

/-- The full claim is false for error-type codes: with the undocumented code 999 and a mask on the second pixel, the setup reports success
(status 0), the raw error values are used as weights and the mask is not applied: the masked pixel contributes to
the deviates (value 3 · (4 - model)). -/
theorem C47_error_code_false :
    ∃ s, runSetup c47Input = .ok (s, 0) ∧
      ∃ t, computeDeviates (withModel s [fin 0, fin 0]) = .ok (t, [fin 1, fin 12]) := by
  have hrun : runSetup c47Input = .ok ({ (moInit : MO XR) with
      nDataCols := 2, nDataRows := 1, nDataVals := 2, nValid := some 1, nModelCols := 2, nModelRows := 1, nModelVals := 2
      dataVec := some [fin 1, fin 4], weightVec := some [fin 1, fin 3], maskVec := some [fin 1, fin 0]
      modelVec := some [fin 0, fin 0], dataValsSet := true, weightValsSet := false, maskExists := true, externalError := true
      effGain := fin 1, nCombined := fin 1, readNoiseAduSq := fin 0, sky := fin 0 }, 0) := by
    simp [runSetup, setupFit, setupBase, c47Input, addImageData, setupModelImage, addImageChars, setupMask, addMask, MASK_ZERO_IS_GOOD,
      maskLoop, loopAcc, rd, badZeroIsGood, setupStat, addError, WEIGHTS_ARE_SIGMAS, WEIGHTS_ARE_VARIANCES, WEIGHTS_ARE_WEIGHTS,
      finalSetup, finalDefaultMask, finalMaskBadData, rdp, deref, finalGenErrors, finalGenExtra, finalMaskBadWeights, applyMask,
      checkWeights, forN, vetData, tooFewValid, moInit, List.replicate]
  refine ⟨_, hrun, ?_⟩
  simp [computeDeviates, withModel, maybeUpdateWeights, moInit, nTerms, loopMap, termPixel, chiDeviate, rdp, deref, rd, modelIndex]
  norm_num

/-- Example: the hypotheses of the mask theorem hold for code 30. -/
example : runSetup { c47Input with mask := some ([.fin 0, .fin 1], 30) } = .error .exit := by
  refine C47_mask_code_partial _ [.fin 0, .fin 1] 30 rfl (by decide)
    ⟨{ (moInit : MO XR) with
      nDataCols := 2, nDataRows := 1, nDataVals := 2, nValid := some 2, nModelCols := 2, nModelRows := 1, nModelVals := 2
      dataVec := some [fin 1, fin 4], modelVec := some [fin 0, fin 0], dataValsSet := true
      effGain := fin 1, nCombined := fin 1, readNoiseAduSq := fin 0, sky := fin 0 }, ?_⟩
  simp [setupBase, c47Input, addImageData, setupModelImage, addImageChars, moInit, List.replicate]

end Imfit
