import Verif.Lemmas.FitRun

/-!
# C01 — mask convention and valid-pixel count
-/

namespace Imfit

open Spec XR

/-- After the mask image is accepted: the stored mask is 1 exactly on the pixels the convention calls good, 0 elsewhere,
and the reported number of valid pixels is their number. -/
theorem C01_mask_accepted (i : FitInput XR) (c : Chars i) (sh : Shapes i) :
    ∃ s, setupFit i = .ok s ∧ s.nValid = some ((count i.n (Good i) : Nat) : Int) ∧
      ∀ m code, i.mask = some (m, code) → ∃ l, s.maskVec = some l ∧ l.length = i.n ∧
        ∀ z, z < i.n → (Good i z → pix l z = fin 1) ∧ (¬ Good i z → pix l z = fin 0) := by
  have f := setupFacts i c sh
  refine ⟨postSetup i c, setupFit_eq i c sh, f.nv, ?_⟩
  intro m code hm
  have hme : (postSetup i c).maskExists = true := by
    unfold postSetup
    cases i.stat <;> simp [useCashStatistic, usePoissonMLR, useModelErrors, onesWeights, postMask, hm]
  refine ⟨_, f.ready.hm hme, tab_length _ _, ?_⟩
  intro z hz
  have : pix (tab i.n (goodVal i)) z = goodVal i z := by
    unfold pix tab; simp [List.getD_eq_getElem?_getD, hz]
  rw [this]
  unfold goodVal
  constructor
  · intro h; simp [h]
  · intro h; simp [h]

/-- A mask code that is not one of the two documented ones is refused: the method returns -1 and the
program stops. -/
theorem C01_unknown_mask_code (i : FitInput XR) (s : MO XR) (m : List XR) (code : Int)
    (hm : i.mask = some (m, code)) (h10 : code ≠ 10) (h20 : code ≠ 20)
    (hdim : s.nDataVals = i.n ∧ s.nDataCols = i.nCols ∧ s.nDataRows = i.nRows) :
    (∃ s', addMask s m i.n i.nCols i.nRows code = .ok (s', -1)) ∧ setupMask i s = .error .exit := by
  have hd : ¬ ¬ (i.n = s.nDataVals ∧ i.nCols = s.nDataCols ∧ i.nRows = s.nDataRows) := by
    rw [not_not]; exact ⟨hdim.1.symm, hdim.2.1.symm, hdim.2.2.symm⟩
  have h : ∀ (x : List XR), addMask s x i.n i.nCols i.nRows code =
      .ok ({ s with maskVec := some x, nValid := some 0, maskExists := false }, -1) := by
    intro x
    unfold addMask
    rw [if_neg hd, if_neg (by simpa [MASK_ZERO_IS_GOOD] using h10),
      if_neg (by simpa [MASK_ZERO_IS_BAD] using h20)]
    rfl
  refine ⟨⟨_, h m⟩, ?_⟩
  unfold setupMask
  rw [hm]
  simp only []
  have := h m
  unfold FitInput.n at this
  rw [this]
  rfl

/-- After fit setup: the reported number of valid pixels is the number of pixels good in the mask, finite in the data and
(for a user error image) with a usable error value; and the mask is 1 exactly on those pixels. -/
theorem C01_valid_after_setup (i : FitInput XR) (c : Chars i) (sh : Shapes i) :
    ∃ s st, runSetup i = .ok (s, st) ∧ s.nValid = some ((count i.n (Used i) : Nat) : Int) ∧
      ∃ l, s.maskVec = some l ∧ l.length = i.n ∧
        ∀ z, z < i.n → (Used i z → pix l z = fin 1) ∧ (¬ Used i z → pix l z = fin 0) := by
  refine ⟨_, _, runSetup_eq (c := c) sh, run_nValid sh, _, run_mask sh, tab_length _ _, ?_⟩
  intro z hz
  have : pix (tab i.n (fMask i)) z = fMask i z := by
    unfold pix tab; simp [List.getD_eq_getElem?_getD, hz]
  rw [this]
  unfold fMask
  constructor
  · intro h; simp [h]
  · intro h; simp [h]

/-- The hypotheses hold for a 2 x 2 image with a NaN, a masked pixel, a user error image and a PSF. -/
example : ∃ s st, runSetup exInput = .ok (s, st) ∧
    s.nValid = some ((count exInput.n (Used exInput) : Nat) : Int) := by
  obtain ⟨s, st, h1, h2, _⟩ := C01_valid_after_setup exInput exChars exShapes
  exact ⟨s, st, h1, h2⟩

example : ∃ s, setupFit exInput = .ok s := by
  obtain ⟨s, h, _⟩ := C01_mask_accepted exInput exChars exShapes
  exact ⟨s, h⟩

/-- Two of the four pixels of the example are used. -/
example : Used exInput 0 ∧ ¬ Used exInput 1 ∧ ¬ Used exInput 2 := by
  refine ⟨exUsed0, ?_, fun h => exGood2 h.1⟩
  rintro ⟨_, ⟨r, hr⟩, _⟩
  simp [exInput, pix] at hr

/-- A refused mask code: 15. -/
example : setupMask { exInput with mask := some ([.fin 0, .fin 0, .fin 0, .fin 0], 15) } (preMask exInput exChars)
    = .error .exit :=
  (C01_unknown_mask_code { exInput with mask := some ([.fin 0, .fin 0, .fin 0, .fin 0], 15) }
    (preMask exInput exChars) _ 15 rfl (by decide) (by decide) ⟨rfl, rfl, rfl⟩).2

end Imfit
