import Verif.Lemmas.FitStats

/-!
# C04 — successful fit setup leaves a usable problem
-/

namespace Imfit

open Spec XR

/-- Setup reports success exactly when some pixel is usable and every usable pixel has a well-defined finite
non-negative weight. -/
theorem C04_success_iff (i : FitInput XR) (c : Chars i) (sh : Shapes i) :
    ∃ s st, runSetup i = .ok (s, st) ∧
      (st = 0 ↔ (∃ z, z < i.n ∧ Used i z) ∧ ∀ z, z < i.n → Used i z → ∃ w : ℝ, 0 ≤ w ∧ WeightIs c z w) :=
  ⟨_, _, runSetup_eq sh, run_status sh⟩

/-- After a successful setup at least one pixel is valid; each used pixel keeps its (finite) data value and has the prescribed
finite non-negative weight; each other pixel has weight exactly 0 and finite data. -/
theorem C04_success_usable (i : FitInput XR) (c : Chars i) (sh : Shapes i) (s : MO XR)
    (h : runSetup i = .ok (s, 0)) :
    (∃ k : Nat, 0 < k ∧ s.nValid = some (k : Int)) ∧
    ∃ d w, s.dataVec = some d ∧ s.weightVec = some w ∧ d.length = i.n ∧ w.length = i.n ∧
      ∀ z, z < i.n →
        (Used i z → pix d z = pix i.data z ∧ ∃ r : ℝ, 0 ≤ r ∧ pix w z = fin r ∧ WeightIs c z r) ∧
        (¬ Used i z → pix w z = fin 0 ∧ ∃ r : ℝ, pix d z = fin r) := by
  rw [runSetup_eq (c := c) sh] at h
  simp only [Except.ok.injEq, Prod.mk.injEq] at h
  obtain ⟨rfl, h0⟩ := h
  obtain ⟨⟨z0, hz0, hu0⟩, hw⟩ := (run_status sh).1 h0
  refine ⟨⟨count i.n (Used i), ?_, run_nValid sh⟩, _, _, run_data sh, run_weight sh, tab_length _ _, tab_length _ _, ?_⟩
  · unfold count
    rw [Finset.card_pos]
    exact ⟨z0, by simp [hz0, hu0]⟩
  · intro z hz
    have hpd : pix (tab i.n (fData i)) z = fData i z := by
      unfold pix tab; simp [List.getD_eq_getElem?_getD, hz]
    have hpw : pix (tab i.n (fWeight i c)) z = fWeight i c z := by
      unfold pix tab; simp [List.getD_eq_getElem?_getD, hz]
    rw [hpd, hpw]
    constructor
    · intro hu
      constructor
      · unfold fData clean; simp [(used_imp hu).2]
      · obtain ⟨r, hr, hr'⟩ := hw z hz hu
        refine ⟨r, hr, ?_, hr'⟩
        unfold fWeight
        simp only [hu, if_true]
        exact ((weightIs_iff sh (setupFacts i c sh) z hu r).2 ⟨hr, hr'⟩).2
    · intro hu
      refine ⟨by simp [fWeight, hu], fData_fin i z⟩

/-- The example input (a NaN pixel, a masked pixel, user sigmas, a PSF) is set up successfully. -/
theorem C04_example : ∃ s, runSetup exInput = .ok (s, 0) := by
  refine ⟨runState exInput exChars, ?_⟩
  have h0 : runStatus exInput exChars = 0 := by
    rw [run_status exShapes]
    refine ⟨⟨0, by decide, exUsed0⟩, ?_⟩
    intro z hz hu
    have hz : z < 4 := hz
    have hW : ∀ r : ℝ, 0 < r → pix exInput.errors z = fin r → ∃ w : ℝ, 0 ≤ w ∧ WeightIs exChars z w := by
      intro r hr he
      refine ⟨1 / r, by positivity, ?_⟩
      simp only [WeightIs, exInput, if_true]
      exact Or.inl ⟨r, he, hr, rfl⟩
    match z, hz with
    | 0, _ => exact hW 1 one_pos rfl
    | 1, _ => exact hW 1 one_pos rfl
    | 2, _ => exact absurd hu.1 exGood2
    | 3, _ => exact hW 2 two_pos rfl
  rw [runSetup_eq (c := exChars) exShapes, h0]

example : ∃ s k : _, runSetup exInput = .ok (s, 0) ∧ s.nValid = some ((k : Nat) : Int) ∧ 0 < k := by
  obtain ⟨s, hs⟩ := C04_example
  obtain ⟨⟨k, hk, hv⟩, _⟩ := C04_success_usable exInput exChars exShapes s hs
  exact ⟨s, k, hs, hv, hk⟩

end Imfit
