import Verif.Lemmas.FitTerms

/-!
# Per-pixel facts about a finished setup
-/

namespace Imfit

open Spec XR

section
variable {i : FitInput XR} {c : Chars i}

theorem fWeight_pix (sh : Shapes i) {z : Nat} (hu : Used i z) {w : ℝ} (h0 : 0 ≤ w) (hw : WeightIs c z w) :
    fWeight i c z = fin w := by
  unfold fWeight
  simp only [hu, if_true]
  exact ((weightIs_iff sh (setupFacts i c sh) z hu w).2 ⟨h0, hw⟩).2

theorem fData_pix {z : Nat} {d : ℝ} (h : pix i.data z = fin d) : fData i z = fin d := by
  unfold fData clean; simp [h]

/-- fields of a state in any mode -/
theorem mode_fields (sh : Shapes i) {s' : MO XR} {T : List Nat} {nv : Nat}
    (hm : Mode i.n nv (runState i c) s' T) :
    s'.modelErrors = decide (i.stat = .chi2Model) ∧ s'.effGain = fin c.effGain ∧ s'.sky = fin c.sky ∧
    s'.nCombined = fin (i.nCombined : ℝ) ∧
    s'.readNoiseAduSq = fin (c.readNoise * c.readNoise / (c.effGain * c.effGain)) ∧
    s'.poissonMLR = decide (i.stat = .poissonMLR) ∧
    s'.useCash = (match i.stat with | .cash => true | .poissonMLR => true | _ => false) ∧
    s'.extraVec = (runState i c).extraVec := by
  have f := setupFacts i c sh
  cases hm with
  | plain => exact ⟨f.merr, f.eg, f.sky, f.nc, f.rn, f.mlr, f.cash, rfl⟩
  | boot T _ _ => exact ⟨f.merr, f.eg, f.sky, f.nc, f.rn, f.mlr, f.cash, rfl⟩

theorem upW_pix (sh : Shapes i) {s' : MO XR} {T : List Nat} {nv : Nat} (hm : Mode i.n nv (runState i c) s' T)
    (img : List ℝ) {z : Nat} (hu : Used i z) {w : ℝ} (h0 : 0 ≤ w) (hw : PixWeight c img z w) :
    upW (withModel s' (img.map fin)) (fMask i) (fWeight i c) (imgAt (runState i c) (img.map fin)) z = fin w := by
  obtain ⟨h1, h2, h3, h4, h5, -, -, -⟩ := mode_fields sh hm
  unfold upW
  have e1 : (withModel s' (img.map fin)).modelErrors = decide (i.stat = .chi2Model) := h1
  have e2 : (withModel s' (img.map fin)).effGain = fin c.effGain := h2
  have e3 : (withModel s' (img.map fin)).sky = fin c.sky := h3
  have e4 : (withModel s' (img.map fin)).nCombined = fin (i.nCombined : ℝ) := h4
  have e5 : (withModel s' (img.map fin)).readNoiseAduSq =
    fin (c.readNoise * c.readNoise / (c.effGain * c.effGain)) := h5
  rw [e1, e2, e3, e4, e5, modelIndex_spec sh]
  have hmask : fMask i z = fin 1 := by unfold fMask; simp [hu]
  have hg := effGain_pos c
  unfold PixWeight at hw
  by_cases hs : i.stat = .chi2Model
  · rw [if_pos hs] at hw
    obtain ⟨hv, rfl⟩ := hw
    have hv' : (modelAt i img z + c.sky) / c.effGain +
        (i.nCombined : ℝ) * (c.readNoise * c.readNoise / (c.effGain * c.effGain)) =
        c.modelVariance (modelAt i img z) := by
      unfold Chars.modelVariance; field_simp
    simp only [hs, hmask, decide_true, zero_def, flt_fin, zero_lt_one, Bool.true_and, if_true]
    unfold modelWeight
    simp only [fin_add, fin_mul, fin_div_of_ne hg.ne', hv', fsqrt_fin_of_nonneg hv.le, one_def]
    rw [fin_div_of_ne (Real.sqrt_pos.mpr hv).ne']
  · rw [if_neg hs] at hw
    simp only [hs, decide_false, Bool.false_and, Bool.false_eq_true, if_false]
    exact fWeight_pix sh hu h0 hw

theorem upW_unused {s' : MO XR} {img : List XR} {f : Nat → XR} {z : Nat} (hu : ¬ Used i z) :
    upW (withModel s' img) (fMask i) (fWeight i c) f z = fin 0 := by
  unfold upW fMask fWeight
  simp [hu]

/-- One weighted residual of the run equals the specified one. -/
theorem chi_resid (sh : Shapes i) {s' : MO XR} {T : List Nat} {nv : Nat} (hm : Mode i.n nv (runState i c) s' T)
    (img : List ℝ) {w d : Nat → ℝ} {z : Nat}
    (hd : Used i z → pix i.data z = fin (d z)) (hw : Used i z → 0 ≤ w z ∧ PixWeight c img z (w z)) :
    upW (withModel s' (img.map fin)) (fMask i) (fWeight i c) (imgAt (runState i c) (img.map fin)) z *
      (fData i z - imgAt (runState i c) (img.map fin) z) = fin (resid i w d img z) := by
  rw [modelIndex_spec sh]
  unfold resid
  by_cases hu : Used i z
  · rw [upW_pix sh hm img hu (hw hu).1 (hw hu).2, fData_pix (hd hu)]
    simp [hu]
  · rw [upW_unused hu]
    obtain ⟨a, ha⟩ := fData_fin i z
    rw [ha]
    simp [hu]

end


end Imfit
