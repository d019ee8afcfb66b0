import Verif.Lemmas.Fit
import Verif.Spec.Fit
import Mathlib.Tactic.Positivity
import Mathlib.Tactic.FieldSimp
import Mathlib.Tactic.Linarith

/-!
# `setupFit` followed by `finalSetup` in exact arithmetic
-/

namespace Imfit

open Spec XR

/-- The number of pixels of the input. -/
def FitInput.n {α : Type} (i : FitInput α) : Nat := i.nCols * i.nRows

theorem list_eq_tab_pix (l : List XR) (n : Nat) (h : l.length = n) : l = tab n (pix l) := by
  subst h
  exact eq_range_map_getD l (XR.fin 0)

open Classical in
theorem cnt_eq_count (n : Nat) (p : Nat → Bool) (P : Nat → Prop)
    (h : ∀ z, z < n → (p z = true ↔ P z)) : cnt n p = count n P := by
  unfold count
  induction n with
  | zero => simp [cnt]
  | succ n ih =>
    rw [cnt_succ, ih (fun z hz => h z (by omega)), Finset.range_add_one, Finset.filter_insert]
    by_cases hp : P n
    · have : p n = true := (h n (by omega)).2 hp
      simp [hp, this]
    · have : ¬ p n = true := fun hh => hp ((h n (by omega)).1 hh)
      simp [hp, this]

theorem badZeroIsGood_iff (v : XR) : badZeroIsGood v = false ↔ MaskGood 10 v := by
  cases v <;> simp [badZeroIsGood, MaskGood]

theorem badZeroIsBad_iff (v : XR) : badZeroIsBad v = false ↔ MaskGood 20 v := by
  cases v <;> simp [badZeroIsBad, MaskGood]

open Classical in
/-- Mask value of a pixel as a table of 0/1. -/
noncomputable def goodVal (i : FitInput XR) (z : Nat) : XR := if Good i z then fin 1 else fin 0

/-- Weights prepared by `setupFit`. -/
noncomputable def inW (i : FitInput XR) (z : Nat) : XR :=
  match i.stat with
  | .chi2User code =>
      if code = 100 then fin 1 / pix i.errors z
      else if code = 110 then fin 1 / fsqrt (pix i.errors z)
      else fsqrt (pix i.errors z)
  | _ => fin 1

/-- What is known about the state after `setupFit`. -/
structure SetupFacts (i : FitInput XR) (c : Chars i) (s : MO XR) : Prop where
  ready : FitReady i.n s (pix i.data) (goodVal i) (inW i)
  nv : s.nValid = some ((count i.n (Good i) : Nat) : Int)
  pm : ∀ z, z < i.n → pm0 s (goodVal i) z = goodVal i z
  eg : s.effGain = fin c.effGain
  nc : s.nCombined = fin (i.nCombined : ℝ)
  rn : s.readNoiseAduSq = fin (c.readNoise * c.readNoise / (c.effGain * c.effGain))
  sky : s.sky = fin c.sky
  gen : genW s = decide (i.stat = .chi2Data)
  ext : s.externalError = (match i.stat with | .chi2User _ => true | _ => false)
  set : s.weightValsSet = !decide (i.stat = .chi2Data)
  cash : s.useCash = (match i.stat with | .cash => true | .poissonMLR => true | _ => false)
  mlr : s.poissonMLR = decide (i.stat = .poissonMLR)
  merr : s.modelErrors = decide (i.stat = .chi2Model)
  boot : s.doBootstrap = false
  cols : s.nDataCols = i.nCols
  rows : s.nDataRows = i.nRows
  conv : s.doConvolution = i.psf.isSome
  psf : ∀ cc rr, i.psf = some (cc, rr) → s.nPSFCols = cc ∧ s.nPSFRows = rr ∧
    s.nModelCols = i.nCols + 2 * cc ∧ s.nModelRows = i.nRows + 2 * rr
  mcols : i.psf = none → s.nModelCols = i.nCols ∧ s.nModelRows = i.nRows
  mvals : s.nModelVals = s.nModelCols * s.nModelRows
  extra0 : i.stat = .cash → s.extraVec = some (tab i.n (fun _ => fin 0))

/-- State before the mask step of `setupFit`. -/
noncomputable def preMask (i : FitInput XR) (c : Chars i) : MO XR :=
  { (moInit : MO XR) with
    nDataCols := i.nCols, nDataRows := i.nRows, nDataVals := i.nCols * i.nRows
    nValid := some ((i.nCols * i.nRows : Nat) : Int)
    nPSFCols := match i.psf with | some p => p.1 | none => 0
    nPSFRows := match i.psf with | some p => p.2 | none => 0
    doConvolution := i.psf.isSome
    nModelCols := match i.psf with | some p => i.nCols + 2 * p.1 | none => i.nCols
    nModelRows := match i.psf with | some p => i.nRows + 2 * p.2 | none => i.nRows
    nModelVals := match i.psf with
      | some p => (i.nCols + 2 * p.1) * (i.nRows + 2 * p.2) | none => i.nCols * i.nRows
    modelVec := some (List.replicate (match i.psf with
      | some p => (i.nCols + 2 * p.1) * (i.nRows + 2 * p.2) | none => i.nCols * i.nRows) 0)
    dataVec := some i.data, dataValsSet := true
    effGain := fin c.effGain, nCombined := fin (i.nCombined : ℝ), sky := fin c.sky
    readNoiseAduSq := fin (c.readNoise * c.readNoise / (c.effGain * c.effGain)) }

theorem effGain_pos {i : FitInput XR} (c : Chars i) : 0 < c.effGain := by
  have h1 := c.pgain; have h2 := c.pexp
  have h3 : (0 : ℝ) < i.nCombined := by exact_mod_cast c.pn
  unfold Chars.effGain; positivity

theorem addImageChars_eq (i : FitInput XR) (c : Chars i) (t : MO XR) :
    addImageChars t i.gain i.readNoise i.expTime i.nCombined i.sky = .ok { t with
      effGain := fin c.effGain, nCombined := fin (i.nCombined : ℝ), sky := fin c.sky
      readNoiseAduSq := fin (c.readNoise * c.readNoise / (c.effGain * c.effGain)) } := by
  have hne : c.effGain * c.effGain ≠ 0 := by have := effGain_pos c; positivity
  unfold addImageChars
  rw [c.hgain, c.hrn, c.hexp, c.hsky]
  have hcond : (flt (0 : XR) (fin c.gain) && fle (0 : XR) (fin c.readNoise) && flt (0 : XR) (fin c.expTime) &&
      decide (1 ≤ i.nCombined) && fle (0 : XR) (fin c.sky)) = true := by
    simp [c.pgain, c.prn, c.pexp, c.psky, c.pn]
  rw [if_pos hcond]
  have he : fin c.gain * fin c.expTime * (lit ((i.nCombined : ℕ) : ℚ) : XR) = fin c.effGain := by
    simp [Chars.effGain]
  rw [he]
  simp only [lit_def, fin_mul, fin_div_of_ne hne]
  norm_num

theorem setupBase_eq (i : FitInput XR) (c : Chars i) (sh : Shapes i) :
    setupBase i = .ok (preMask i c) := by
  have hc : ¬ (i.nCols < 1 ∨ i.nRows < 1) := by have := sh.cols; have := sh.rows; omega
  unfold setupBase
  cases hp : i.psf with
  | none =>
    simp only [addImageData, setupModelImage, if_neg hc, ok_bind]
    rw [addImageChars_eq i c]
    unfold preMask
    rw [hp]
    rfl
  | some p =>
    obtain ⟨a, b⟩ := p
    simp only [addImageData, setupModelImage, if_neg hc, ok_bind]
    rw [addImageChars_eq i c]
    unfold preMask
    rw [hp]
    rfl

/-- State after the mask step. -/
noncomputable def postMask (i : FitInput XR) (c : Chars i) : MO XR :=
  { preMask i c with
    maskVec := match i.mask with | some _ => some (tab i.n (goodVal i)) | none => none
    maskExists := i.mask.isSome
    nValid := some ((count i.n (Good i) : Nat) : Int) }

theorem count_true (n : Nat) : count n (fun _ => True) = n := by
  unfold count; simp

theorem setupMask_eq (i : FitInput XR) (c : Chars i) (sh : Shapes i) :
    setupMask i (preMask i c) = .ok (postMask i c) := by
  unfold setupMask
  cases hm : i.mask with
  | none =>
    simp only []
    unfold postMask
    have : Good i = fun _ => True := by funext z; simp [Good, hm]
    rw [hm, this, count_true]
    rfl
  | some p =>
    obtain ⟨pm, code⟩ := p
    obtain ⟨hl, hcode⟩ := sh.mask pm code hm
    have hdim : ¬ ¬ (i.nCols * i.nRows = (preMask i c).nDataVals ∧ i.nCols = (preMask i c).nDataCols ∧
      i.nRows = (preMask i c).nDataRows) := by
      rw [not_not]; exact ⟨rfl, rfl, rfl⟩
    have hpm := list_eq_tab_pix pm _ hl
    rcases hcode with rfl | rfl
    · simp only [addMask, if_neg hdim, MASK_ZERO_IS_GOOD, if_true]
      show ((maskLoop (i.nCols * i.nRows) pm badZeroIsGood >>= _) >>= _) = _
      rw [hpm, maskLoop_tab]
      have e1 : tab (i.nCols * i.nRows) (fun z => if badZeroIsGood (pix pm z) then (0 : XR) else 1)
          = tab i.n (goodVal i) := by
        apply tab_congr; intro z _
        have := badZeroIsGood_iff (pix pm z)
        unfold goodVal Good
        rw [hm]
        simp only
        by_cases h : MaskGood 10 (pix pm z)
        · rw [this.2 h]; simp [h]
        · have hb : badZeroIsGood (pix pm z) = true := by
            cases hx : badZeroIsGood (pix pm z)
            · exact absurd (this.1 hx) h
            · rfl
          rw [hb]; simp [h]
      have e2 : cnt (i.nCols * i.nRows) (fun z => !(badZeroIsGood (pix pm z))) = count i.n (Good i) := by
        apply cnt_eq_count; intro z _
        have := badZeroIsGood_iff (pix pm z)
        unfold Good; rw [hm]
        simp only [← this, Bool.not_eq_true']
      rw [e1, e2]
      unfold postMask
      rw [hm]
      rfl
    · have h2 : ¬ ((20 : Int) = 10) := by decide
      simp only [addMask, if_neg hdim, MASK_ZERO_IS_GOOD, MASK_ZERO_IS_BAD, if_neg h2, if_true]
      show ((maskLoop (i.nCols * i.nRows) pm badZeroIsBad >>= _) >>= _) = _
      rw [hpm, maskLoop_tab]
      have e1 : tab (i.nCols * i.nRows) (fun z => if badZeroIsBad (pix pm z) then (0 : XR) else 1)
          = tab i.n (goodVal i) := by
        apply tab_congr; intro z _
        have := badZeroIsBad_iff (pix pm z)
        unfold goodVal Good
        rw [hm]
        simp only
        by_cases h : MaskGood 20 (pix pm z)
        · rw [this.2 h]; simp [h]
        · have hb : badZeroIsBad (pix pm z) = true := by
            cases hx : badZeroIsBad (pix pm z)
            · exact absurd (this.1 hx) h
            · rfl
          rw [hb]; simp [h]
      have e2 : cnt (i.nCols * i.nRows) (fun z => !(badZeroIsBad (pix pm z))) = count i.n (Good i) := by
        apply cnt_eq_count; intro z _
        have := badZeroIsBad_iff (pix pm z)
        unfold Good; rw [hm]
        simp only [← this, Bool.not_eq_true']
      rw [e1, e2]
      unfold postMask
      rw [hm]
      rfl

/-- State after `setupFit`. -/
noncomputable def postSetup (i : FitInput XR) (c : Chars i) : MO XR :=
  match i.stat with
  | .cash => useCashStatistic (postMask i c)
  | .poissonMLR => usePoissonMLR (postMask i c)
  | .chi2User _ => { postMask i c with
      weightAllocated := false, weightVec := some (tab i.n (inW i)),
      weightValsSet := true, externalError := true }
  | .chi2Model => useModelErrors (postMask i c)
  | .chi2Data => postMask i c

theorem setupFit_eq (i : FitInput XR) (c : Chars i) (sh : Shapes i) :
    setupFit i = .ok (postSetup i c) := by
  unfold setupFit
  rw [setupBase_eq i c sh, ok_bind, setupMask_eq i c sh, ok_bind]
  unfold setupStat postSetup
  cases hs : i.stat with
  | cash => rfl
  | poissonMLR => rfl
  | chi2Model => rfl
  | chi2Data => rfl
  | chi2User code =>
    obtain ⟨hl, hcode⟩ := sh.errs code hs
    have he := list_eq_tab_pix i.errors _ hl
    have hdim : ¬ ¬ (i.nCols * i.nRows = (postMask i c).nDataVals ∧ i.nCols = (postMask i c).nDataCols ∧
      i.nRows = (postMask i c).nDataRows) := by
      rw [not_not]; exact ⟨rfl, rfl, rfl⟩
    simp only []
    unfold addError
    rw [if_neg hdim]
    have rdz : ∀ z, z < i.nCols * i.nRows → rd i.errors z = .ok (pix i.errors z) := by
      intro z hz
      have := rd_getD (l := i.errors) (XR.fin 0) (z := z) (by omega)
      exact this
    rcases hcode with rfl | rfl | rfl
    · simp only [WEIGHTS_ARE_SIGMAS, if_true]
      show (loopMap (i.nCols * i.nRows) _ >>= _) = _
      rw [loopMap_ok _ _ (inW i)]
      · rfl
      · intro z hz; rw [rdz z hz]; simp [inW, hs]
    · have h1 : ¬ ((110 : Int) = 100) := by decide
      simp only [WEIGHTS_ARE_SIGMAS, WEIGHTS_ARE_VARIANCES, if_true, if_neg h1]
      show (loopMap (i.nCols * i.nRows) _ >>= _) = _
      rw [loopMap_ok _ _ (inW i)]
      · rfl
      · intro z hz; rw [rdz z hz]; simp [inW, hs]
    · have h1 : ¬ ((120 : Int) = 100) := by decide
      have h2 : ¬ ((120 : Int) = 110) := by decide
      simp only [WEIGHTS_ARE_SIGMAS, WEIGHTS_ARE_VARIANCES, WEIGHTS_ARE_WEIGHTS, if_true, if_neg h1, if_neg h2]
      show (loopMap (i.nCols * i.nRows) _ >>= _) = _
      rw [loopMap_ok _ _ (inW i)]
      · rfl
      · intro z hz; rw [rdz z hz]; simp [inW, hs]

theorem setupFacts (i : FitInput XR) (c : Chars i) (sh : Shapes i) :
    SetupFacts i c (postSetup i c) := by
  have hdat := list_eq_tab_pix i.data _ sh.data
  have hpm : ∀ z, (if i.mask.isSome = true then goodVal i z else 1) = goodVal i z := by
    intro z
    cases hm : i.mask with
    | some p => simp
    | none => simp [goodVal, Good, hm]
  have hmask : i.mask.isSome = true → (postMask i c).maskVec = some (tab i.n (goodVal i)) := by
    intro h
    cases hm : i.mask with
    | some p => simp [postMask, hm]
    | none => simp [hm] at h
  have hd : (postMask i c).dataVec = some (tab i.n (pix i.data)) := congrArg some hdat
  have hcommon : ∀ t : MO XR, True := fun _ => trivial
  cases hs : i.stat with
  | cash =>
    have hp : postSetup i c = useCashStatistic (postMask i c) := by simp [postSetup, hs]
    rw [hp]
    have hin : inW i = fun _ => fin 1 := by funext z; simp [inW, hs]
    refine { ready := ⟨rfl, hd, rfl, hmask, ?_, fun _ => ⟨_, rfl⟩⟩, nv := rfl, pm := fun z _ => hpm z, eg := rfl,
             nc := rfl, rn := rfl, sky := rfl, gen := ?_, ext := ?_, set := ?_, cash := ?_, mlr := ?_, merr := ?_,
             boot := rfl, cols := rfl, rows := rfl, conv := rfl, psf := ?_, mcols := ?_, mvals := ?_, extra0 := ?_ }
    all_goals try (simp [hs]; done)
    all_goals try (rw [hs]; rfl)
    · intro _; rw [hin, ← replicate_eq_tab]; rfl
    · intro cc rr h; simp [useCashStatistic, onesWeights, postMask, preMask, h]
    · intro h; simp [useCashStatistic, onesWeights, postMask, preMask, h]
    · cases h : i.psf <;> simp [useCashStatistic, onesWeights, postMask, preMask, h]
    · intro _; rw [← replicate_eq_tab]; rfl
  | poissonMLR =>
    have hp : postSetup i c = usePoissonMLR (postMask i c) := by simp [postSetup, hs]
    rw [hp]
    have hin : inW i = fun _ => fin 1 := by funext z; simp [inW, hs]
    refine { ready := ⟨rfl, hd, rfl, hmask, ?_, fun _ => ⟨_, rfl⟩⟩, nv := rfl, pm := fun z _ => hpm z, eg := rfl,
             nc := rfl, rn := rfl, sky := rfl, gen := ?_, ext := ?_, set := ?_, cash := ?_, mlr := ?_, merr := ?_,
             boot := rfl, cols := rfl, rows := rfl, conv := rfl, psf := ?_, mcols := ?_, mvals := ?_, extra0 := ?_ }
    all_goals try (simp [hs]; done)
    all_goals try (rw [hs]; rfl)
    · intro _; rw [hin, ← replicate_eq_tab]; rfl
    · intro cc rr h; simp [usePoissonMLR, useCashStatistic, onesWeights, postMask, preMask, h]
    · intro h; simp [usePoissonMLR, useCashStatistic, onesWeights, postMask, preMask, h]
    · cases h : i.psf <;> simp [usePoissonMLR, useCashStatistic, onesWeights, postMask, preMask, h]
  | chi2Model =>
    have hp : postSetup i c = useModelErrors (postMask i c) := by simp [postSetup, hs]
    rw [hp]
    have hin : inW i = fun _ => fin 1 := by funext z; simp [inW, hs]
    refine { ready := ⟨rfl, hd, rfl, hmask, ?_, ?_⟩, nv := rfl, pm := fun z _ => hpm z, eg := rfl,
             nc := rfl, rn := rfl, sky := rfl, gen := ?_, ext := ?_, set := ?_, cash := ?_, mlr := ?_, merr := ?_,
             boot := rfl, cols := rfl, rows := rfl, conv := rfl, psf := ?_, mcols := ?_, mvals := ?_, extra0 := ?_ }
    all_goals try (simp [hs]; done)
    all_goals try (rw [hs]; rfl)
    · intro _; rw [hin, ← replicate_eq_tab]; rfl
    · intro h; cases h
    · intro cc rr h; simp [useModelErrors, onesWeights, postMask, preMask, h]
    · intro h; simp [useModelErrors, onesWeights, postMask, preMask, h]
    · cases h : i.psf <;> simp [useModelErrors, onesWeights, postMask, preMask, h]
  | chi2Data =>
    have hp : postSetup i c = postMask i c := by simp [postSetup, hs]
    rw [hp]
    refine { ready := ⟨rfl, hd, rfl, hmask, ?_, ?_⟩, nv := rfl, pm := fun z _ => hpm z, eg := rfl,
             nc := rfl, rn := rfl, sky := rfl, gen := ?_, ext := ?_, set := ?_, cash := ?_, mlr := ?_, merr := ?_,
             boot := rfl, cols := rfl, rows := rfl, conv := rfl, psf := ?_, mcols := ?_, mvals := ?_, extra0 := ?_ }
    all_goals try (simp [hs]; done)
    all_goals try (rw [hs]; rfl)
    · intro h; cases h
    · intro h; cases h
    · intro cc rr h; simp [postMask, preMask, h]
    · intro h; simp [postMask, preMask, h]
    · cases h : i.psf <;> simp [postMask, preMask, h]
  | chi2User code =>
    have hp : postSetup i c = { postMask i c with
      weightAllocated := false, weightVec := some (tab i.n (inW i)),
      weightValsSet := true, externalError := true } := by simp [postSetup, hs]
    rw [hp]
    refine { ready := ⟨rfl, hd, rfl, hmask, fun _ => rfl, ?_⟩, nv := rfl, pm := fun z _ => hpm z, eg := rfl,
             nc := rfl, rn := rfl, sky := rfl, gen := ?_, ext := ?_, set := ?_, cash := ?_, mlr := ?_, merr := ?_,
             boot := rfl, cols := rfl, rows := rfl, conv := rfl, psf := ?_, mcols := ?_, mvals := ?_, extra0 := ?_ }
    all_goals try (simp [hs]; done)
    all_goals try (rw [hs]; rfl)
    · intro h; cases h
    · intro cc rr h; simp [postMask, preMask, h]
    · intro h; simp [postMask, preMask, h]
    · cases h : i.psf <;> simp [postMask, preMask, h]

end Imfit
