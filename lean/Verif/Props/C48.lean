import Verif.Props.C03
import Verif.Props.C04
import Verif.Lemmas.FitPix

/-!
# C48 — repeating fit setup is harmless
-/

namespace Imfit

open Spec XR

section
variable {i : FitInput XR} {c : Chars i}

theorem rerun_ready (sh : Shapes i) : FitReady i.n (runState i c) (fData i) (fMask i) (fWeight i c) where
  hn := (setupFacts i c sh).ready.hn
  hd := run_data sh
  hset := (setupFacts i c sh).ready.hset
  hm := fun _ => run_mask sh
  hw := fun _ => run_weight sh
  he := by
    intro h
    have f := setupFacts i c sh
    have h : (postSetup i c).useCash = true := h
    rw [f.cash] at h
    refine ⟨_, run_extra sh ?_⟩
    cases hs : i.stat <;> simp_all

theorem rerun_pm1 (z : Nat) : pm1 (runState i c) (fData i) (fMask i) z = fMask i z := by
  unfold pm1 pm0
  obtain ⟨r, hr⟩ := fData_fin i z
  have : (runState i c).maskExists = true := rfl
  rw [hr, this]; simp

theorem rerun_pw0 (sh : Shapes i) {z : Nat} (hu : Used i z) : pw0 (runState i c) (fData i) (fWeight i c) z = fWeight i c z := by
  have f := setupFacts i c sh
  unfold pw0
  have hg : genW (runState i c) = genW (postSetup i c) := rfl
  rw [hg]
  cases hgw : genW (postSetup i c) with
  | false => rfl
  | true =>
    unfold fWeight
    rw [if_pos hu]
    unfold pw0
    rw [hgw]
    have hd : fData i z = pix i.data z := by
      obtain ⟨r, hr⟩ := hu.2.1
      rw [fData_pix hr, hr]
    rw [hd]; rfl

theorem rerun_badW (sh : Shapes i) {z : Nat} (_ : z < i.n) : badW (runState i c) (fData i) (fMask i) (fWeight i c) z = false := by
  have f := setupFacts i c sh
  unfold badW
  rw [rerun_pm1]
  have he : (runState i c).externalError = (postSetup i c).externalError := rfl
  rw [he, f.ext]
  cases hs : i.stat with
  | chi2User code =>
    by_cases hu : Used i z
    · rw [rerun_pw0 sh hu]
      have h2 := sh.errs code hs
      have hu3 : ErrUsable code (pix i.errors z) := by
        have := hu.2.2
        rw [hs] at this
        exact this
      have h3 : isfin (inW i z) = true := (isfin_inW hs h2.2 z).2 hu3
      have : fWeight i c z = inW i z := by
        unfold fWeight pw0
        rw [if_pos hu, f.gen, hs]; simp
      rw [this, h3]; simp
    · have : fMask i z = fin 0 := by unfold fMask; rw [if_neg hu]
      rw [this]; simp
  | _ => rfl

theorem rerun_pm2 (sh : Shapes i) {z : Nat} (hz : z < i.n) : pm2 (runState i c) (fData i) (fMask i) (fWeight i c) z = fMask i z := by
  unfold pm2; rw [rerun_badW sh hz, rerun_pm1]; rfl

theorem rerun_pw3 (sh : Shapes i) {z : Nat} (hz : z < i.n) : pw3 (runState i c) (fData i) (fMask i) (fWeight i c) z = fWeight i c z := by
  have f := setupFacts i c sh
  unfold pw3 pw2
  rw [rerun_badW sh hz, rerun_pm2 sh hz]
  have hset : (genW (runState i c) || (runState i c).weightValsSet) = true := by
    have h1 : genW (runState i c) = genW (postSetup i c) := rfl
    have h2 : (runState i c).weightValsSet = (genW (postSetup i c) || (postSetup i c).weightValsSet) := rfl
    rw [h1, h2, f.gen, f.set]
    by_cases h : i.stat = .chi2Data <;> simp [h]
  rw [hset]
  simp only [if_true, Bool.false_eq_true, if_false]
  by_cases hu : Used i z
  · have : fMask i z = fin 1 := by unfold fMask; rw [if_pos hu]
    rw [this, maskedWeight_one, rerun_pw0 sh hu]
  · have : fMask i z = fin 0 := by unfold fMask; rw [if_neg hu]
    rw [this, maskedWeight_zero]
    unfold fWeight; rw [if_neg hu]

theorem rerun_removed (sh : Shapes i) : nRemoved i.n (runState i c) (fData i) (fMask i) (fWeight i c) = 0 := by
  unfold nRemoved
  rw [cnt_congr (q := fun _ => false), cnt_congr (p := badW _ _ _ _) (q := fun _ => false)]
  · simp [cnt]
  · intro z hz; exact rerun_badW sh hz
  · intro z hz
    obtain ⟨r, hr⟩ := fData_fin i z
    rw [hr]; simp

theorem rerun_state (sh : Shapes i) : finalState i.n (runState i c) (fData i) (fMask i) (fWeight i c) =
    { runState i c with extraVec := pex i.n (runState i c) (fData i) (runState i c).extraVec } := by
  have f := setupFacts i c sh
  unfold finalState
  have e1 : some (tab i.n (pm2 (runState i c) (fData i) (fMask i) (fWeight i c))) = (runState i c).maskVec := by
    rw [run_mask sh]; exact congrArg some (tab_congr fun z hz => rerun_pm2 sh hz)
  have e2 : some (tab i.n (pw3 (runState i c) (fData i) (fMask i) (fWeight i c))) = (runState i c).weightVec := by
    rw [run_weight sh]; exact congrArg some (tab_congr fun z hz => rerun_pw3 sh hz)
  have e3 : some (tab i.n (pd (runState i c) (fData i) (fMask i) (fWeight i c))) = (runState i c).dataVec := by
    rw [run_data sh]
    refine congrArg some (tab_congr fun z hz => ?_)
    unfold pd
    obtain ⟨r, hr⟩ := fData_fin i z
    rw [hr]; simp
  have e4 : subValid (runState i c).nValid (nRemoved i.n (runState i c) (fData i) (fMask i) (fWeight i c)) = (runState i c).nValid := by
    rw [rerun_removed sh, subValid_zero]
  have e5 : (genW (runState i c) || (runState i c).weightValsSet) = (runState i c).weightValsSet := by
    show (genW (postSetup i c) || (genW (postSetup i c) || (postSetup i c).weightValsSet)) = (genW (postSetup i c) || (postSetup i c).weightValsSet)
    cases genW (postSetup i c) <;> rfl
  have e6 : (genW (runState i c) || (runState i c).weightAllocated) = (runState i c).weightAllocated := by
    show (genW (postSetup i c) || (genW (postSetup i c) || (postSetup i c).weightAllocated)) = (genW (postSetup i c) || (postSetup i c).weightAllocated)
    cases genW (postSetup i c) <;> rfl
  rw [e1, e2, e3, e4, e5, e6]
  rfl

theorem rerun_status (sh : Shapes i) : finalStatus i.n (runState i c) (fData i) (fMask i) (fWeight i c) = runStatus i c := by
  have f := setupFacts i c sh
  unfold runStatus finalStatus
  rw [rerun_removed sh, subValid_zero, run_nValid sh, count_used f sh, dOK_true f sh]
  have hd : dOK i.n (runState i c) (fData i) (fMask i) (fWeight i c) = true := by
    unfold dOK
    rw [List.all_eq_true]
    intro z _
    obtain ⟨r, hr⟩ := fData_fin i z
    rw [hr]; simp
  have hw : wOK i.n (runState i c) (fData i) (fMask i) (fWeight i c) = wOK i.n (postSetup i c) (pix i.data) (goodVal i) (inW i) := by
    unfold wOK
    rw [Bool.eq_iff_iff, List.all_eq_true, List.all_eq_true]
    apply forall_congr'
    intro z
    apply imp_congr_right
    intro hz
    have hz := List.mem_range.1 hz
    rw [rerun_pm2 sh hz, rerun_pw3 sh hz, pm2_val f sh z hz, pw3_val f sh z hz]
    rfl
  rw [hd, hw]

end

/-- A second call of the final fit setup returns the same status and leaves the object as it was — mask, weights, data, number of valid
pixels, flags — except that the extra Poisson-MLR terms are computed again; these too are unchanged unless the
Poisson-MLR statistic is used with some non-finite data value. With `C48_false` this cannot be improved: for that statistic
and a masked NaN the second call changes the statistic. -/
theorem C48_repeat_partial (i : FitInput XR) (c : Chars i) (sh : Shapes i) (s : MO XR) (st : Int) (hrun : runSetup i = .ok (s, st)) :
    ∃ e, finalSetup s = .ok ({ s with extraVec := e }, st) ∧
      ((i.stat = .poissonMLR → ∀ z, z < i.n → ∃ r : ℝ, pix i.data z = fin r) → finalSetup s = .ok (s, st)) := by
  rw [runSetup_eq (c := c) sh] at hrun
  simp only [Except.ok.injEq, Prod.mk.injEq] at hrun
  obtain ⟨rfl, rfl⟩ := hrun
  have f := setupFacts i c sh
  rw [finalSetup_eq (rerun_ready sh), rerun_state sh, rerun_status sh]
  refine ⟨_, rfl, ?_⟩
  intro h
  have : pex i.n (runState i c) (fData i) (runState i c).extraVec = (runState i c).extraVec := by
    by_cases hs : i.stat = .poissonMLR
    · rw [run_extra sh (Or.inr hs)]
      unfold pex
      have h1 : (runState i c).useCash = true := by
        show (postSetup i c).useCash = true; rw [f.cash, hs]
      have h2 : (runState i c).poissonMLR = true := by
        show (postSetup i c).poissonMLR = true; rw [f.mlr]; simp [hs]
      have h3 : (runState i c).effGain = fin c.effGain := f.eg
      have h4 : (runState i c).sky = fin c.sky := f.sky
      rw [h1, h2, h3, h4]
      simp only [Bool.and_self, if_true]
      refine congrArg some (tab_congr fun z hz => ?_)
      obtain ⟨r, hr⟩ := h hs z hz
      unfold fExtra
      rw [if_pos hs, hr, fData_pix hr]
    · unfold pex
      have h2 : (runState i c).poissonMLR = false := by
        show (postSetup i c).poissonMLR = false; rw [f.mlr]; simp [hs]
      rw [h2]; simp
  rw [this]

/-- The full claim is false for the Poisson-MLR statistic: two pixels, the second one masked with a NaN data value. After the first
setup the statistic is NaN for the model image (1, 1); after a second setup of the same object it is a number. -/
theorem C48_false :
    ∃ s s2 st, runSetup (c03Input .nan) = .ok (s, st) ∧ finalSetup s = .ok (s2, st) ∧
      (∃ t, getFitStatistic (withModel s [.fin 1, .fin 1]) = .ok (t, nan)) ∧
      ∃ t v, getFitStatistic (withModel s2 [.fin 1, .fin 1]) = .ok (t, fin v) := by
  have sh := c03Shapes .nan
  let c := c03Chars .nan
  obtain ⟨s, st, g1, g2⟩ := C03_poissonMLR_nan (c03Input .nan) c sh rfl 1 (by decide) rfl
  have g1' := g1
  rw [runSetup_eq (c := c) sh] at g1
  simp only [Except.ok.injEq, Prod.mk.injEq] at g1
  obtain ⟨rfl, rfl⟩ := g1
  have hfin : finalSetup (runState (c03Input .nan) c) = .ok ({ runState (c03Input .nan) c with
      extraVec := pex (c03Input .nan).n (runState (c03Input .nan) c) (fData (c03Input .nan)) (runState (c03Input .nan) c).extraVec },
      runStatus (c03Input .nan) c) := by
    rw [finalSetup_eq (rerun_ready sh), rerun_state sh, rerun_status sh]
  refine ⟨_, _, _, g1', hfin, g2 _ rfl, ?_⟩
  have f := setupFacts _ c sh
  have T := run_tabs (c := c) sh [.fin 1, .fin 1] (by rw [run_nModelVals sh]; rfl)
  have hg := effGain_pos c
  have hu1 : (runState (c03Input .nan) c).useCash = true := f.cash
  have hu2 : (runState (c03Input .nan) c).poissonMLR = true := f.mlr
  have heg : (runState (c03Input .nan) c).effGain = fin c.effGain := f.eg
  have hsk : (runState (c03Input .nan) c).sky = fin c.sky := f.sky
  have hconv : (runState (c03Input .nan) c).doConvolution = false := f.conv
  let e := fun z => extraCashTerm (fin c.effGain) (fin c.sky) (fData (c03Input .nan) z)
  have hex : pex (c03Input .nan).n (runState (c03Input .nan) c) (fData (c03Input .nan)) (runState (c03Input .nan) c).extraVec =
      some (tab 2 e) := by
    unfold pex
    rw [hu1, hu2, heg, hsk]
    rfl
  rw [hex]
  let s2 : MO XR := { runState (c03Input .nan) c with extraVec := some (tab 2 e) }
  have T2 : Tabs 2 (withModel s2 [.fin 1, .fin 1]) (fData (c03Input .nan)) (fMask (c03Input .nan)) (fWeight _ c) [.fin 1, .fin 1]
      (imgAt (runState _ c) [.fin 1, .fin 1]) := ⟨T.hn, T.hd, T.hw, T.hme, T.hm, T.hmod, T.hf, T.hb⟩
  show ∃ t v, getFitStatistic (withModel s2 [.fin 1, .fin 1]) = .ok (t, fin v)
  unfold getFitStatistic
  have hu3 : (withModel s2 [.fin 1, .fin 1]).useCash = true := hu1
  simp only [hu3, if_true]
  rw [cashStatistic_eq T2 (e := e) rfl]
  have hterm : ∀ z, z < 2 → ∃ r, fWeight _ c z * cashTerm (fin c.effGain) (fin c.sky) (fData (c03Input .nan) z)
      (imgAt (runState _ c) [.fin 1, .fin 1] z) (e z) = fin r := by
    intro z hz
    obtain ⟨a, ha⟩ := fData_fin (c03Input .nan) z
    obtain ⟨e', hee⟩ : ∃ e', e z = fin e' := by
      show ∃ e', extraCashTerm (fin c.effGain) (fin c.sky) (fData (c03Input .nan) z) = fin e'
      rw [ha]; exact extra_fin hg _ (by simp) (by simp)
    have hx : ∃ x, imgAt (runState _ c) [.fin 1, .fin 1] z = fin x := by
      unfold imgAt modelIndex
      rw [hconv]
      match z, hz with
      | 0, _ => exact ⟨1, rfl⟩
      | 1, _ => exact ⟨1, rfl⟩
    obtain ⟨x, hx⟩ := hx
    have hw : ∃ w, fWeight _ c z = fin w := by
      unfold fWeight
      by_cases hu : Used (c03Input .nan) z
      · refine ⟨1, ?_⟩
        simp only [hu, if_true]
        exact ((weightIs_iff sh f z hu 1).2 ⟨zero_le_one, rfl⟩).2
      · exact ⟨0, by simp [hu]⟩
    obtain ⟨w, hw⟩ := hw
    rw [ha, hee, hx, hw]
    have := isfin_cashTerm hg c.sky a e' (fin x)
    obtain ⟨t, ht⟩ := (isfin_iff _).1 (this.trans rfl)
    exact ⟨w * t, by rw [ht]; rfl⟩
  have heg' : (withModel s2 [.fin 1, .fin 1]).effGain = fin c.effGain := heg
  have hsk' : (withModel s2 [.fin 1, .fin 1]).sky = fin c.sky := hsk
  obtain ⟨r0, h0⟩ := hterm 0 (by decide)
  obtain ⟨r1, h1⟩ := hterm 1 (by decide)
  have hsum : cashSum (withModel s2 [.fin 1, .fin 1]) (fWeight _ c) (fData (c03Input .nan))
      (imgAt (runState _ c) [.fin 1, .fin 1]) e 2 = fin (0 + r0 + r1) := by
    simp only [cashSum, heg', hsk', h0, h1]
    simp
  rw [hsum]
  exact ⟨_, 2 * (0 + r0 + r1), by simp; rfl⟩

/-- Example: the hypotheses hold for the 2 x 2 example (which has a NaN pixel and a masked pixel). -/
example : ∃ s, finalSetup s = .ok (s, 0) ∧ runSetup exInput = .ok (s, 0) := by
  obtain ⟨s, hs⟩ := C04_example
  obtain ⟨e, -, h⟩ := C48_repeat_partial exInput exChars exShapes s 0 hs
  exact ⟨s, h (fun h => by simp [exInput] at h), hs⟩

end Imfit
