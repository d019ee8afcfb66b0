import Verif.Lemmas.FitRun

/-!
# Two-run lemmas for the fit statistics
-/

namespace Imfit

open Spec XR

theorem zmul (t : XR) : fin 0 * t = if isfin t then fin 0 else nan := by
  cases t with
  | fin r => simp
  | pinf => show infSign 0 = _; rw [infSign_zero]; rfl
  | ninf => show infSign (-0) = _; rw [neg_zero, infSign_zero]; rfl
  | nan => rfl

theorem isfin_sub_fin (a : ℝ) (x : XR) : isfin (fin a - x) = isfin x := by
  cases x <;> rfl

theorem isfin_fabs (x : XR) : isfin (fabs x : XR) = isfin x := by cases x <;> rfl

theorem isfin_cashTerm {g : ℝ} (hg : 0 < g) (k a e : ℝ) (x : XR) :
    isfin (cashTerm (fin g) (fin k) (fin a) x (fin e)) = isfin x := by
  unfold cashTerm logModel
  cases x with
  | fin r =>
    simp only [fin_add, fin_mul, zero_def, fle_fin, lit_def]
    by_cases h : g * (r + k) ≤ 0
    · simp [h]
    · simp [h, not_le.mp h]
  | pinf =>
    have h1 : pinf + fin k = pinf := rfl
    have h2 : fin g * pinf = pinf := by show infSign g = _; exact infSign_pos hg
    have h3 : (fle pinf (0 : XR)) = false := rfl
    have h4 : (flog pinf : XR) = pinf := rfl
    simp only [h1, h2, h3, h4, fin_add, fin_mul, isfin_pinf]
    have h5 : fin (g * (a + k)) * pinf = infSign (g * (a + k)) := rfl
    simp only [Bool.false_eq_true, if_false, h5]
    unfold infSign
    split
    · rfl
    · split <;> rfl
  | ninf =>
    have h1 : ninf + fin k = ninf := rfl
    have h2 : fin g * ninf = ninf := by
      show infSign (-g) = _
      simp [infSign, hg, not_lt.mpr hg.le]
    have h3 : (fle ninf (0 : XR)) = true := rfl
    simp only [h1, h2, h3, fin_add, fin_mul, isfin_ninf, if_true, lit_def]
    rfl
  | nan => simp

variable {i j : FitInput XR}

/-- Characteristics carry over. -/
noncomputable def charsOf (h : SameOnGood i j) (c : Chars i) : Chars j where
  gain := c.gain
  readNoise := c.readNoise
  expTime := c.expTime
  sky := c.sky
  hgain := by rw [← h.gain]; exact c.hgain
  hrn := by rw [← h.rn]; exact c.hrn
  hexp := by rw [← h.exp]; exact c.hexp
  hsky := by rw [← h.sky]; exact c.hsky
  pgain := c.pgain
  prn := c.prn
  pexp := c.pexp
  psky := c.psky
  pn := by rw [← h.ncomb]; exact c.pn

theorem n_eq (h : SameOnGood i j) : j.n = i.n := by unfold FitInput.n; rw [h.cols, h.rows]

theorem good_iff (h : SameOnGood i j) (z : Nat) : Good i z ↔ Good j z := by
  unfold Good; rw [h.mask]

theorem used_iff (h : SameOnGood i j) {z : Nat} (hz : z < i.n) : Used i z ↔ Used j z := by
  unfold Used
  rw [← good_iff h, ← h.stat]
  apply and_congr_right
  intro hg
  rw [h.data z hz hg, h.errs z hz hg]

theorem effGain_eq (h : SameOnGood i j) (c : Chars i) : (charsOf h c).effGain = c.effGain := by
  unfold Chars.effGain
  rw [← h.ncomb]; rfl

theorem fMask_eq (h : SameOnGood i j) {z : Nat} (hz : z < i.n) : fMask i z = fMask j z := by
  unfold fMask
  by_cases hu : Used i z
  · simp [hu, (used_iff h hz).1 hu]
  · have hu' : ¬ Used j z := fun hh => hu ((used_iff h hz).2 hh)
    simp [hu, hu']

theorem inW_eq (h : SameOnGood i j) {z : Nat} (hz : z < i.n) (hg : Good i z) : inW i z = inW j z := by
  unfold inW
  rw [← h.stat, h.errs z hz hg]

theorem fWeight_eq (h : SameOnGood i j) {c : Chars i} (sh : Shapes i) (sh' : Shapes j) {z : Nat} (hz : z < i.n) :
    fWeight i c z = fWeight j (charsOf h c) z := by
  unfold fWeight
  by_cases hu : Used i z
  · have hu' := (used_iff h hz).1 hu
    simp only [hu, hu', if_true]
    have f := setupFacts i c sh
    have f' := setupFacts j (charsOf h c) sh'
    unfold pw0
    rw [f.gen, f'.gen, f.eg, f'.eg, f.nc, f'.nc, f.rn, f'.rn, f.sky, f'.sky, ← h.stat, effGain_eq, ← h.ncomb,
      ← h.data z hz hu.1, ← inW_eq h hz hu.1]
    rfl
  · have hu' : ¬ Used j z := fun hh => hu ((used_iff h hz).2 hh)
    simp [hu, hu']

theorem fData_fin (i : FitInput XR) (z : Nat) : ∃ r, fData i z = fin r := by
  unfold fData clean
  cases h : isfin (pix i.data z)
  · exact ⟨0, by simp⟩
  · obtain ⟨r, hr⟩ := (isfin_iff _).1 h
    exact ⟨r, by simp [hr]⟩

theorem fData_eq (h : SameOnGood i j) {z : Nat} (hz : z < i.n) (hg : Good i z) : fData i z = fData j z := by
  unfold fData; rw [h.data z hz hg]

theorem modelIndex_eq (h : SameOnGood i j) {c : Chars i} (sh : Shapes i) (sh' : Shapes j) (z : Nat) :
    modelIndex (runState i c) z = modelIndex (runState j (charsOf h c)) z := by
  have f := setupFacts i c sh
  have f' := setupFacts j (charsOf h c) sh'
  unfold modelIndex
  show (if (postSetup i c).doConvolution = true then
      (postSetup i c).nModelCols * ((postSetup i c).nPSFRows + z / (postSetup i c).nDataCols) +
        (postSetup i c).nPSFCols + (z - z / (postSetup i c).nDataCols * (postSetup i c).nDataCols) else z) =
    (if (postSetup j (charsOf h c)).doConvolution = true then
      (postSetup j (charsOf h c)).nModelCols * ((postSetup j (charsOf h c)).nPSFRows + z /
        (postSetup j (charsOf h c)).nDataCols) +
        (postSetup j (charsOf h c)).nPSFCols + (z - z / (postSetup j (charsOf h c)).nDataCols *
        (postSetup j (charsOf h c)).nDataCols) else z)
  rw [f.conv, f'.conv, ← h.psf]
  cases hp : i.psf with
  | none => rfl
  | some p =>
    obtain ⟨a, b⟩ := p
    obtain ⟨h1, h2, h3, h4⟩ := f.psf a b hp
    obtain ⟨g1, g2, g3, g4⟩ := f'.psf a b (by rw [← h.psf]; exact hp)
    rw [h1, h2, h3, g1, g2, g3, f.cols, f'.cols, h.cols]

theorem run_nModelVals {c : Chars i} (sh : Shapes i) : (runState i c).nModelVals = padLen i := by
  have f := setupFacts i c sh
  show (postSetup i c).nModelVals = _
  rw [f.mvals]
  unfold padLen
  cases hp : i.psf with
  | none => rw [(f.mcols hp).1, (f.mcols hp).2]
  | some p =>
    obtain ⟨a, b⟩ := p
    obtain ⟨_, _, h3, h4⟩ := f.psf a b hp
    rw [h3, h4]

theorem padLen_eq (h : SameOnGood i j) : padLen i = padLen j := by
  unfold padLen; rw [h.psf, h.cols, h.rows]

theorem run_status_eq (h : SameOnGood i j) {c : Chars i} (sh : Shapes i) (sh' : Shapes j) :
    runStatus i c = runStatus j (charsOf h c) := by
  have f := setupFacts i c sh
  have f' := setupFacts j (charsOf h c) sh'
  have hcount : count i.n (Used i) = count j.n (Used j) := by
    rw [n_eq h]
    unfold count
    congr 1
    classical
    apply Finset.filter_congr
    intro z hz
    exact used_iff h (Finset.mem_range.mp hz)
  have hw : wOK i.n (postSetup i c) (pix i.data) (goodVal i) (inW i) =
      wOK j.n (postSetup j (charsOf h c)) (pix j.data) (goodVal j) (inW j) := by
    unfold wOK
    rw [n_eq h]
    apply Bool.eq_iff_iff.mpr
    simp only [List.all_eq_true]
    apply forall_congr'
    intro z
    constructor
    · intro hh hz
      have hz' := List.mem_range.mp hz
      have := hh hz
      rw [pm2_val f sh z hz', pw3_val f sh z hz'] at this
      rw [pm2_val f' sh' z (by rw [n_eq h]; exact hz'), pw3_val f' sh' z (by rw [n_eq h]; exact hz')]
      have e1 := fMask_eq h hz'
      have e2 := fWeight_eq h (c := c) sh sh' hz'
      unfold fMask at e1
      unfold fWeight at e2
      rw [← e1, ← e2]
      exact this
    · intro hh hz
      have hz' := List.mem_range.mp hz
      have := hh hz
      rw [pm2_val f' sh' z (by rw [n_eq h]; exact hz'), pw3_val f' sh' z (by rw [n_eq h]; exact hz')] at this
      rw [pm2_val f sh z hz', pw3_val f sh z hz']
      have e1 := fMask_eq h hz'
      have e2 := fWeight_eq h (c := c) sh sh' hz'
      unfold fMask at e1
      unfold fWeight at e2
      rw [e1, e2]
      exact this
  unfold runStatus finalStatus
  rw [count_used f sh, count_used f' sh', dOK_true f sh, dOK_true f' sh', hw, hcount]

/-- image value compared with a data pixel is the same in both runs -/
theorem imgAt_eq (h : SameOnGood i j) {c : Chars i} (sh : Shapes i) (sh' : Shapes j) (img : List XR) :
    imgAt (runState i c) img = imgAt (runState j (charsOf h c)) img := by
  funext z; unfold imgAt; rw [modelIndex_eq h sh sh']

/-- Updated weights agree; at pixels the mask calls bad they are 0. -/
theorem upW_eq (h : SameOnGood i j) {c : Chars i} (sh : Shapes i) (sh' : Shapes j) (img : List XR)
    (f : Nat → XR) {z : Nat} (hz : z < i.n) :
    upW (withModel (runState i c) img) (fMask i) (fWeight i c) f z =
    upW (withModel (runState j (charsOf h c)) img) (fMask j) (fWeight j (charsOf h c)) f z := by
  have g := setupFacts i c sh
  have g' := setupFacts j (charsOf h c) sh'
  unfold upW
  show (if (postSetup i c).modelErrors && flt 0 (fMask i z) then
      modelWeight (postSetup i c).effGain (postSetup i c).nCombined (postSetup i c).readNoiseAduSq
        (postSetup i c).sky (f z) else fWeight i c z) =
    (if (postSetup j (charsOf h c)).modelErrors && flt 0 (fMask j z) then
      modelWeight (postSetup j (charsOf h c)).effGain (postSetup j (charsOf h c)).nCombined
        (postSetup j (charsOf h c)).readNoiseAduSq
        (postSetup j (charsOf h c)).sky (f z) else fWeight j (charsOf h c) z)
  rw [g.merr, g'.merr, ← h.stat, g.eg, g'.eg, g.nc, g'.nc, g.rn, g'.rn, g.sky, g'.sky, effGain_eq, ← h.ncomb,
    ← fMask_eq h hz, ← fWeight_eq h sh sh' hz]
  rfl

theorem upW_masked {c : Chars i} (img : List XR) (f : Nat → XR) {z : Nat} (hu : ¬ Used i z) :
    upW (withModel (runState i c) img) (fMask i) (fWeight i c) f z = fin 0 := by
  unfold upW fMask fWeight
  simp [hu]

theorem chiTerm_eq (h : SameOnGood i j) {c : Chars i} (sh : Shapes i) (sh' : Shapes j) (img : List XR)
    (f : Nat → XR) {z : Nat} (hz : z < i.n) :
    upW (withModel (runState i c) img) (fMask i) (fWeight i c) f z * (fData i z - f z) =
    upW (withModel (runState j (charsOf h c)) img) (fMask j) (fWeight j (charsOf h c)) f z * (fData j z - f z) := by
  rw [← upW_eq h sh sh' img f hz]
  by_cases hg : Good i z
  · rw [fData_eq h hz hg]
  · have hu : ¬ Used i z := fun hu => hg hu.1
    rw [upW_masked img f hu]
    obtain ⟨a, ha⟩ := fData_fin i z
    obtain ⟨b, hb⟩ := fData_fin j z
    rw [ha, hb, zmul, zmul, isfin_sub_fin, isfin_sub_fin]

end Imfit
