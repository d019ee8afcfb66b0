import Verif.Lemmas.FitFinal

/-!
# Result of a whole fit setup, and closed forms of the statistics
-/

namespace Imfit

open Spec XR

section anyFP
variable {α : Type} [FP α]

/-- Image geometry as left by `SetupModelImage`. -/
structure Geo (s : MO α) : Prop where
  dvals : s.nDataVals = s.nDataCols * s.nDataRows
  conv : s.doConvolution = true →
    s.nModelCols = s.nDataCols + 2 * s.nPSFCols ∧ s.nModelRows = s.nDataRows + 2 * s.nPSFRows
  noconv : s.doConvolution = false → s.nModelCols = s.nDataCols ∧ s.nModelRows = s.nDataRows
  mvals : s.nModelVals = s.nModelCols * s.nModelRows

omit [FP α] in
theorem modelIndex_lt {s : MO α} (g : Geo s) {z : Nat} (hz : z < s.nDataVals) :
    modelIndex s z < s.nModelVals := by
  unfold modelIndex
  cases hc : s.doConvolution with
  | false =>
    have := g.noconv hc
    simp only [Bool.false_eq_true, if_false]
    rw [g.mvals, this.1, this.2, ← g.dvals]
    exact hz
  | true =>
    obtain ⟨h1, h2⟩ := g.conv hc
    simp only [if_true]
    rw [g.dvals] at hz
    have hcpos : 0 < s.nDataCols := by
      rcases Nat.eq_zero_or_pos s.nDataCols with h | h
      · rw [h] at hz; simp at hz
      · exact h
    have hrow : z / s.nDataCols < s.nDataRows := (Nat.div_lt_iff_lt_mul hcpos).2 (by rw [Nat.mul_comm]; exact hz)
    have hcol : z - z / s.nDataCols * s.nDataCols < s.nDataCols := by
      have := Nat.mod_lt z hcpos
      rw [Nat.mod_eq_sub_div_mul] at this
      exact this
    have hb : s.nPSFCols + (z - z / s.nDataCols * s.nDataCols) < s.nModelCols := by omega
    calc s.nModelCols * (s.nPSFRows + z / s.nDataCols) + s.nPSFCols + (z - z / s.nDataCols * s.nDataCols)
        < s.nModelCols * (s.nPSFRows + z / s.nDataCols) + s.nModelCols := by omega
      _ = s.nModelCols * (s.nPSFRows + z / s.nDataCols + 1) := by ring
      _ ≤ s.nModelCols * s.nModelRows := Nat.mul_le_mul_left _ (by omega)
      _ = s.nModelVals := g.mvals.symm

/-- The state's tables, with a model image `img` (as a table `f`). -/
structure Tabs (n : Nat) (s : MO α) (d m w : Nat → α) (img : List α) (f : Nat → α) : Prop where
  hn : s.nDataVals = n
  hd : s.dataVec = some (tab n d)
  hw : s.weightVec = some (tab n w)
  hme : s.maskExists = true
  hm : s.maskVec = some (tab n m)
  hmod : s.modelVec = some img
  hf : ∀ z, z < n → rd img (modelIndex s z) = .ok (f z)
  hb : s.doBootstrap = false

variable {n : Nat} {s : MO α} {d m w : Nat → α} {img : List α} {f : Nat → α}

/-- weight after `UpdateWeightVector` (if used) -/
def upW (s : MO α) (m w f : Nat → α) (z : Nat) : α :=
  if s.modelErrors && flt 0 (m z) then modelWeight s.effGain s.nCombined s.readNoiseAduSq s.sky (f z)
  else w z

omit [FP α] in
theorem rdp_model (h : Tabs n s d m w img f) {z : Nat} (hz : z < n) :
    rdp s.modelVec (modelIndex s z) = .ok (f z) := by
  rw [h.hmod]; exact h.hf z hz

theorem updateWeights_eq (h : Tabs n s d m w img f) (hme : s.modelErrors = true) :
    updateWeights s = .ok { s with weightVec := some (tab n (upW s m w f)) } := by
  unfold updateWeights
  rw [h.hn, loopMap_ok n _ (upW s m w f)]
  · rfl
  · intro z hz
    rw [h.hme, h.hm, h.hw, rdp_tab m hz, rdp_tab w hz, rdp_model h hz]
    unfold upW
    rw [hme]
    cases hf : flt 0 (m z) <;> simp [hf]

/-- State after the optional weight update. -/
def upState (n : Nat) (s : MO α) (m w f : Nat → α) : MO α :=
  { s with weightVec := some (tab n (upW s m w f)) }

theorem upState_eq (h : Tabs n s d m w img f) :
    maybeUpdateWeights s = .ok (upState n s m w f) := by
  unfold maybeUpdateWeights
  cases hme : s.modelErrors with
  | true => simp only [if_true]; exact updateWeights_eq h hme
  | false =>
    simp only [Bool.false_eq_true, if_false]
    have : upW s m w f = w := by funext z; simp [upW, hme]
    unfold upState
    rw [this, ← h.hw]

theorem upTabs (h : Tabs n s d m w img f) : Tabs n (upState n s m w f) d m (upW s m w f) img f :=
  ⟨h.hn, h.hd, rfl, h.hme, h.hm, h.hmod, h.hf, h.hb⟩

theorem chiDeviate_eq (h : Tabs n s d m w img f) {z : Nat} (hz : z < n) :
    chiDeviate s z (modelIndex s z) = .ok (w z * (d z - f z)) := by
  unfold chiDeviate
  rw [rdp_model h hz, h.hd, h.hw, rdp_tab d hz, rdp_tab w hz]
  rfl

theorem chiSquared_eq (h : Tabs n s d m w img f) :
    chiSquared s = .ok (upState n s m w f,
      mpEnorm (tab n fun z => upW s m w f z * (d z - f z)) *
      mpEnorm (tab n fun z => upW s m w f z * (d z - f z))) := by
  unfold chiSquared
  have hT := upTabs h
  have ht : nTerms (upState n s m w f) = n := by
    unfold nTerms; rw [hT.hb]; simp [hT.hn]
  rw [upState_eq h, ok_bind, ht]
  rw [loopMap_ok n _ (fun z => upW s m w f z * (d z - f z))]
  · rfl
  · intro z hz
    unfold termPixel
    rw [hT.hb]
    simp only [Bool.false_eq_true, if_false, pure_eq_ok, ok_bind]
    exact chiDeviate_eq hT hz

/-- one Poisson-MLR deviate -/
def mlrD (s : MO α) (w d f e : Nat → α) (z : Nat) : α :=
  fsqrt (lit 2 * w z * fabs (cashTerm s.effGain s.sky (d z) (f z) (e z)))

theorem computeDeviates_eq (h : Tabs n s d m w img f) (hp : s.poissonMLR = false) :
    computeDeviates s = .ok (upState n s m w f, tab n fun z => upW s m w f z * (d z - f z)) := by
  unfold computeDeviates
  have hT := upTabs h
  have ht : nTerms (upState n s m w f) = n := by
    unfold nTerms; rw [hT.hb]; simp [hT.hn]
  rw [upState_eq h, ok_bind, ht]
  rw [loopMap_ok n _ (fun z => upW s m w f z * (d z - f z))]
  · rfl
  · intro z hz
    unfold termPixel
    rw [hT.hb]
    have : (upState n s m w f).poissonMLR = false := hp
    simp only [this, Bool.false_eq_true, if_false, pure_eq_ok, ok_bind]
    exact chiDeviate_eq hT hz

theorem computeDeviates_mlr (h : Tabs n s d m w img f) (hp : s.poissonMLR = true) {e : Nat → α}
    (he : s.extraVec = some (tab n e)) :
    computeDeviates s = .ok (upState n s m w f, tab n (mlrD s (upW s m w f) d f e)) := by
  unfold computeDeviates
  have hT := upTabs h
  have ht : nTerms (upState n s m w f) = n := by
    unfold nTerms; rw [hT.hb]; simp [hT.hn]
  rw [upState_eq h, ok_bind, ht]
  rw [loopMap_ok n _ (mlrD s (upW s m w f) d f e)]
  · rfl
  · intro z hz
    unfold termPixel
    rw [hT.hb]
    have h1 : (upState n s m w f).poissonMLR = true := hp
    have h2 : (upState n s m w f).extraVec = some (tab n e) := he
    simp only [h1, Bool.false_eq_true, if_false, if_true, pure_eq_ok, ok_bind]
    unfold mlrDeviate
    rw [rdp_model hT hz, hT.hd, hT.hw, h2, rdp_tab d hz, rdp_tab e hz, rdp_tab (upW s m w f) hz]
    rfl

/-- running sum of the Cash terms -/
def cashSum (s : MO α) (w d f e : Nat → α) : Nat → α
  | 0 => 0
  | z + 1 => cashSum s w d f e z + w z * cashTerm s.effGain s.sky (d z) (f z) (e z)

theorem cashStatistic_eq (h : Tabs n s d m w img f) {e : Nat → α} (he : s.extraVec = some (tab n e)) :
    cashStatistic s = .ok (lit 2 * cashSum s w d f e n) := by
  unfold cashStatistic
  have ht : nTerms s = n := by unfold nTerms; rw [h.hb]; simp [h.hn]
  rw [ht, forN_ok n 0 _ (cashSum s w d f e) rfl]
  · rfl
  · intro z hz
    unfold termPixel
    rw [h.hb]
    simp only [Bool.false_eq_true, if_false, pure_eq_ok, ok_bind]
    rw [rdp_model h hz, h.hd, h.hw, he, rdp_tab d hz, rdp_tab w hz, rdp_tab e hz]
    rfl

end anyFP

section exact
variable (i : FitInput XR) (c : Chars i)

/-- State after a whole setup. -/
noncomputable def runState : MO XR := finalState i.n (postSetup i c) (pix i.data) (goodVal i) (inW i)
/-- Status after a whole setup. -/
noncomputable def runStatus : Int := finalStatus i.n (postSetup i c) (pix i.data) (goodVal i) (inW i)

open Classical in
/-- Final mask. -/
noncomputable def fMask (z : Nat) : XR := if Used i z then fin 1 else fin 0
open Classical in
/-- Final weight. -/
noncomputable def fWeight (z : Nat) : XR :=
  if Used i z then pw0 (postSetup i c) (pix i.data) (inW i) z else fin 0
/-- Final data. -/
noncomputable def fData (z : Nat) : XR := clean (pix i.data z)

variable {i c}

theorem runSetup_eq (sh : Shapes i) : runSetup i = .ok (runState i c, runStatus i c) := by
  unfold runSetup
  rw [setupFit_eq i c sh, ok_bind]
  exact finalSetup_eq (setupFacts i c sh).ready

theorem run_nValid (sh : Shapes i) : (runState i c).nValid = some ((count i.n (Used i) : Nat) : Int) :=
  count_used (setupFacts i c sh) sh

theorem run_mask (sh : Shapes i) : (runState i c).maskVec = some (tab i.n (fMask i)) := by
  show some (tab i.n _) = _
  congr 1
  apply tab_congr
  intro z hz
  exact pm2_val (setupFacts i c sh) sh z hz

theorem run_weight (sh : Shapes i) : (runState i c).weightVec = some (tab i.n (fWeight i c)) := by
  show some (tab i.n _) = _
  congr 1
  apply tab_congr
  intro z hz
  exact pw3_val (setupFacts i c sh) sh z hz

theorem run_data (sh : Shapes i) : (runState i c).dataVec = some (tab i.n (fData i)) := by
  show some (tab i.n _) = _
  congr 1
  apply tab_congr
  intro z hz
  exact pd_val (setupFacts i c sh) sh z hz

theorem run_status (sh : Shapes i) : runStatus i c = 0 ↔
    (∃ z, z < i.n ∧ Used i z) ∧ ∀ z, z < i.n → Used i z → ∃ w : ℝ, 0 ≤ w ∧ WeightIs c z w := by
  have f := setupFacts i c sh
  have hw : (∀ z, z < i.n → Used i z → ∃ w : ℝ, 0 ≤ w ∧ WeightIs c z w) ↔
      wOK i.n (postSetup i c) (pix i.data) (goodVal i) (inW i) = true := by
    rw [wOK_iff f sh]
    constructor
    · intro h z hz hu
      obtain ⟨w, hw⟩ := h z hz hu
      exact ⟨w, (weightIs_iff sh f z hu w).2 hw⟩
    · intro h z hz hu
      obtain ⟨w, hw⟩ := h z hz hu
      exact ⟨w, (weightIs_iff sh f z hu w).1 hw⟩
  have hc : (∃ z, z < i.n ∧ Used i z) ↔ 0 < count i.n (Used i) := by
    unfold count
    rw [Finset.card_pos]
    constructor
    · rintro ⟨z, hz, hu⟩; exact ⟨z, by simp [hz, hu]⟩
    · rintro ⟨z, hz⟩
      simp only [Finset.mem_filter, Finset.mem_range] at hz
      exact ⟨z, hz⟩
  rw [hw, hc]
  unfold runStatus finalStatus
  rw [count_used f sh, dOK_true f sh]
  simp only [tooFewValid, if_true]
  by_cases h0 : 0 < count i.n (Used i)
  · have : ¬ ((count i.n (Used i) : Nat) : Int) < 1 := by omega
    simp only [this, decide_false, h0, true_and]
    cases wOK i.n (postSetup i c) (pix i.data) (goodVal i) (inW i) <;> simp
  · have : ((count i.n (Used i) : Nat) : Int) < 1 := by omega
    simp [this, h0]

theorem run_geo (sh : Shapes i) : Geo (runState i c) := by
  have f := setupFacts i c sh
  refine ⟨?_, ?_, ?_, ?_⟩
  · show (postSetup i c).nDataVals = (postSetup i c).nDataCols * (postSetup i c).nDataRows
    rw [f.cols, f.rows, f.ready.hn]; rfl
  · intro h
    have h : (postSetup i c).doConvolution = true := h
    rw [f.conv] at h
    obtain ⟨p, hp⟩ := Option.isSome_iff_exists.mp h
    obtain ⟨a, b⟩ := p
    obtain ⟨h1, h2, h3, h4⟩ := f.psf a b hp
    show (postSetup i c).nModelCols = (postSetup i c).nDataCols + 2 * (postSetup i c).nPSFCols ∧
      (postSetup i c).nModelRows = (postSetup i c).nDataRows + 2 * (postSetup i c).nPSFRows
    rw [h1, h2, h3, h4, f.cols, f.rows]
    exact ⟨rfl, rfl⟩
  · intro h
    have h : (postSetup i c).doConvolution = false := h
    rw [f.conv] at h
    have hp : i.psf = none := by
      cases hh : i.psf
      · rfl
      · rw [hh] at h; cases h
    have := f.mcols hp
    show (postSetup i c).nModelCols = (postSetup i c).nDataCols ∧
      (postSetup i c).nModelRows = (postSetup i c).nDataRows
    rw [f.cols, f.rows]; exact this
  · exact f.mvals

/-- value of the model image compared with data pixel `z` -/
noncomputable def imgAt (s : MO XR) (img : List XR) (z : Nat) : XR := pix img (modelIndex s z)

theorem run_tabs (sh : Shapes i) (img : List XR) (hl : img.length = (runState i c).nModelVals) :
    Tabs i.n (withModel (runState i c) img) (fData i) (fMask i) (fWeight i c) img
      (imgAt (runState i c) img) where
  hn := (setupFacts i c sh).ready.hn
  hd := run_data sh
  hw := run_weight sh
  hme := rfl
  hm := run_mask sh
  hmod := rfl
  hf := by
    intro z hz
    have : modelIndex (runState i c) z < img.length := by
      rw [hl]
      apply modelIndex_lt (run_geo sh)
      show z < (postSetup i c).nDataVals
      rw [(setupFacts i c sh).ready.hn]; exact hz
    exact rd_getD (fin 0) this
  hb := (setupFacts i c sh).boot

end exact

end Imfit
