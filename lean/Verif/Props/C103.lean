import Verif.Lemmas.ProfileRun

/-!
# C103: masks, errors and χ² of profile fits

With positive errors the deviates of a profile fit are (data - model) / error at the points that are not masked and have a value, and 0 at the others; the number of valid
points is the number of these points; and without a PSF the fit statistic is the sum of their squares.

It fails in these cases.

* With a PSF the fit statistic cannot be computed: `ModelObject::ChiSquared`, which `ModelObject1d` does not redefine, divides by the number of image columns, which is 0.
  `profilefit` calls it after every fit.
* An error of 0 ends the program even where the point is masked, because the errors are checked before the mask is read.
* A negative error at one valid point: the status is ignored, and the mask of all points is not applied.
* In magnitudes, a masked point where the model has no light has a deviate that is not a number.
* In bootstrap resampling with masked points the loop over all data points reads beyond the bootstrap sample, which has the number of valid points.
* `FinalSetupForFitting` returns a variable without a value when nothing is wrong.
-/

namespace Imfit

open Spec XR

/-- The points that count: not masked, and with a value. -/
noncomputable def Spec.counts (y : Nat → XR) (bad : Nat → Bool) (z : Nat) : Bool := !(bad z) && isfin (y z)

theorem goodPt_eq (y : Nat → XR) (bad : Nat → Bool) : goodPt y bad = counts y bad := by
  funext z
  unfold goodPt counts
  cases bad z <;> cases isfin (y z) <;> rfl

/-- The weighted deviation of the data `d` from the model `m`. -/
noncomputable def Spec.deviation (y : Nat → XR) (bad : Nat → Bool) (σ d m : Nat → ℝ) (z : Nat) : ℝ := if counts y bad z then (d z - m z) / σ z else 0

theorem deviation_fin {y : Nat → XR} {bad : Nat → Bool} {σ d m : Nat → ℝ} {z : Nat} (hd : counts y bad z = true → y z = fin (d z)) :
    fin (wt σ y bad z) * (dat y z - fin (m z)) = fin (deviation y bad σ d m z) := by
  unfold deviation wt
  rw [goodPt_eq]
  cases hc : counts y bad z with
  | true =>
    have h1 := hd hc
    have h2 : dat y z = fin (d z) := by
      unfold dat
      rw [h1]
      rfl
    rw [h2]
    simp only [if_true, fin_sub, fin_mul]
    congr 1
    ring
  | false =>
    obtain ⟨v, hv⟩ : ∃ v, dat y z = fin v := by
      unfold dat
      cases h : y z with
      | fin v => exact ⟨v, rfl⟩
      | pinf => exact ⟨0, rfl⟩
      | ninf => exact ⟨0, rfl⟩
      | nan => exact ⟨0, rfl⟩
    rw [hv]
    simp only [Bool.false_eq_true, if_false, fin_sub, fin_mul, zero_mul]

/-- The number of valid points and the deviates. `m` is the model at the data points in the units of the data (see C102); a model in magnitudes must have light at all points. -/
theorem C103_deviates_partial (i : ProfIn) (X : Nat → ℝ) (y : Nat → XR) (σ : Nat → ℝ) (bad : Nat → Bool) (q : Option (Nat × (Nat → ℝ))) (h : ProfOK i X y σ bad)
    (hσ : ∀ z, z < i.n → 0 < σ z) (hq : PsfOK i q) (h2 : q.isSome → 2 ≤ i.n) (sets : List FnSet) (hok : SetsOK sets) (hf : i.fns = modelFns sets) (zp : ℝ)
    (hz : i.zp = fin zp) (d : Nat → ℝ) (hd : ∀ z, counts y bad z = true → y z = fin (d z)) (m : Nat → ℝ) :
    ∃ s, setupProfile i = .ok s ∧ s.base.nValid = some (((List.range i.n).filter (counts y bad)).length : Int) ∧
      ((do let t ← createModel1 s ((modelPars sets).map fin); getModelVector1 t) = .ok (some (tab i.n fun z => fin (m z))) →
        deviates1 s ((modelPars sets).map fin) = .ok (tab i.n fun z => fin (deviation y bad σ d m z))) := by
  obtain ⟨s, h1, hb, h3, h4, h5, hs⟩ := setupProfile_eq h hσ hq h2
  refine ⟨s, h1, ?_, ?_⟩
  · rw [hb.valid, goodPt_eq]
    simp only [cnt, List.countP_eq_length_filter]
  · intro hm
    rw [getModel1_at hb.nData (h4.trans hz) (h3.trans hf) hok hs] at hm
    simp only [Except.ok.injEq, Option.some.injEq] at hm
    rw [deviates1_at hb (h4.trans hz) (h3.trans hf) hok hs]
    congr 1
    refine tab_congr fun z hz => ?_
    have := congrArg (fun l => rd l z) hm
    simp only [rd_tab _ hz, Except.ok.injEq] at this
    rw [this]
    exact deviation_fin fun hc => hd z hc

theorem list_sum_range (n : Nat) (f : Nat → ℝ) : ((List.range n).map f).sum = ∑ z ∈ Finset.range n, f z := by
  induction n with
  | zero => rfl
  | succ n ih => rw [List.range_succ, List.map_append, List.sum_append, ih, Finset.sum_range_succ]; simp

/-- Without a PSF the fit statistic is the sum of the squares of the deviates, up to squares of numbers that `mp_enorm` takes for zero. -/
theorem C103_chi2_partial (i : ProfIn) (X : Nat → ℝ) (y : Nat → XR) (σ : Nat → ℝ) (bad : Nat → Bool) (h : ProfOK i X y σ bad)
    (hσ : ∀ z, z < i.n → 0 < σ z) (hp : i.psf = none) (sets : List FnSet) (hok : SetsOK sets) (hf : i.fns = modelFns sets) (zp : ℝ)
    (hz : i.zp = fin zp) (d : Nat → ℝ) (hd : ∀ z, counts y bad z = true → y z = fin (d z)) (hpos : i.mags = true → ∀ z, z < i.n → 0 < intensity zp sets (X z)) :
    ∃ s r, setupProfile i = .ok s ∧ fitStat1 s ((modelPars sets).map fin) = .ok (fin r) ∧
      r ≤ ∑ z ∈ Finset.range i.n, deviation y bad σ d (fun z => if i.mags then mag zp (intensity zp sets (X z)) else intensity zp sets (X z)) z ^ 2 ∧
      ∑ z ∈ Finset.range i.n, deviation y bad σ d (fun z => if i.mags then mag zp (intensity zp sets (X z)) else intensity zp sets (X z)) z ^ 2 ≤ r + i.n * smallSize ^ 2 := by
  obtain ⟨s, h1, hb, h3, h4, h5, hs⟩ := setupProfile_eq h hσ (.none hp) fun h => by cases h
  have e : (tab i.n fun z => fin (wt σ y bad z) * (dat y z - asData s.mags zp (intensity zp sets (X z)))) =
      (tab i.n fun z => deviation y bad σ d (fun z => if i.mags then mag zp (intensity zp sets (X z)) else intensity zp sets (X z)) z).map fin := by
    rw [map_tab]
    refine tab_congr fun z hz => ?_
    rw [h5, asData_fin fun hm => hpos hm z hz]
    exact deviation_fin (m := fun z => if i.mags then mag zp (intensity zp sets (X z)) else intensity zp sets (X z)) fun hc => hd z hc
  have key := fitStat1_at hb (h4.trans hz) (h3.trans hf) hok hs
  rw [e] at key
  obtain ⟨r, hr, -, hr1, hr2, -⟩ := C39_bounds_partial (tab i.n fun z => deviation y bad σ d (fun z => if i.mags then mag zp (intensity zp sets (X z)) else intensity zp sets (X z)) z)
  rw [hr, fin_mul] at key
  have hsum : sumSq (tab i.n fun z => deviation y bad σ d (fun z => if i.mags then mag zp (intensity zp sets (X z)) else intensity zp sets (X z)) z) =
      ∑ z ∈ Finset.range i.n, deviation y bad σ d (fun z => if i.mags then mag zp (intensity zp sets (X z)) else intensity zp sets (X z)) z ^ 2 := by
    unfold sumSq
    rw [map_tab]
    exact list_sum_range _ _
  rw [tab_length] at hr2
  rw [hsum] at hr1 hr2
  exact ⟨s, r * r, h1, key, by rw [← pow_two]; exact hr1, by rw [← pow_two]; exact hr2⟩

theorem loopMap_errAt {β : Type} {f : Nat → Res β} {g : Nat → β} {e : Fault} {k : Nat} (h : ∀ z, z < k → f z = .ok (g z)) (hk : f k = .error e) :
    ∀ n, k < n → loopMap n f = .error e := by
  intro n
  induction n with
  | zero => intro h; omega
  | succ n ih =>
    intro hn
    rcases Nat.lt_or_ge k n with h' | h'
    · simp only [loopMap, ih h']
      rfl
    · have : k = n := by omega
      subst this
      simp only [loopMap, loopMap_ok k f g h, ok_bind, hk]
      rfl

/-- With a PSF the fit statistic divides by zero, whatever the data, the functions and the parameters. -/
theorem C103_psf_false (i : ProfIn) (X : Nat → ℝ) (y : Nat → XR) (σ : Nat → ℝ) (bad : Nat → Bool) (p : Nat) (P : Nat → ℝ) (h : ProfOK i X y σ bad)
    (hσ : ∀ z, z < i.n → 0 < σ z) (hq : PsfOK i (some (p, P))) (h2 : 2 ≤ i.n) (sets : List FnSet) (hok : SetsOK sets) (hf : i.fns = modelFns sets) (zp : ℝ)
    (hz : i.zp = fin zp) : ∃ s, setupProfile i = .ok s ∧ fitStat1 s ((modelPars sets).map fin) = .error .overflow := by
  obtain ⟨s, h1, hb, h3, h4, h5, hs⟩ := setupProfile_eq h hσ hq fun _ => h2
  obtain ⟨N, V, g1, g2, g3⟩ := modelVec1_at (h4.trans hz) (h3.trans hf) hok hs
  obtain ⟨-, -, -, hc, -⟩ := hs
  refine ⟨s, h1, ?_⟩
  have hm : maybeUpdateWeights { s.base with modelVec := some (tab N fun j => asData s.mags zp (V j)), modelImageComputed := true } =
      .ok { s.base with modelVec := some (tab N fun j => asData s.mags zp (V j)), modelImageComputed := true } := by
    unfold maybeUpdateWeights
    simp only [hb.merr, Bool.false_eq_true, if_false]
  unfold fitStat1 createModel1 withModel
  rw [g1, ok_bind]
  simp only [pure_eq_ok, ok_bind, hm]
  simp only [nTerms, hb.boot, Bool.false_eq_true, if_false, hb.nData]
  rw [loopMap_errAt (g := fun _ => 0) (e := .overflow) (k := 0) (by intro z hz; omega) ?_ i.n (by omega)]
  · rfl
  · simp only [termPixel, Bool.false_eq_true, if_false, pure_eq_ok, ok_bind, chiIndex1, hc, hb.cols, true_and, if_true]
    rfl

/-- An error of 0 ends the program, whatever the mask is. -/
theorem C103_zeroError_false (i : ProfIn) (e : Nat → ℝ) (he : i.errs = some (tab i.n fun z => fin (e z))) (z : Nat) (hz : z < i.n) (h0 : e z = 0) :
    setupProfile i = .error .exit := by
  unfold setupProfile
  simp only [he, Option.getD_some]
  have hw : addError1 (addData1 (p1Init i.fns i.zp) i.n i.xs i.ys i.mags) i.n (tab i.n fun z => fin (e z)) WEIGHTS_ARE_SIGMAS = .error .exit := by
    unfold addError1
    have hn : (addData1 (p1Init i.fns i.zp) i.n i.xs i.ys i.mags).base.nDataVals = i.n := rfl
    rw [if_neg (by rw [hn]; simp), hn, loopMap_ok i.n _ fun z => (1 : XR) / fin (e z)]
    · simp only [ok_bind]
      have hc := checkWeights_noMask (b := { (addData1 (p1Init i.fns i.zp) i.n i.xs i.ys i.mags).base with weightVec := some ((List.range i.n).map fun z => (1 : XR) / fin (e z)) })
        (n := i.n) (W := fun z => (1 : XR) / fin (e z)) rfl rfl rfl
      have hf : ((List.range i.n).all fun z => isfin ((1 : XR) / fin (e z))) = false := by
        rw [List.all_eq_false]
        refine ⟨z, List.mem_range.2 hz, ?_⟩
        rw [h0, one_def, fin_div_zero, infSign_pos one_pos]
        simp
      rw [hf] at hc
      simp only at hc
      rw [hc]
      rfl
    · intro z hz
      rw [rd_tab _ hz, ok_bind]
      rfl
  rw [hw]
  rfl

/-- `FinalSetupForFitting` with a negative error at a valid point. -/
theorem finalSetup1_neg {s : P1 XR} {n : Nat} {y : Nat → XR} {σ : Nat → ℝ} {bad : Nat → Bool} {B : MO XR} (hB : finalDefaultMask s.base = B) (hn : B.nDataVals = n)
    (hd : B.dataVec = some (tab n y)) (hm : B.maskVec = some (tab n fun z => if bad z then 0 else 1)) (he : B.maskExists = true) (hde : B.dataErrors = false)
    (hw : B.weightVec = some (tab n fun z => fin (1 / σ z))) (hws : B.weightValsSet = true) (hds : B.dataValsSet = true)
    (hnv : B.nValid = some ((cnt n fun z => !(bad z) : Nat) : Int)) (hσ : ∃ z, z < n ∧ goodPt y bad z = true ∧ σ z < 0) :
    finalSetup1 s = .ok ({ s with base := { B with
      maskVec := some (tab n fun z => if goodPt y bad z then 1 else 0)
      dataVec := some (tab n (dat y))
      nValid := some ((cnt n (goodPt y bad) : Nat) : Int) } }, some (-1)) := by
  have em : (tab n fun z => if (flt (0 : XR) (if bad z then 0 else 1) && !(isfin (y z))) = true then (0 : XR) else if bad z then 0 else 1) =
      tab n fun z => if goodPt y bad z then 1 else 0 := by
    refine tab_congr fun z _ => ?_
    unfold goodPt
    cases bad z <;> cases isfin (y z) <;> simp [flt_fin]
  have hgood : ∀ z, flt (0 : XR) (if goodPt y bad z then 1 else 0) = goodPt y bad z := by
    intro z
    cases goodPt y bad z <;> simp [flt_fin]
  have s1 := finalMaskBadData_eq (n := n) (d := y) B _ hn hd hm
  rw [em, hnv] at s1
  simp only [subValid, Option.map_some, cnt_good] at s1
  obtain ⟨B2, hB2⟩ : ∃ B2, B2 = ({ B with
      nValid := some ((cnt n (goodPt y bad) : Nat) : Int), maskVec := some (tab n fun z => if goodPt y bad z then 1 else 0) } : MO XR) := ⟨_, rfl⟩
  rw [← hB2] at s1
  have f1 : B2.dataErrors = false := by rw [hB2]; exact hde
  have f2 : B2.weightValsSet = true := by rw [hB2]; exact hws
  have f3 : B2.nDataVals = n := by rw [hB2]; exact hn
  have f4 : B2.maskExists = true := by rw [hB2]; exact he
  have f5 : B2.maskVec = some (tab n fun z => if goodPt y bad z then 1 else 0) := by rw [hB2]
  have f6 : B2.weightVec = some (tab n fun z => fin (1 / σ z)) := by rw [hB2]; exact hw
  have f7 : B2.dataVec = some (tab n y) := by rw [hB2]; exact hd
  have f8 : B2.dataValsSet = true := by rw [hB2]; exact hds
  have s2 : finalGenErrors B2 = .ok B2 := by
    unfold finalGenErrors
    rw [f1, Bool.and_false, Bool.false_and]
    rfl
  have s3 : defaultWeights1 B2 = B2 := by
    unfold defaultWeights1
    rw [f2, if_pos rfl]
  have s4 := checkWeights_eq (n := n) B2 (fun z => if goodPt y bad z then 1 else 0) (fun z => fin (1 / σ z)) f3 f4 f5 f6
  have hcw : ((List.range n).all fun z => !(flt (0 : XR) (if goodPt y bad z then 1 else 0)) || (isfin (fin (1 / σ z)) && !(flt (fin (1 / σ z)) (0 : XR)))) = false := by
    obtain ⟨z, h1, h2, h3⟩ := hσ
    rw [List.all_eq_false]
    refine ⟨z, List.mem_range.2 h1, ?_⟩
    have h4 : 1 / σ z < 0 := one_div_neg.2 h3
    rw [hgood, h2, zero_def, flt_fin, isfin_fin]
    simp only [h4, decide_true]
    decide
  rw [hcw] at s4
  have hall : ((List.range n).all fun z => isfin (y z) || !(goodPt y bad z)) = true := by
    refine all_range_true fun z _ => ?_
    unfold goodPt
    cases bad z <;> cases isfin (y z) <;> rfl
  have ed : (tab n fun z => if (!(isfin (y z)) && !(goodPt y bad z)) = true then (0 : XR) else y z) = tab n (dat y) := by
    refine tab_congr fun z _ => ?_
    unfold dat goodPt
    cases isfin (y z) <;> cases bad z <;> simp
  have s6 := vetData_eq (n := n) (d := y) B2 (fun z => if goodPt y bad z then 1 else 0) f3 f5 f7
  simp only [hgood] at s6
  rw [ed, hall] at s6
  unfold finalSetup1
  simp only [hB]
  rw [s1, ok_bind, s2, ok_bind, s3, s4, ok_bind]
  simp only [Bool.false_eq_true, if_false, pure_eq_ok, ok_bind, f8, if_true]
  rw [s6, ok_bind]
  simp only [if_true]
  rw [hB2]

/-- One negative error at a valid point: masked points count as if there were no mask. -/
theorem C103_negativeError_false (i : ProfIn) (X : Nat → ℝ) (y : Nat → XR) (σ : Nat → ℝ) (bad : Nat → Bool) (h : ProfOK i X y σ bad)
    (hσ : ∀ z, z < i.n → σ z ≠ 0) (hneg : ∃ z, z < i.n ∧ counts y bad z = true ∧ σ z < 0) (hp : i.psf = none) (sets : List FnSet) (hok : SetsOK sets)
    (hf : i.fns = modelFns sets) (zp : ℝ) (hz : i.zp = fin zp) (hm : i.mags = false) (d : Nat → ℝ) (hd : ∀ z, z < i.n → y z = fin (d z)) :
    ∃ s, setupProfile i = .ok s ∧ deviates1 s ((modelPars sets).map fin) = .ok (tab i.n fun z => fin ((d z - intensity zp sets (X z)) / σ z)) := by
  have he : i.errs.getD (List.replicate i.n 1) = tab i.n fun z => fin (σ z) := by
    rcases h.errs with ⟨h1, h3⟩ | h1
    · rw [h1, Option.getD_none, replicate_eq_tab]
      exact tab_congr fun z _ => by rw [h3 z]; rfl
    · rw [h1, Option.getD_some]
  unfold setupProfile
  simp only [he]
  rw [addError1_eq (n := i.n) (σ := σ) rfl rfl rfl hσ, ok_bind]
  obtain ⟨b', h3, h4, h5⟩ := setupMask1_eq h (s := { addData1 (p1Init i.fns i.zp) i.n i.xs i.ys i.mags with
    base := { (addData1 (p1Init i.fns i.zp) i.n i.xs i.ys i.mags).base with weightVec := some (tab i.n fun z => fin (1 / σ z)), weightValsSet := true } }) rfl rfl rfl
  rw [h3, ok_bind]
  clear h3
  unfold setupPsf1
  rw [hp]
  simp only [pure_eq_ok, ok_bind]
  have hy : some i.ys = some (tab i.n y) := by rw [h.ys]
  have hg : ∃ z, z < i.n ∧ goodPt y bad z = true ∧ σ z < 0 := by rw [goodPt_eq]; exact hneg
  rw [finalSetup1_neg (n := i.n) (y := y) (σ := σ) (bad := bad) h4 rfl hy rfl rfl rfl rfl rfl rfl rfl hg]
  refine ⟨_, rfl, ?_⟩
  rw [deviates1_at (n := i.n) (zp := zp) (X := X) (q := none) (W := fun z => fin (1 / σ z)) (D := dat y) ⟨rfl, rfl, rfl, rfl, rfl, rfl, rfl, rfl⟩ hz hf hok ⟨rfl, rfl, h.xs, rfl⟩]
  congr 1
  refine tab_congr fun z hz' => ?_
  have hm' : (addData1 (p1Init i.fns i.zp) i.n i.xs i.ys i.mags).mags = false := hm
  have hdat : dat y z = fin (d z) := by
    unfold dat
    rw [hd z hz']
    rfl
  simp only [hm', asData, seenAt, Bool.false_eq_true, if_false, hdat, fin_sub, fin_mul]
  congr 1
  ring

/-- In magnitudes, a masked point where the model has no light spoils the fit: its deviate is not a number. -/
theorem C103_masked_false (i : ProfIn) (X : Nat → ℝ) (y : Nat → XR) (σ : Nat → ℝ) (bad : Nat → Bool) (h : ProfOK i X y σ bad)
    (hσ : ∀ z, z < i.n → 0 < σ z) (hp : i.psf = none) (sets : List FnSet) (hok : SetsOK sets) (hf : i.fns = modelFns sets) (zp : ℝ)
    (hz : i.zp = fin zp) (hm : i.mags = true) (z : Nat) (hzn : z < i.n) (hb : bad z = true) (h0 : intensity zp sets (X z) = 0) :
    ∃ s l, setupProfile i = .ok s ∧ deviates1 s ((modelPars sets).map fin) = .ok l ∧ l[z]? = some nan := by
  obtain ⟨s, h1, hb', h3, h4, h5, hs⟩ := setupProfile_eq h hσ (.none hp) fun h => by cases h
  refine ⟨s, _, h1, deviates1_at hb' (h4.trans hz) (h3.trans hf) hok hs, ?_⟩
  have hw : wt σ y bad z = 0 := by
    unfold wt
    rw [goodPt_eq]
    simp [counts, hb]
  have hv : asData s.mags zp (seenAt i.n X (intensity zp sets) z none) = pinf := by
    rw [h5, hm]
    simp only [asData, if_true, seenAt, h0]
    have h1 : ¬ Real.log 10 < 0 := not_lt.2 (Real.log_pos (by norm_num)).le
    have h2 : (ninf : XR) / fin (Real.log 10) = ninf := if_neg h1
    have h3 : (fin (25 / 10) : XR) * ninf = ninf := by
      show infSign (-(25 / 10)) = ninf
      unfold infSign
      norm_num
    have h0 : flog (fin 0 : XR) = ninf := by simp [flog_fin]
    simp only [toMag1, flog10, h0, lit_def]
    rw [flog_fin_of_pos (by norm_num)]
    push_cast
    rw [h2, h3]
    rfl
  obtain ⟨v, hdat⟩ : ∃ v, dat y z = fin v := by
    unfold dat
    cases h : y z with
    | fin v => exact ⟨v, rfl⟩
    | pinf => exact ⟨0, rfl⟩
    | ninf => exact ⟨0, rfl⟩
    | nan => exact ⟨0, rfl⟩
  rw [List.getElem?_eq_getElem (by rw [tab_length]; exact hzn)]
  simp only [tab, List.getElem_map, List.getElem_range, hw, hv, hdat]
  show some (infSign (-0)) = some nan
  simp [infSign]

theorem getD_lt {β : Type} {l : List β} {z : Nat} {d : β} (h : z < l.length) : l.getD z d = l[z] := by
  simp [List.getD, h]

/-- A fit object in bootstrap mode with the sample `T`. -/
def resample (s : P1 XR) (T : List Nat) : P1 XR := { s with base := { s.base with doBootstrap := true, bootIdx := some T } }

theorem resample_model {s : P1 XR} {zp : ℝ} {sets : List FnSet} {n : Nat} {X : Nat → ℝ} {q : Option (Nat × (Nat → ℝ))} (T : List Nat) (hz : s.zp = fin zp)
    (hf : s.fns = modelFns sets) (hok : SetsOK sets) (hq : PsfSeen s n X q) :
    ∃ (N : Nat) (V : Nat → ℝ), modelVec1 (resample s T) ((modelPars sets).map fin) = .ok (tab N fun j => asData s.mags zp (V j)) ∧ s.off + n ≤ N ∧
      ∀ z, z < n → V (s.off + z) = seenAt n X (intensity zp sets) z q := by
  have hq' : PsfSeen (resample s T) n X q := by
    match q, hq with
    | none, hq => exact hq
    | some (p, P), hq => exact hq
  exact modelVec1_at (s := resample s T) hz hf hok hq'

/-- Bootstrap resampling when no point is masked and all have values. -/
theorem C103_bootstrap_partial (i : ProfIn) (X : Nat → ℝ) (y : Nat → XR) (σ : Nat → ℝ) (bad : Nat → Bool) (q : Option (Nat × (Nat → ℝ))) (h : ProfOK i X y σ bad)
    (hσ : ∀ z, z < i.n → 0 < σ z) (hq : PsfOK i q) (h2 : q.isSome → 2 ≤ i.n) (sets : List FnSet) (hok : SetsOK sets) (hf : i.fns = modelFns sets) (zp : ℝ)
    (hz : i.zp = fin zp) (T : List Nat) (hT : ∀ b ∈ T, b < i.n) (hl : T.length = i.n) :
    ∃ s l, setupProfile i = .ok s ∧ deviates1 s ((modelPars sets).map fin) = .ok l ∧
      deviates1 (resample s T) ((modelPars sets).map fin) = .ok (T.map fun b => l.getD b nan) := by
  obtain ⟨s, h1, hb, h3, h4, h5, hs⟩ := setupProfile_eq h hσ hq h2
  have hd := deviates1_at hb (h4.trans hz) (h3.trans hf) hok hs
  obtain ⟨N, V, g1, g2, g3⟩ := resample_model T (h4.trans hz) (h3.trans hf) hok hs
  refine ⟨s, _, h1, hd, ?_⟩
  unfold deviates1 createModel1 withModel
  rw [g1, ok_bind]
  simp only [pure_eq_ok, ok_bind]
  have hn : (resample s T).base.nDataVals = i.n := hb.nData
  have ho : (resample s T).off = s.off := rfl
  have hbt : (resample s T).base.doBootstrap = true := rfl
  have hbi : (resample s T).base.bootIdx = some T := rfl
  have hw : (resample s T).base.weightVec = some (tab i.n fun z => fin (wt σ y bad z)) := hb.weight
  have hdd : (resample s T).base.dataVec = some (tab i.n (dat y)) := hb.data
  simp only [hn, ho, hbt, hbi, if_true, hw, hdd]
  rw [loopMap_ok i.n _ fun z => fin (wt σ y bad (T.getD z 0)) * (dat y (T.getD z 0) - asData s.mags zp (seenAt i.n X (intensity zp sets) (T.getD z 0) q))]
  · congr 1
    apply List.ext_getElem
    · simp [hl]
    · intro j h1 h2
      simp only [List.length_map, List.length_range] at h1
      have hj : T[j] < i.n := hT _ (List.getElem_mem ..)
      simp only [List.getElem_map, List.getElem_range]
      have e0 : T.getD j 0 = T[j] := getD_lt (by omega)
      rw [e0, getD_lt (by rw [tab_length]; exact hj)]
      simp only [tab, List.getElem_map, List.getElem_range]
  · intro z hz
    have hzT : z < T.length := by omega
    have hb' : T[z] < i.n := hT _ (List.getElem_mem ..)
    have hr : rdp (some T) z = .ok (T.getD z 0) := by
      rw [getD_lt hzT]
      exact rd_ok hzT
    rw [getD_lt hzT] at hr ⊢
    rw [hr, ok_bind, rdp_tab _ hb', ok_bind, rdp_tab _ hb', ok_bind, rdp_tab _ (by omega), ok_bind, g3 _ hb']

/-- With masked points the sample, which has as many points as are valid, is read beyond its end. -/
theorem C103_bootstrap_false (i : ProfIn) (X : Nat → ℝ) (y : Nat → XR) (σ : Nat → ℝ) (bad : Nat → Bool) (q : Option (Nat × (Nat → ℝ))) (h : ProfOK i X y σ bad)
    (hσ : ∀ z, z < i.n → 0 < σ z) (hq : PsfOK i q) (h2 : q.isSome → 2 ≤ i.n) (sets : List FnSet) (hok : SetsOK sets) (hf : i.fns = modelFns sets) (zp : ℝ)
    (hz : i.zp = fin zp) (hbad : ∃ z, z < i.n ∧ counts y bad z = false) (T : List Nat) (hT : ∀ b ∈ T, b < i.n)
    (hl : T.length = ((List.range i.n).filter (counts y bad)).length) :
    ∃ s, setupProfile i = .ok s ∧ s.base.nValid = some (T.length : Int) ∧ deviates1 (resample s T) ((modelPars sets).map fin) = .error .oob := by
  obtain ⟨s, h1, hb, h3, h4, h5, hs⟩ := setupProfile_eq h hσ hq h2
  obtain ⟨N, V, g1, g2, g3⟩ := resample_model T (h4.trans hz) (h3.trans hf) hok hs
  have hlt : T.length < i.n := by
    obtain ⟨z, hz1, hz2⟩ := hbad
    rw [hl, ← List.countP_eq_length_filter]
    have h1 := List.countP_le_length (p := counts y bad) (l := List.range i.n)
    rw [List.length_range] at h1
    rcases Nat.lt_or_ge ((List.range i.n).countP (counts y bad)) i.n with h' | h'
    · exact h'
    · have he : (List.range i.n).countP (counts y bad) = (List.range i.n).length := by rw [List.length_range]; omega
      rw [List.countP_eq_length] at he
      have := he z (List.mem_range.2 hz1)
      rw [hz2] at this
      cases this
  refine ⟨s, h1, ?_, ?_⟩
  · rw [hb.valid, goodPt_eq, hl]
    simp only [cnt, List.countP_eq_length_filter]
  unfold deviates1 createModel1 withModel
  rw [g1, ok_bind]
  simp only [pure_eq_ok, ok_bind]
  have hn : (resample s T).base.nDataVals = i.n := hb.nData
  have ho : (resample s T).off = s.off := rfl
  have hbt : (resample s T).base.doBootstrap = true := rfl
  have hbi : (resample s T).base.bootIdx = some T := rfl
  have hw : (resample s T).base.weightVec = some (tab i.n fun z => fin (wt σ y bad z)) := hb.weight
  have hdd : (resample s T).base.dataVec = some (tab i.n (dat y)) := hb.data
  simp only [hn, ho, hbt, hbi, if_true, hw, hdd]
  refine loopMap_errAt (k := T.length) (g := fun z => fin (wt σ y bad (T.getD z 0)) *
    (dat y (T.getD z 0) - asData s.mags zp (seenAt i.n X (intensity zp sets) (T.getD z 0) q))) ?_ ?_ i.n hlt
  · intro z hzT
    have hb' : T[z] < i.n := hT _ (List.getElem_mem ..)
    have hr : rdp (some T) z = .ok (T.getD z 0) := by
      rw [getD_lt hzT]
      exact rd_ok hzT
    rw [getD_lt hzT] at hr ⊢
    rw [hr, ok_bind, rdp_tab _ hb', ok_bind, rdp_tab _ hb', ok_bind, rdp_tab _ (by omega), ok_bind, g3 _ hb']
  · have hr : rdp (some T) T.length = .error .oob := by
      unfold rdp
      exact rd_oob le_rfl
    rw [hr]
    rfl

/-- When nothing is wrong the status that `FinalSetupForFitting` returns has never been set. -/
theorem C103_status_false (s : P1 XR) (n : Nat) (y : Nat → XR) (σ : Nat → ℝ) (bad : Nat → Bool) (hn : s.base.nDataVals = n) (hd : s.base.dataVec = some (tab n y))
    (hm : s.base.maskVec = some (tab n fun z => if bad z then 0 else 1)) (he : s.base.maskExists = true) (hde : s.base.dataErrors = false)
    (hw : s.base.weightVec = some (tab n fun z => fin (1 / σ z))) (hws : s.base.weightValsSet = true) (hds : s.base.dataValsSet = true)
    (hnv : s.base.nValid = some ((cnt n fun z => !(bad z) : Nat) : Int)) (hσ : ∀ z, z < n → 0 < σ z) : ∃ t, finalSetup1 s = .ok (t, none) := by
  have hB : finalDefaultMask s.base = s.base := by
    unfold finalDefaultMask
    rw [he]
    rfl
  exact ⟨_, finalSetup1_eq hB hn hd hm he hde hw hws hds hnv hσ⟩

/-- Three points, the second masked, the values 5, 100 and 1; the model is a `LinearGaussian-1D` of intensity 3 and width 1 at 0, errors 2, 1, 1. -/
noncomputable def c103In : ProfIn :=
  ⟨modelFns [⟨0, [(.linearGaussian, [3, 1])]⟩], fin 0, false, 3, [fin 0, fin 1, fin 2], [fin 5, fin 100, nan], some [fin 2, fin 1, fin 1],
    some ([fin 0, fin 1, fin 0], MASK_ZERO_IS_GOOD), none⟩

theorem c103_ok : SetsOK [⟨0, [(.linearGaussian, [3, 1])]⟩] := by
  intro s hs
  simp only [List.mem_cons, List.not_mem_nil, or_false] at hs
  subst hs
  refine ⟨by simp, ?_⟩
  intro f hf
  simp only [List.mem_cons, List.not_mem_nil, or_false] at hf
  subst hf
  norm_num [Fun1.Physical]

theorem c103_profOK : ProfOK c103In (fun z => z) (fun z => [fin 5, fin 100, nan].getD z nan) (fun z => [2, 1, 1].getD z 1) fun z => flt 0 ([fin 0, fin 1, fin 0].getD z nan) :=
  ⟨by simp [tab, List.range_succ, c103In], by simp [tab, List.range_succ, c103In], .inr (by simp [tab, List.range_succ, c103In]),
    .inr (.inl ⟨fun z => [fin 0, fin 1, fin 0].getD z nan, by simp [tab, List.range_succ, c103In], fun _ => rfl⟩)⟩

theorem c103_pos (z : Nat) : 0 < ([2, 1, 1] : List ℝ).getD z 1 := by
  match z with
  | 0 => norm_num
  | 1 => norm_num
  | 2 => norm_num
  | _ + 3 => simp

/-- One valid point; the deviates are (5 - 3) / 2 = 1, 0 and 0. -/
example : ∃ s, setupProfile c103In = .ok s ∧ s.base.nValid = some 1 ∧ deviates1 s [fin 0, fin 3, fin 1] = .ok [fin 1, fin 0, fin 0] := by
  have hy : ∀ z, counts (fun z => [fin 5, fin 100, nan].getD z nan) (fun z => flt 0 ([fin 0, fin 1, fin 0].getD z nan)) z = decide (z = 0) := by
    intro z
    match z with
    | 0 => simp [counts, flt_fin]
    | 1 => simp [counts, flt_fin]
    | 2 => simp [counts]
    | _ + 3 => simp [counts]
  obtain ⟨s, h1, h2, h3⟩ := C103_deviates_partial c103In (fun z => z) _ _ _ none c103_profOK (fun z _ => c103_pos z) (.none rfl) (fun h => by cases h)
    [⟨0, [(.linearGaussian, [3, 1])]⟩] c103_ok rfl 0 rfl (fun _ => 5) (by
      intro z hz
      rw [hy] at hz
      have : z = 0 := of_decide_eq_true hz
      subst this
      rfl) fun z => intensity 0 [⟨0, [(.linearGaussian, [3, 1])]⟩] z
  have hn : c103In.n = 3 := rfl
  refine ⟨s, h1, ?_, ?_⟩
  · rw [h2, hn]
    have e : counts (fun z => [fin 5, fin 100, nan].getD z nan) (fun z => flt 0 ([fin 0, fin 1, fin 0].getD z nan)) = fun z => decide (z = 0) := funext hy
    rw [e]
    rfl
  · obtain ⟨t, g1, hb, g3, g4, g5, gs⟩ := setupProfile_eq c103_profOK (fun z _ => c103_pos z) (.none rfl) fun h => by cases h
    rw [h1] at g1
    cases g1
    have := h3 (by
      rw [getModel1_at hb.nData g4 g3 c103_ok gs, g5]
      rfl)
    refine Eq.trans this ?_
    rw [hn]
    simp only [tab, List.range_succ, List.range_zero, deviation, hy, List.nil_append, List.cons_append, List.map_cons, List.map_nil]
    norm_num [intensity, terms, Fun1.ref, bell]

end Imfit
