import Verif.Lemmas.Convolve1
import Verif.Lemmas.Funcs1d
import Verif.Lemmas.Fit

/-!
# The model and the set-up of profile fits
-/

namespace Imfit

open Spec XR

/-! ## Functions and parameters -/

/-- A function set: its centre and its functions with their parameters. -/
structure FnSet where
  x0 : ℝ
  fns : List (Fun1 × List ℝ)

/-- The functions of a set with their start flags: the first one starts the set. -/
def FnSet.flags (s : FnSet) : List (Fun1 × Bool) :=
  match s.fns with
  | [] => []
  | f :: t => (f.1, true) :: t.map fun g => (g.1, false)

/-- The parameters of a set. -/
def FnSet.pars (s : FnSet) : List ℝ := s.x0 :: (s.fns.map fun f => f.2).flatten

/-- The function list of a model. -/
def modelFns (sets : List FnSet) : List (Fun1 × Bool) := (sets.map FnSet.flags).flatten

/-- The parameter vector of a model. -/
def modelPars (sets : List FnSet) : List ℝ := (sets.map FnSet.pars).flatten

/-- Every set has a function and all functions have parameters in the physical range. -/
def SetsOK (sets : List FnSet) : Prop := ∀ s ∈ sets, s.fns ≠ [] ∧ ∀ f ∈ s.fns, f.1.Physical f.2

/-- The single intensities at `x`. -/
noncomputable def terms (zp : ℝ) (sets : List FnSet) (x : ℝ) : List ℝ := (sets.map fun s => s.fns.map fun f => f.1.ref zp f.2 s.x0 x).flatten

/-- The intensity of a model at `x`. -/
noncomputable def intensity (zp : ℝ) (sets : List FnSet) (x : ℝ) : ℝ := (terms zp sets x).sum

theorem setupFns1_tail (zp : ℝ) (x0 : ℝ) (rest : List (Fun1 × Bool)) (gr : List (XR → XR)) (L post : List XR) :
    ∀ (fs : List (Fun1 × List ℝ)) (pre : List XR), (∀ f ∈ fs, f.1.Physical f.2) → L = pre ++ ((fs.map fun f => f.2).flatten).map fin ++ post →
      setupFns1 (fin zp) L rest (pre.length + ((fs.map fun f => f.2).flatten).length) (some (fin x0)) = .ok gr →
      ∃ gs : List (XR → XR), setupFns1 (fin zp) L (fs.map (fun g => (g.1, false)) ++ rest) pre.length (some (fin x0)) = .ok (gs ++ gr) ∧
        ∀ x : ℝ, gs.map (fun g => g (fin x)) = (fs.map fun f => f.1.ref zp f.2 x0 x).map fin := by
  intro fs
  induction fs with
  | nil =>
    intro pre _ _ hr
    refine ⟨[], ?_, fun x => rfl⟩
    simpa using hr
  | cons f t ih =>
    intro pre hp hL hr
    have hf := hp f (List.mem_cons_self ..)
    obtain ⟨g, hg, hv⟩ := setup1_fin f.1 zp f.2 hf pre (((t.map fun f => f.2).flatten).map fin ++ post) x0
    have hL' : L = pre ++ f.2.map fin ++ (((t.map fun f => f.2).flatten).map fin ++ post) := by
      rw [hL]; simp
    obtain ⟨gs, h1, h2⟩ := ih (pre ++ f.2.map fin) (fun f hf => hp f (List.mem_cons_of_mem _ hf)) (by rw [hL]; simp) (by
      rw [← hr]
      congr 1
      simp
      omega)
    rw [← hL'] at hg
    refine ⟨g :: gs, ?_, fun x => ?_⟩
    · simp only [List.map_cons, List.cons_append, setupFns1]
      rw [hg, ok_bind]
      have e : (pre ++ f.2.map fin).length = pre.length + f.1.nPars := by
        rw [List.length_append, List.length_map, hf.length]
      rw [e] at h1
      rw [h1]
      rfl
    · simp only [List.map_cons, hv, h2]

theorem setupFns1_eq (zp : ℝ) (L post : List XR) : ∀ (sets : List FnSet) (pre : List XR) (o : Option XR), SetsOK sets →
    L = pre ++ (modelPars sets).map fin ++ post →
    ∃ gs : List (XR → XR), setupFns1 (fin zp) L (modelFns sets) pre.length o = .ok gs ∧ ∀ x : ℝ, gs.map (fun g => g (fin x)) = (terms zp sets x).map fin := by
  intro sets
  induction sets with
  | nil => exact fun pre o _ _ => ⟨[], rfl, fun x => rfl⟩
  | cons s t ih =>
    intro pre o hok hL
    obtain ⟨hne, hph⟩ := hok s (List.mem_cons_self ..)
    obtain ⟨x0, fns⟩ := s
    cases fns with
    | nil => exact absurd rfl hne
    | cons f fs =>
      have hf := hph f (List.mem_cons_self ..)
      have hL1 : L = pre ++ (fin x0 :: (f.2.map fin ++ (((fs.map fun f => f.2).flatten).map fin ++ ((modelPars t).map fin ++ post)))) := by
        rw [hL]; simp [modelPars, FnSet.pars]
      have hL2 : L = (pre ++ [fin x0]) ++ f.2.map fin ++ (((fs.map fun f => f.2).flatten).map fin ++ ((modelPars t).map fin ++ post)) := by rw [hL1]; simp
      have hL3 : L = (pre ++ [fin x0] ++ f.2.map fin) ++ ((fs.map fun f => f.2).flatten).map fin ++ ((modelPars t).map fin ++ post) := by rw [hL1]; simp
      have hL4 : L = (pre ++ [fin x0] ++ f.2.map fin ++ ((fs.map fun f => f.2).flatten).map fin) ++ (modelPars t).map fin ++ post := by rw [hL1]; simp
      obtain ⟨gr, h1, h2⟩ := ih _ (some (fin x0)) (fun s hs => hok s (List.mem_cons_of_mem _ hs)) hL4
      obtain ⟨gs, h3, h4⟩ := setupFns1_tail zp x0 (modelFns t) gr L _ fs (pre ++ [fin x0] ++ f.2.map fin) (fun f hf => hph f (List.mem_cons_of_mem _ hf)) hL3 (by
        rw [← h1]
        congr 1
        simp only [List.length_append, List.length_map])
      obtain ⟨g, h5, h6⟩ := setup1_fin f.1 zp f.2 hf (pre ++ [fin x0]) (((fs.map fun f => f.2).flatten).map fin ++ ((modelPars t).map fin ++ post)) x0
      rw [← hL2] at h5
      refine ⟨g :: (gs ++ gr), ?_, fun x => ?_⟩
      · have e0 : rd L pre.length = .ok (fin x0) := by
          rw [hL1, rd_eq_ok_iff]; simp
        have e1 : (pre ++ [fin x0]).length = pre.length + 1 := by simp
        have e2 : (pre ++ [fin x0] ++ f.2.map fin).length = pre.length + 1 + f.1.nPars := by
          rw [List.length_append, List.length_map, hf.length, e1]
        rw [e1] at h5
        rw [e2] at h3
        have e3 : modelFns (⟨x0, f :: fs⟩ :: t) = (f.1, true) :: (fs.map (fun g => (g.1, false)) ++ modelFns t) := by
          simp [modelFns, FnSet.flags]
        rw [e3]
        simp only [setupFns1]
        rw [e0, ok_bind, h5, ok_bind, h3]
        rfl
      · simp only [List.map_cons, List.map_append, h6, h4, h2, terms, List.flatten_cons, List.cons_append]

theorem sumAt1_fin {gs : List (XR → XR)} {v : ℝ → List ℝ} (h : ∀ x : ℝ, gs.map (fun g => g (fin x)) = (v x).map fin) (x : ℝ) :
    sumAt1 gs (fin x) = fin (v x).sum := by
  have key : ∀ (gs : List (XR → XR)) (w : List ℝ) (a : ℝ), gs.map (fun g => g (fin x)) = w.map fin →
      gs.foldl (fun a g => a + g (fin x)) (fin a) = fin (a + w.sum) := by
    intro gs
    induction gs with
    | nil =>
      intro w a h
      cases w with
      | nil => simp
      | cons => cases h
    | cons g t ih =>
      intro w a h
      cases w with
      | nil => cases h
      | cons b w =>
        simp only [List.map_cons, List.cons.injEq] at h
        rw [List.foldl_cons, h.1, fin_add, ih w _ h.2, List.sum_cons, add_assoc]
  unfold sumAt1
  rw [zero_def, key gs (v x) 0 (h x), zero_add]

theorem modelPars_length : ∀ {sets : List FnSet}, SetsOK sets → (modelPars sets).length = nParams1 (modelFns sets) := by
  have tl : ∀ fs : List (Fun1 × List ℝ), (∀ f ∈ fs, f.1.Physical f.2) →
      ((fs.map fun f => f.2).flatten).length = nParams1 (fs.map fun g => (g.1, false)) := by
    intro fs
    induction fs with
    | nil => intro _; rfl
    | cons f t ih =>
      intro h
      have := ih fun f hf => h f (List.mem_cons_of_mem _ hf)
      simp only [List.map_cons, List.flatten_cons, List.length_append, (h f (List.mem_cons_self ..)).length, this, nParams1, List.sum_cons]
      simp
  intro sets
  induction sets with
  | nil => intro _; rfl
  | cons s t ih =>
    intro hok
    obtain ⟨hne, hph⟩ := hok s (List.mem_cons_self ..)
    have h1 := ih fun s hs => hok s (List.mem_cons_of_mem _ hs)
    obtain ⟨x0, fns⟩ := s
    cases fns with
    | nil => exact absurd rfl hne
    | cons f fs =>
      have h2 := tl fs fun f hf => hph f (List.mem_cons_of_mem _ hf)
      have h3 := (hph f (List.mem_cons_self ..)).length
      simp only [modelPars, modelFns, nParams1] at h1 h2 ⊢
      simp only [List.map_cons, List.flatten_cons, List.length_append, FnSet.pars, FnSet.flags, List.length_cons, h1, h2, h3, List.map_append, List.sum_append, List.sum_cons]
      simp only [if_true]
      omega

/-- The intensities before convolution and conversion. -/
theorem modelVec1_eq {s : P1 XR} {zp : ℝ} {sets : List FnSet} {N : Nat} {X : Nat → ℝ} (hz : s.zp = fin zp) (hf : s.fns = modelFns sets) (hok : SetsOK sets)
    (hN : s.base.nModelVals = N) (hX : s.modelX = tab N fun i => fin (X i)) :
    modelVec1 s ((modelPars sets).map fin) = (do
      let v ← if s.base.doConvolution then s.conv (tab N fun i => fin (intensity zp sets (X i))) else pure (tab N fun i => fin (intensity zp sets (X i)))
      pure (if s.mags then v.map (toMag1 (fin zp)) else v)) := by
  obtain ⟨gs, h1, h2⟩ := setupFns1_eq zp ((modelPars sets).map fin) [] sets [] none hok (by simp)
  have hl := modelPars_length hok
  unfold modelVec1
  rw [hf, hz, if_neg (by rw [List.length_map, hl]; omega), if_neg (by
    rw [List.take_of_length_le (by rw [List.length_map, hl])]
    simp [checkParams])]
  rw [List.length_nil] at h1
  rw [h1, ok_bind, hN, loopMap_ok N _ fun i => fin (intensity zp sets (X i))]
  · rfl
  · intro i hi
    rw [hX, rd_tab _ hi, ok_bind, sumAt1_fin h2]
    rfl

/-! ## Set-up -/

/-- The input of a run: positions, values, errors (all positive) and a mask. -/
structure ProfOK (i : ProfIn) (X : Nat → ℝ) (y : Nat → XR) (σ : Nat → ℝ) (bad : Nat → Bool) : Prop where
  xs : i.xs = tab i.n fun z => fin (X z)
  ys : i.ys = tab i.n y
  errs : (i.errs = none ∧ ∀ z, σ z = 1) ∨ i.errs = some (tab i.n fun z => fin (σ z))
  mask : (i.mask = none ∧ ∀ z, bad z = false) ∨ (∃ m : Nat → XR, i.mask = some (tab i.n m, MASK_ZERO_IS_GOOD) ∧ ∀ z, bad z = flt 0 (m z)) ∨
    ∃ m : Nat → XR, i.mask = some (tab i.n m, MASK_ZERO_IS_BAD) ∧ ∀ z, bad z = flt (m z) 1

/-- The members of the state that do not depend on the PSF. -/
structure BaseOK (b : MO XR) (n : Nat) (W D : Nat → XR) (nv : Int) : Prop where
  nData : b.nDataVals = n
  weight : b.weightVec = some (tab n W)
  data : b.dataVec = some (tab n D)
  valid : b.nValid = some nv
  cols : b.nDataCols = 0
  boot : b.doBootstrap = false
  idx : b.bootIdx = none
  merr : b.modelErrors = false

/-- The PSF: none, or given by numbers with a sum that is not 0. -/
inductive PsfOK (i : ProfIn) : Option (Nat × (Nat → ℝ)) → Prop
  | none : i.psf = none → PsfOK i none
  | some (p : Nat) (P : Nat → ℝ) : i.psf = some (tab p fun k => fin (P k)) → 0 < p → ∑ k ∈ Finset.range p, P k ≠ 0 → PsfOK i (some (p, P))

theorem checkWeights_noMask {b : MO XR} {n : Nat} {W : Nat → XR} (hn : b.nDataVals = n) (hm : b.maskExists = false) (hw : b.weightVec = some (tab n W)) :
    checkWeights b = .ok ((List.range n).all fun z => isfin (W z)) := by
  unfold checkWeights
  rw [hn, forN_ok n true _ (fun k => (List.range k).all fun z => isfin (W z)) (by simp)]
  intro z hz
  rw [hm, hw, rdp_tab W hz, all_range_succ]
  simp only [Bool.false_eq_true, if_false, ok_bind, pure_eq_ok]
  cases isfin (W z) <;> simp

theorem all_range_true {n : Nat} {p : Nat → Bool} (h : ∀ z, z < n → p z = true) : (List.range n).all p = true := by
  rw [List.all_eq_true]
  exact fun z hz => h z (List.mem_range.1 hz)

/-- Errors as weights. -/
theorem addError1_eq {s : P1 XR} {n : Nat} {e : List XR} {σ : Nat → ℝ} (hn : s.base.nDataVals = n) (hm : s.base.maskExists = false)
    (he : e = tab n fun z => fin (σ z)) (hσ : ∀ z, z < n → σ z ≠ 0) :
    addError1 s n e WEIGHTS_ARE_SIGMAS = .ok { s with base := { s.base with weightVec := some (tab n fun z => fin (1 / σ z)), weightValsSet := true } } := by
  unfold addError1
  rw [if_neg (by rw [hn]; simp), hn, loopMap_ok n _ fun z => fin (1 / σ z)]
  · simp only [ok_bind]
    have hc := checkWeights_noMask (b := { s.base with weightVec := some ((List.range n).map fun z => fin (1 / σ z)) }) (n := n) (W := fun z => fin (1 / σ z)) hn hm rfl
    have ht : ((List.range n).all fun z => isfin (fin (1 / σ z))) = true := all_range_true fun z _ => rfl
    rw [ht] at hc
    simp only at hc
    rw [hc]
    rfl
  · intro z hz
    rw [he, rd_tab _ hz, ok_bind]
    simp only [errWeight1, if_true, one_def, fin_div_of_ne (hσ z hz)]
    rfl

/-- The mask as zeros and ones. -/
theorem setupMask1_eq {i : ProfIn} {X : Nat → ℝ} {y : Nat → XR} {σ : Nat → ℝ} {bad : Nat → Bool} (h : ProfOK i X y σ bad) {s : P1 XR} (hn : s.base.nDataVals = i.n)
    (hm : s.base.maskExists = false) (hv : s.base.nValid = some (i.n : Int)) :
    ∃ b', setupMask1 i s = .ok { s with base := b' } ∧
      (finalDefaultMask b' = { s.base with maskVec := some (tab i.n fun z => if bad z then 0 else 1), nValid := some ((cnt i.n fun z => !(bad z) : Nat) : Int), maskExists := true }) ∧
      b'.nDataVals = i.n := by
  unfold setupMask1
  rcases h.mask with ⟨h1, h2⟩ | ⟨m, h1, h2⟩ | ⟨m, h1, h2⟩
  · rw [h1]
    refine ⟨s.base, rfl, ?_, hn⟩
    unfold finalDefaultMask
    rw [hm]
    simp only [Bool.false_eq_true, if_false, hn, h2, Bool.not_false, hv, replicate_eq_tab]
    have e : cnt i.n (fun _ => true) = i.n := by simp [cnt]
    rw [e, ← hv]
  · rw [h1]
    simp only [addMask1]
    rw [if_neg (by rw [hn]; simp), hn, if_pos trivial, maskLoop_tab]
    simp only [ok_bind, pure_eq_ok]
    rw [if_neg (by decide)]
    refine ⟨_, rfl, ?_, rfl⟩
    unfold finalDefaultMask
    simp only [if_true, h2, hn]
  · rw [h1]
    simp only [addMask1]
    rw [if_neg (by rw [hn]; simp), hn, if_neg (by decide), if_pos trivial, maskLoop_tab]
    simp only [ok_bind, pure_eq_ok]
    rw [if_neg (by decide)]
    refine ⟨_, rfl, ?_, rfl⟩
    unfold finalDefaultMask
    simp only [if_true, h2, hn]

/-- The points that count: not masked, finite. -/
noncomputable def goodPt (y : Nat → XR) (bad : Nat → Bool) (z : Nat) : Bool := !(bad z) && isfin (y z)

theorem cnt_good (n : Nat) (y : Nat → XR) (bad : Nat → Bool) :
    ((cnt n fun z => !(bad z) : Nat) : Int) - ((cnt n fun z => flt (0 : XR) (if bad z then 0 else 1) && !(isfin (y z)) : Nat) : Int) = ((cnt n (goodPt y bad) : Nat) : Int) := by
  have e : ∀ b : Bool, flt (0 : XR) (if b then 0 else 1) = !b := by
    intro b
    cases b <;> simp [flt_fin]
  simp only [e]
  induction n with
  | zero => rfl
  | succ n ih =>
    rw [cnt_succ, cnt_succ, cnt_succ]
    unfold goodPt at ih ⊢
    cases bad n <;> cases isfin (y n) <;> simp <;> omega

/-- Weights after the set-up. -/
noncomputable def wt (σ : Nat → ℝ) (y : Nat → XR) (bad : Nat → Bool) (z : Nat) : ℝ := if goodPt y bad z then 1 / σ z else 0

/-- Data after the set-up. -/
noncomputable def dat (y : Nat → XR) (z : Nat) : XR := if isfin (y z) then y z else 0

theorem finalDefaultMask_with (b : MO XR) (a : Nat) (v : Option (List XR)) (c : Bool) :
    finalDefaultMask { b with nModelVals := a, modelVec := v, doConvolution := c } = { finalDefaultMask b with nModelVals := a, modelVec := v, doConvolution := c } := by
  unfold finalDefaultMask
  cases h : b.maskExists <;> simp [h]

/-- `FinalSetupForFitting` with positive errors. -/
theorem finalSetup1_eq {s : P1 XR} {n : Nat} {y : Nat → XR} {σ : Nat → ℝ} {bad : Nat → Bool} {B : MO XR} (hB : finalDefaultMask s.base = B) (hn : B.nDataVals = n)
    (hd : B.dataVec = some (tab n y)) (hm : B.maskVec = some (tab n fun z => if bad z then 0 else 1)) (he : B.maskExists = true) (hde : B.dataErrors = false)
    (hw : B.weightVec = some (tab n fun z => fin (1 / σ z))) (hws : B.weightValsSet = true) (hds : B.dataValsSet = true)
    (hnv : B.nValid = some ((cnt n fun z => !(bad z) : Nat) : Int)) (hσ : ∀ z, z < n → 0 < σ z) :
    finalSetup1 s = .ok ({ s with base := { B with
      maskVec := some (tab n fun z => if goodPt y bad z then 1 else 0)
      weightVec := some (tab n fun z => fin (wt σ y bad z))
      dataVec := some (tab n (dat y))
      nValid := some ((cnt n (goodPt y bad) : Nat) : Int) } }, none) := by
  have em : (tab n fun z => if (flt (0 : XR) (if bad z then 0 else 1) && !(isfin (y z))) = true then (0 : XR) else if bad z then 0 else 1) =
      tab n fun z => if goodPt y bad z then 1 else 0 := by
    refine tab_congr fun z _ => ?_
    unfold goodPt
    cases bad z <;> cases isfin (y z) <;> simp [flt_fin]
  have hgood : ∀ z, flt (0 : XR) (if goodPt y bad z then 1 else 0) = goodPt y bad z := by
    intro z
    cases goodPt y bad z <;> simp [flt_fin]
  have s1 := finalMaskBadData_eq (n := n) (d := y) B _ hn hd hm
  rw [em, hnv] at s1
  simp only [subValid, Option.map_some, cnt_good] at s1
  obtain ⟨B2, hB2⟩ : ∃ B2, B2 = ({ B with
      nValid := some ((cnt n (goodPt y bad) : Nat) : Int), maskVec := some (tab n fun z => if goodPt y bad z then 1 else 0) } : MO XR) := ⟨_, rfl⟩
  rw [← hB2] at s1
  have f1 : B2.dataErrors = false := by rw [hB2]; exact hde
  have f2 : B2.weightValsSet = true := by rw [hB2]; exact hws
  have f3 : B2.nDataVals = n := by rw [hB2]; exact hn
  have f4 : B2.maskExists = true := by rw [hB2]; exact he
  have f5 : B2.maskVec = some (tab n fun z => if goodPt y bad z then 1 else 0) := by rw [hB2]
  have f6 : B2.weightVec = some (tab n fun z => fin (1 / σ z)) := by rw [hB2]; exact hw
  have f7 : B2.dataVec = some (tab n y) := by rw [hB2]; exact hd
  have f8 : B2.dataValsSet = true := by rw [hB2]; exact hds
  have s2 : finalGenErrors B2 = .ok B2 := by
    unfold finalGenErrors
    rw [f1, Bool.and_false, Bool.false_and]
    rfl
  have s3 : defaultWeights1 B2 = B2 := by
    unfold defaultWeights1
    rw [f2, if_pos rfl]
  have s4 := checkWeights_eq (n := n) B2 (fun z => if goodPt y bad z then 1 else 0) (fun z => fin (1 / σ z)) f3 f4 f5 f6
  have hcw : ((List.range n).all fun z => !(flt (0 : XR) (if goodPt y bad z then 1 else 0)) || (isfin (fin (1 / σ z)) && !(flt (fin (1 / σ z)) (0 : XR)))) = true := by
    refine all_range_true fun z hz => ?_
    have h1 : ¬ (1 / σ z < 0) := not_lt.2 (one_div_pos.2 (hσ z hz)).le
    rw [zero_def, flt_fin, isfin_fin]
    simp only [h1, decide_false, Bool.not_false, Bool.and_self, Bool.or_true]
  rw [hcw] at s4
  have s5 := applyMask_eq (n := n) B2 (fun z => if goodPt y bad z then 1 else 0) (fun z => fin (1 / σ z)) f3 f4 f5 f6
  have hall : ((List.range n).all fun z => isfin (y z) || !(goodPt y bad z)) = true := by
    refine all_range_true fun z _ => ?_
    unfold goodPt
    cases bad z <;> cases isfin (y z) <;> rfl
  have ew : (tab n fun z => maskedWeight (if goodPt y bad z then (1 : XR) else 0) (fin (1 / σ z))) = tab n fun z => fin (wt σ y bad z) := by
    refine tab_congr fun z _ => ?_
    unfold maskedWeight wt
    cases goodPt y bad z <;> simp
  have ed : (tab n fun z => if (!(isfin (y z)) && !(goodPt y bad z)) = true then (0 : XR) else y z) = tab n (dat y) := by
    refine tab_congr fun z _ => ?_
    unfold dat goodPt
    cases isfin (y z) <;> cases bad z <;> simp
  simp only [f2, if_true, ew] at s5
  rw [← f2] at s5
  obtain ⟨B3, hB3⟩ : ∃ B3, B3 = ({ B2 with weightVec := some (tab n fun z => fin (wt σ y bad z)) } : MO XR) := ⟨_, rfl⟩
  rw [← hB3] at s5
  have s6 := vetData_eq (n := n) (d := y) B3 (fun z => if goodPt y bad z then 1 else 0) (by rw [hB3]; exact f3) (by rw [hB3]; exact f5) (by rw [hB3]; exact f7)
  simp only [hgood] at s6
  rw [ed, hall] at s6
  have f9 : B3.dataValsSet = true := by rw [hB3]; exact f8
  unfold finalSetup1
  simp only [hB]
  rw [s1, ok_bind, s2, ok_bind, s3, s4, ok_bind]
  simp only [if_true]
  rw [s5, ok_bind]
  simp only [f9, if_true]
  rw [s6, ok_bind]
  simp only [if_true, pure_eq_ok]
  rw [hB3, hB2]

/-- The positions of the enlarged model. -/
noncomputable def wideX (n p : Nat) (X : Nat → ℝ) (j : Nat) : ℝ :=
  if j < p then X 0 - p * (X 1 - X 0) + (X 1 - X 0) * j else if j < p + n then X (j - p) else X (n - 1) + (X 1 - X 0) * ((j - p - n : Nat) + 1)

theorem modelX1_eq {n p : Nat} {X : Nat → ℝ} (hn : 2 ≤ n) : modelX1 n p (tab n fun z => fin (X z)) = .ok (tab (n + 2 * p) fun j => fin (wideX n p X j)) := by
  unfold modelX1
  rw [rd_tab _ (by omega : 1 < n), rd_tab _ (by omega : 0 < n), loopMap_ok n _ fun z => fin (X z)]
  · have hl : rdI (tab n fun z => fin (X z)) ((n : Int) - 1) = .ok (fin (X (n - 1))) := by
      unfold rdI
      rw [if_neg (by omega), show ((n : Int) - 1).toNat = n - 1 by omega, rd_tab _ (by omega : n - 1 < n)]
    simp only [ok_bind, hl, pure_eq_ok]
    congr 1
    apply List.ext_getElem
    · simp [tab_length]; omega
    · intro j h1 h2
      simp only [tab, List.getElem_map, List.getElem_range]
      simp only [List.append_assoc, List.getElem_append]
      simp only [List.length_map, List.length_range, List.getElem_map, List.getElem_range]
      unfold wideX
      split_ifs with a b c d e <;> first
        | (exfalso; omega)
        | rfl
        | (simp only [lit_def, fin_sub, fin_mul, fin_add]; norm_num)
  · intro z hz
    rw [rd_tab _ hz]

/-- What the state knows about the PSF. -/
def PsfSeen (s : P1 XR) (n : Nat) (X : Nat → ℝ) : Option (Nat × (Nat → ℝ)) → Prop
  | none => s.off = 0 ∧ s.base.nModelVals = n ∧ s.modelX = (tab n fun z => fin (X z)) ∧ s.base.doConvolution = false
  | some (p, P) => s.off = p ∧ s.base.nModelVals = n + 2 * p ∧ s.modelX = (tab (n + 2 * p) fun j => fin (wideX n p X j)) ∧ s.base.doConvolution = true ∧
    ∀ I : Nat → ℝ, s.conv (tab (n + 2 * p) fun i => fin (I i)) = .ok (tab (n + 2 * p) fun i =>
      fin (∑ k ∈ Finset.range p, P k / (∑ k ∈ Finset.range p, P k) * zeroBeyond (n + 2 * p) I ((i : ℤ) - ((k : ℤ) - (p / 2 : Nat)))))

/-- The state after the set-up. -/
theorem setupProfile_eq {i : ProfIn} {X : Nat → ℝ} {y : Nat → XR} {σ : Nat → ℝ} {bad : Nat → Bool} {q : Option (Nat × (Nat → ℝ))} (h : ProfOK i X y σ bad)
    (hσ : ∀ z, z < i.n → 0 < σ z) (hq : PsfOK i q) (h2 : q.isSome → 2 ≤ i.n) :
    ∃ s, setupProfile i = .ok s ∧ BaseOK s.base i.n (fun z => fin (wt σ y bad z)) (dat y) ((cnt i.n (goodPt y bad) : Nat) : Int) ∧ s.fns = i.fns ∧ s.zp = i.zp ∧
      s.mags = i.mags ∧ PsfSeen s i.n X q := by
  have he : i.errs.getD (List.replicate i.n 1) = tab i.n fun z => fin (σ z) := by
    rcases h.errs with ⟨h1, h3⟩ | h1
    · rw [h1, Option.getD_none, replicate_eq_tab]
      exact tab_congr fun z _ => by rw [h3 z]; rfl
    · rw [h1, Option.getD_some]
  unfold setupProfile
  simp only [he]
  rw [addError1_eq (n := i.n) (σ := σ) rfl rfl rfl fun z hz => (hσ z hz).ne', ok_bind]
  obtain ⟨b', h3, h4, h5⟩ := setupMask1_eq h (s := { addData1 (p1Init i.fns i.zp) i.n i.xs i.ys i.mags with
    base := { (addData1 (p1Init i.fns i.zp) i.n i.xs i.ys i.mags).base with weightVec := some (tab i.n fun z => fin (1 / σ z)), weightValsSet := true } }) rfl rfl rfl
  rw [h3, ok_bind]
  clear h3
  cases hq with
  | none h6 =>
    unfold setupPsf1
    rw [h6]
    simp only [pure_eq_ok, ok_bind]
    have hy : some i.ys = some (tab i.n y) := by rw [h.ys]
    rw [finalSetup1_eq (n := i.n) (y := y) (σ := σ) (bad := bad) h4 rfl hy rfl rfl rfl rfl rfl rfl rfl hσ]
    refine ⟨_, rfl, ⟨rfl, rfl, rfl, rfl, rfl, rfl, rfl, rfl⟩, rfl, rfl, rfl, rfl, rfl, h.xs, rfl⟩
  | some p P h6 h7 h8 =>
    unfold setupPsf1
    rw [h6]
    simp only [h5, tab_length]
    obtain ⟨f, hf, -⟩ := convolve1_eq (i.n + 2 * p) p P (fun _ => 0) (by omega) h7 h8
    rw [hf, ok_bind]
    unfold addPsf1
    simp only [h5]
    have hx : modelX1 i.n p i.xs = .ok (tab (i.n + 2 * p) fun j => fin (wideX i.n p X j)) := by
      rw [h.xs]; exact modelX1_eq (h2 rfl)
    have hx' : modelX1 i.n p (addData1 (p1Init i.fns i.zp) i.n i.xs i.ys i.mags).dataX = .ok (tab (i.n + 2 * p) fun j => fin (wideX i.n p X j)) := hx
    rw [hx', ok_bind]
    simp only [pure_eq_ok, ok_bind]
    have hy : some i.ys = some (tab i.n y) := by rw [h.ys]
    obtain ⟨B0, hB0⟩ : ∃ B0, finalDefaultMask b' = B0 := ⟨_, rfl⟩
    have e := hB0.symm.trans h4
    have h4' := finalDefaultMask_with b' (i.n + 2 * p) (some (List.replicate (i.n + 2 * p) 0)) true
    rw [hB0] at h4'
    have key : ∀ s : P1 XR, s.base = { b' with nModelVals := i.n + 2 * p, modelVec := some (List.replicate (i.n + 2 * p) 0), doConvolution := true } → _ :=
      fun s hs => finalSetup1_eq (s := s) (n := i.n) (y := y) (σ := σ) (bad := bad)
        (B := { B0 with nModelVals := i.n + 2 * p, modelVec := some (List.replicate (i.n + 2 * p) 0), doConvolution := true }) (by rw [hs]; exact h4')
        (by rw [e]; rfl) (by rw [e]; exact hy) (by rw [e]) (by rw [e]) (by rw [e]; rfl) (by rw [e]) (by rw [e]) (by rw [e]; rfl) (by rw [e]) hσ
    rw [key]
    rotate_left
    · simp only [h5]
    refine ⟨_, rfl, ?_, rfl, rfl, rfl, rfl, rfl, rfl, rfl, ?_⟩
    · rw [e]
      exact ⟨rfl, rfl, rfl, rfl, rfl, rfl, rfl, rfl⟩
    intro I
    obtain ⟨f', hf', hc⟩ := convolve1_eq (i.n + 2 * p) p P I (by omega) h7 h8
    rw [hf] at hf'
    cases hf'
    exact hc

end Imfit
