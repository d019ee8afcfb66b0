import Verif.Model.Fit
import Mathlib.Tactic.Ring

/-!
# Closed form of the fit-setup loops

Every loop of `finalSetup` touches pixel `z` only, so its result is a table of a per-pixel function.
All lemmas hold for every `FP α`.
-/

namespace Imfit

variable {α : Type} [FP α]

@[simp] theorem ok_bind {β γ : Type} (a : β) (f : β → Res γ) : (Except.ok a >>= f) = f a := rfl
@[simp] theorem pure_eq_ok {β : Type} (a : β) : (pure a : Res β) = Except.ok a := rfl
@[simp] theorem error_bind {β γ : Type} (e : Fault) (f : β → Res γ) :
    ((Except.error e : Res β) >>= f) = Except.error e := rfl

/-- Table of a function on `0 .. n-1`. -/
def tab {β : Type} (n : Nat) (g : Nat → β) : List β := (List.range n).map g

theorem tab_length {β : Type} (n : Nat) (g : Nat → β) : (tab n g).length = n := by simp [tab]

theorem rdp_tab {β : Type} {n z : Nat} (g : Nat → β) (h : z < n) :
    rdp (some (tab n g)) z = .ok (g z) := by
  simp [rdp, deref, tab, rd_range_map g h]

theorem tab_congr {β : Type} {n : Nat} {f g : Nat → β} (h : ∀ z, z < n → f z = g z) :
    tab n f = tab n g := by
  unfold tab
  apply List.map_congr_left
  intro z hz; exact h z (List.mem_range.mp hz)

theorem tab_inj {β : Type} {n : Nat} {f g : Nat → β} (h : tab n f = tab n g) :
    ∀ z, z < n → f z = g z := by
  intro z hz
  have := congrArg (fun l => l[z]?) h
  simpa [tab, hz] using this

theorem replicate_eq_tab {β : Type} (n : Nat) (b : β) : List.replicate n b = tab n (fun _ => b) := by
  simp [tab]

/-- number of `z < n` with `p z` -/
def cnt (n : Nat) (p : Nat → Bool) : Nat := (List.range n).countP p

theorem cnt_succ (n : Nat) (p : Nat → Bool) : cnt (n + 1) p = cnt n p + (if p n then 1 else 0) := by
  simp [cnt, List.range_succ, List.countP_append, List.countP_singleton]

theorem cnt_congr {n : Nat} {p q : Nat → Bool} (h : ∀ z, z < n → p z = q z) : cnt n p = cnt n q := by
  unfold cnt
  apply List.countP_congr
  intro z hz
  rw [h z (List.mem_range.mp hz)]

/-- Subtract `k` from a possibly indeterminate count. -/
def subValid (o : Option Int) (k : Nat) : Option Int := o.map (fun n => n - (k : Int))

theorem subValid_zero (o : Option Int) : subValid o 0 = o := by
  cases o <;> simp [subValid]

theorem decValid_subValid (o : Option Int) (k : Nat) :
    decValid (subValid o k) = subValid o (k + 1) := by
  cases o with
  | none => rfl
  | some n => simp [subValid, decValid]; omega

/-- Result of `maskLoop`: table of 0/1 and the number of good pixels. -/
theorem maskLoop_tab (n : Nat) (f : Nat → α) (bad : α → Bool) :
    maskLoop n (tab n f) bad =
      .ok (tab n (fun z => if bad (f z) then 0 else 1), ((cnt n fun z => !(bad (f z)) : Nat) : Int)) := by
  unfold maskLoop
  rw [loopAcc_ok n (0 : Int) _ (fun z => if bad (f z) then (0 : α) else 1)
    (fun z => ((cnt z fun z => !(bad (f z)) : Nat) : Int)) (by simp [cnt])]
  · rfl
  · intro z hz
    have : rd (tab n f) z = .ok (f z) := rd_range_map f hz
    rw [this, cnt_succ]
    cases h : bad (f z) <;> simp [h]

section closed

variable (n : Nat) (s : MO α) (d m w : Nat → α)

/-- mask after the default-mask step -/
def pm0 (z : Nat) : α := if s.maskExists then m z else 1
/-- mask after removing non-finite data -/
def pm1 (z : Nat) : α := if flt 0 (pm0 s m z) && !(isfin (d z)) then 0 else pm0 s m z
/-- are data-based weights generated? -/
def genW : Bool := !s.useCash && s.dataErrors && !s.externalError
/-- weights before masking -/
def pw0 (z : Nat) : α :=
  if genW s then dataWeight s.effGain s.nCombined s.readNoiseAduSq s.sky (d z) else w z
/-- pixel removed because of a bad user-supplied weight? -/
def badW (z : Nat) : Bool := s.externalError && (flt 0 (pm1 s d m z) && !(isfin (pw0 s d w z)))
/-- final mask -/
def pm2 (z : Nat) : α := if badW s d m w z then 0 else pm1 s d m z
/-- weights before `ApplyMask` -/
def pw2 (z : Nat) : α := if badW s d m w z then 0 else pw0 s d w z
/-- final weights -/
def pw3 (z : Nat) : α :=
  if genW s || s.weightValsSet then maskedWeight (pm2 s d m w z) (pw2 s d m w z)
  else pw2 s d m w z
/-- final data -/
def pd (z : Nat) : α := if !(isfin (d z)) && !(flt 0 (pm2 s d m w z)) then 0 else d z
/-- final extra terms -/
def pex (e : Option (List α)) : Option (List α) :=
  if s.useCash && s.poissonMLR then some (tab n fun z => extraCashTerm s.effGain s.sky (d z)) else e
/-- number of pixels removed -/
def nRemoved : Nat :=
  cnt n (fun z => flt 0 (pm0 s m z) && !(isfin (d z))) + cnt n (badW s d m w)
/-- weight check passes -/
def wOK : Bool :=
  (List.range n).all fun z =>
    !(flt 0 (pm2 s d m w z)) || (isfin (pw3 s d m w z) && !(flt (pw3 s d m w z) 0))
/-- data check passes -/
def dOK : Bool :=
  (List.range n).all fun z => isfin (d z) || !(flt 0 (pm2 s d m w z))

/-- What `finalSetup` needs of the state. -/
structure FitReady : Prop where
  hn : s.nDataVals = n
  hd : s.dataVec = some (tab n d)
  hset : s.dataValsSet = true
  hm : s.maskExists = true → s.maskVec = some (tab n m)
  hw : genW s = false → s.weightVec = some (tab n w)
  he : s.useCash = true → ∃ e, s.extraVec = some e

/-- Resulting state of `finalSetup`. -/
def finalState : MO α :=
  { s with
    maskVec := some (tab n (pm2 s d m w))
    maskExists := true
    weightVec := some (tab n (pw3 s d m w))
    weightValsSet := genW s || s.weightValsSet
    weightAllocated := genW s || s.weightAllocated
    dataVec := some (tab n (pd s d m w))
    extraVec := pex n s d s.extraVec
    nValid := subValid s.nValid (nRemoved n s d m w) }

/-- Resulting status of `finalSetup`. -/
def finalStatus : Int :=
  if tooFewValid (subValid s.nValid (nRemoved n s d m w)) then -3
  else if dOK n s d m w then (if wOK n s d m w then 0 else -1) else -2

end closed

theorem all_range_succ (n : Nat) (p : Nat → Bool) :
    (List.range (n + 1)).all p = ((List.range n).all p && p n) := by
  simp [List.range_succ]

variable {n : Nat} {s : MO α} {d m w : Nat → α}

theorem finalDefaultMask_eq (h : FitReady n s d m w) :
    finalDefaultMask s = { s with maskVec := some (tab n (pm0 s m)), maskExists := true } := by
  unfold finalDefaultMask
  cases hme : s.maskExists with
  | true =>
    have : pm0 s m = m := by funext z; simp [pm0, hme]
    rw [this, ← h.hm hme]
    rcases s with ⟨⟩
    simp_all
  | false =>
    have : pm0 s m = fun _ => 1 := by funext z; simp [pm0, hme]
    rw [this, replicate_eq_tab, h.hn]
    simp

theorem finalMaskBadData_eq (t : MO α) (f : Nat → α) (hn : t.nDataVals = n)
    (hd : t.dataVec = some (tab n d)) (hm : t.maskVec = some (tab n f)) :
    finalMaskBadData t = .ok { t with
      maskVec := some (tab n fun z => if flt 0 (f z) && !(isfin (d z)) then 0 else f z)
      nValid := subValid t.nValid (cnt n fun z => flt 0 (f z) && !(isfin (d z))) } := by
  unfold finalMaskBadData
  rw [hn, loopAcc_ok n t.nValid _ (fun z => if flt 0 (f z) && !(isfin (d z)) then 0 else f z)
    (fun z => subValid t.nValid (cnt z fun z => flt 0 (f z) && !(isfin (d z))))
    (by simp [cnt, subValid_zero])]
  · rfl
  · intro z hz
    rw [hm, hd, rdp_tab f hz, rdp_tab d hz, cnt_succ]
    cases hc : flt 0 (f z) && !(isfin (d z)) with
    | true => simp only [ok_bind, hc, if_true, pure_eq_ok, decValid_subValid]
    | false => simp only [ok_bind, hc, Bool.false_eq_true, if_false, pure_eq_ok, Nat.add_zero]

theorem generateErrors_eq (t : MO α) (hn : t.nDataVals = n) (hd : t.dataVec = some (tab n d)) :
    generateErrors t = .ok { t with
      weightVec := some (tab n fun z =>
        dataWeight t.effGain t.nCombined t.readNoiseAduSq t.sky (d z))
      weightAllocated := true, weightValsSet := true } := by
  unfold generateErrors
  rw [hn, loopMap_ok n _ (fun z => dataWeight t.effGain t.nCombined t.readNoiseAduSq t.sky (d z))]
  · rfl
  · intro z hz; rw [hd, rdp_tab d hz]; rfl

theorem generateExtraTerms_eq (t : MO α) (hn : t.nDataVals = n) (hd : t.dataVec = some (tab n d))
    (he : ∃ e, t.extraVec = some e) :
    generateExtraTerms t = .ok { t with
      extraVec := some (tab n fun z => extraCashTerm t.effGain t.sky (d z)) } := by
  obtain ⟨e, he⟩ := he
  unfold generateExtraTerms
  rw [hn, loopMap_ok n _ (fun z => extraCashTerm t.effGain t.sky (d z))]
  · rw [he]; rfl
  · intro z hz; rw [hd, rdp_tab d hz]; rfl

theorem finalMaskBadWeights_eq (t : MO α) (f g : Nat → α) (hn : t.nDataVals = n)
    (hm : t.maskVec = some (tab n f)) (hw : t.weightVec = some (tab n g)) :
    finalMaskBadWeights t = .ok { t with
      maskVec := some (tab n fun z =>
        if t.externalError && (flt 0 (f z) && !(isfin (g z))) then 0 else f z)
      weightVec := some (tab n fun z =>
        if t.externalError && (flt 0 (f z) && !(isfin (g z))) then 0 else g z)
      nValid := subValid t.nValid
        (cnt n fun z => t.externalError && (flt 0 (f z) && !(isfin (g z)))) } := by
  unfold finalMaskBadWeights
  cases hx : t.externalError with
  | false =>
    simp only [Bool.false_and, Bool.false_eq_true, if_false, pure_eq_ok]
    have : cnt n (fun _ => false) = 0 := by simp [cnt]
    rw [this, subValid_zero, ← hm, ← hw]
    cases t; simp only at hx; subst hx; rfl
  | true =>
    simp only [if_true, Bool.true_and]
    rw [hn, loopAcc_ok n t.nValid _
      (fun z => if flt 0 (f z) && !(isfin (g z)) then ((0 : α), (0 : α)) else (f z, g z))
      (fun z => subValid t.nValid (cnt z fun z => flt 0 (f z) && !(isfin (g z))))
      (by simp [cnt, subValid_zero])]
    · simp only [ok_bind, pure_eq_ok, List.map_map]
      congr 3
      · unfold tab; apply List.map_congr_left; intro z _
        show Prod.snd (if _ then _ else _) = _
        split <;> rfl
      · unfold tab; apply List.map_congr_left; intro z _
        show Prod.fst (if _ then _ else _) = _
        split <;> rfl
    · intro z hz
      rw [hm, hw, rdp_tab f hz, rdp_tab g hz, cnt_succ]
      cases hc : flt 0 (f z) && !(isfin (g z)) with
      | true => simp only [ok_bind, hc, if_true, pure_eq_ok, decValid_subValid]
      | false => simp only [ok_bind, hc, Bool.false_eq_true, if_false, pure_eq_ok, Nat.add_zero]

theorem applyMask_eq (t : MO α) (f g : Nat → α) (hn : t.nDataVals = n) (hme : t.maskExists = true)
    (hm : t.maskVec = some (tab n f)) (hw : t.weightVec = some (tab n g)) :
    applyMask t = .ok { t with
      weightVec := some (tab n fun z => if t.weightValsSet then maskedWeight (f z) (g z) else g z) } := by
  unfold applyMask
  rw [hme, Bool.and_true]
  cases hs : t.weightValsSet with
  | true =>
    simp only [if_true]
    rw [hn, loopMap_ok n _ (fun z => maskedWeight (f z) (g z))]
    · rfl
    · intro z hz; rw [hm, hw, rdp_tab f hz, rdp_tab g hz]; rfl
  | false =>
    simp only [Bool.false_eq_true, if_false, pure_eq_ok]
    rw [← hw]
    cases t; simp only at hs hme; subst hs; subst hme; rfl

theorem checkWeights_eq (t : MO α) (f g : Nat → α) (hn : t.nDataVals = n) (hme : t.maskExists = true)
    (hm : t.maskVec = some (tab n f)) (hw : t.weightVec = some (tab n g)) :
    checkWeights t = .ok ((List.range n).all fun z =>
      !(flt 0 (f z)) || (isfin (g z) && !(flt (g z) 0))) := by
  unfold checkWeights
  rw [hn, forN_ok n true _ (fun k => (List.range k).all fun z =>
      !(flt 0 (f z)) || (isfin (g z) && !(flt (g z) 0))) (by simp)]
  intro z hz
  rw [hme, hm, hw, rdp_tab f hz, rdp_tab g hz, all_range_succ]
  simp only [if_true, ok_bind, pure_eq_ok]
  cases flt 0 (f z) <;> cases isfin (g z) <;> cases flt (g z) 0 <;> simp

theorem vetData_eq (t : MO α) (f : Nat → α) (hn : t.nDataVals = n)
    (hm : t.maskVec = some (tab n f)) (hd : t.dataVec = some (tab n d)) :
    vetData t = .ok ({ t with
      dataVec := some (tab n fun z => if !(isfin (d z)) && !(flt 0 (f z)) then 0 else d z) },
      (List.range n).all fun z => isfin (d z) || !(flt 0 (f z))) := by
  unfold vetData
  rw [hn, loopAcc_ok n true _ (fun z => if !(isfin (d z)) && !(flt 0 (f z)) then 0 else d z)
    (fun k => (List.range k).all fun z => isfin (d z) || !(flt 0 (f z))) (by simp)]
  · rfl
  · intro z hz
    rw [hm, hd, rdp_tab f hz, rdp_tab d hz, all_range_succ]
    cases h1 : isfin (d z) <;> cases h2 : flt 0 (f z) <;> simp [h1, h2]

theorem subValid_add (o : Option Int) (a b : Nat) : subValid (subValid o a) b = subValid o (a + b) := by
  cases o with
  | none => rfl
  | some n => simp [subValid]; omega

/-- State after the default-mask step. -/
def st1 (n : Nat) (s : MO α) (m : Nat → α) : MO α :=
  { s with maskVec := some (tab n (pm0 s m)), maskExists := true }
/-- State after masking bad data. -/
def st2 (n : Nat) (s : MO α) (d m : Nat → α) : MO α :=
  { st1 n s m with
    maskVec := some (tab n (pm1 s d m))
    nValid := subValid s.nValid (cnt n fun z => flt 0 (pm0 s m z) && !(isfin (d z))) }
/-- State after generating weights. -/
def st3 (n : Nat) (s : MO α) (d m w : Nat → α) : MO α :=
  { st2 n s d m with
    weightVec := some (tab n (pw0 s d w))
    weightValsSet := genW s || s.weightValsSet
    weightAllocated := genW s || s.weightAllocated }
/-- State after generating extra terms. -/
def st4 (n : Nat) (s : MO α) (d m w : Nat → α) : MO α :=
  { st3 n s d m w with extraVec := pex n s d s.extraVec }
/-- State after masking bad weights. -/
def st5 (n : Nat) (s : MO α) (d m w : Nat → α) : MO α :=
  { st4 n s d m w with
    maskVec := some (tab n (pm2 s d m w))
    weightVec := some (tab n (pw2 s d m w))
    nValid := subValid s.nValid (nRemoved n s d m w) }
/-- State after `ApplyMask`. -/
def st6 (n : Nat) (s : MO α) (d m w : Nat → α) : MO α :=
  { st5 n s d m w with weightVec := some (tab n (pw3 s d m w)) }

theorem finalGenErrors_eq (h : FitReady n s d m w) :
    finalGenErrors (st2 n s d m) = .ok (st3 n s d m w) := by
  unfold finalGenErrors
  show (if genW s then _ else _) = _
  cases hg : genW s with
  | true =>
    simp only [if_true]
    rw [generateErrors_eq (n := n) (d := d) (st2 n s d m) h.hn h.hd]
    have : pw0 s d w = fun z => dataWeight s.effGain s.nCombined s.readNoiseAduSq s.sky (d z) := by
      funext z; simp [pw0, hg]
    unfold st3
    rw [this, hg]
    rfl
  | false =>
    simp only [Bool.false_eq_true, if_false, pure_eq_ok]
    have : pw0 s d w = w := by funext z; simp [pw0, hg]
    unfold st3
    rw [this, ← h.hw hg, hg]
    rfl

theorem finalGenExtra_eq (h : FitReady n s d m w) :
    finalGenExtra (st3 n s d m w) = .ok (st4 n s d m w) := by
  unfold finalGenExtra
  show (if s.useCash && s.poissonMLR then _ else _) = _
  unfold st4 pex
  cases hu : s.useCash with
  | false => rfl
  | true =>
    cases hp : s.poissonMLR with
    | false => rfl
    | true =>
      simp only [Bool.and_self, if_true]
      rw [generateExtraTerms_eq (n := n) (d := d) (st3 n s d m w) h.hn h.hd (h.he hu)]
      rfl

/-- Closed form of `FinalSetupForFitting`. -/
theorem finalSetup_eq (h : FitReady n s d m w) :
    finalSetup s = .ok (finalState n s d m w, finalStatus n s d m w) := by
  have e1 : finalDefaultMask s = st1 n s m := finalDefaultMask_eq h
  have e2 : finalMaskBadData (st1 n s m) = .ok (st2 n s d m) :=
    finalMaskBadData_eq (n := n) (d := d) (st1 n s m) (pm0 s m) h.hn h.hd rfl
  have e3 := finalGenErrors_eq h
  have e4 := finalGenExtra_eq h
  have e5 : finalMaskBadWeights (st4 n s d m w) = .ok (st5 n s d m w) := by
    rw [finalMaskBadWeights_eq (n := n) (st4 n s d m w) (pm1 s d m) (pw0 s d w) h.hn rfl rfl]
    rw [show (st4 n s d m w).nValid = subValid s.nValid
      (cnt n fun z => flt 0 (pm0 s m z) && !(isfin (d z))) from rfl, subValid_add]
    rfl
  have e6 : applyMask (st5 n s d m w) = .ok (st6 n s d m w) :=
    applyMask_eq (n := n) (st5 n s d m w) (pm2 s d m w) (pw2 s d m w) h.hn rfl rfl rfl
  have e7 : checkWeights (st6 n s d m w) = .ok (wOK n s d m w) :=
    checkWeights_eq (n := n) (st6 n s d m w) (pm2 s d m w) (pw3 s d m w) h.hn rfl rfl rfl
  have e8 : vetData (st6 n s d m w) = .ok (finalState n s d m w, dOK n s d m w) :=
    vetData_eq (n := n) (d := d) (st6 n s d m w) (pm2 s d m w) h.hn rfl h.hd
  have e9 : (st6 n s d m w).dataValsSet = true := h.hset
  unfold finalSetup
  simp only [e1, e2, e3, e4, e5, e6, e7, e8, e9, ok_bind, if_true, pure_eq_ok]
  rfl

end Imfit
