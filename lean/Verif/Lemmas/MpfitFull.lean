import Verif.Model.MpfitFull
import Verif.Lemmas.LevMar

/-!
# The loops of `mpfit` with their linear algebra are loops with given results of the linear algebra
-/

namespace Imfit

section
variable {α : Type} [FP α]
variable {dev : List α → List α} {m : Nat} {c : MPConf α} {fr : List Nat} {lims : List (FreeLim α)}

theorem outerTurn_counts {la : OuterLA α} {s : LMSt α} {r : LMSt α × Option Int} (h : outerTurn c fr lims la s = .ok r) :
    r.1.kOut = s.kOut + 1 ∧ r.1.kIn = s.kIn := by
  unfold outerTurn at h
  obtain ⟨_, _, h⟩ := bind_ok h
  obtain ⟨_, _, h⟩ := bind_ok h
  cases h
  exact ⟨rfl, rfl⟩

theorem innerTurn_counts {la : InnerLA α} {s : LMSt α} {r : LMSt α × LMNext} (h : innerTurn dev c fr lims la s = .ok r) :
    r.1.kOut = s.kOut ∧ r.1.kIn = s.kIn + 1 := by
  unfold innerTurn at h
  obtain ⟨_, _, h⟩ := bind_ok h
  obtain ⟨_, _, h⟩ := bind_ok h
  cases h
  exact ⟨rfl, rfl⟩

/-- The loops use only the results that are still to come. -/
theorem lmLoop_congr {outer outer' : Nat → OuterLA α} {inner inner' : Nat → InnerLA α} : ∀ (fuel : Nat) (b : Bool) (s : LMSt α),
    (∀ k, s.kOut ≤ k → outer k = outer' k) → (∀ k, s.kIn ≤ k → inner k = inner' k) →
    lmLoop dev c fr lims outer inner fuel b s = lmLoop dev c fr lims outer' inner' fuel b s := by
  intro fuel
  induction fuel with
  | zero => intro b s _ _; rfl
  | succ fuel ih =>
    intro b s h1 h2
    cases b with
    | true =>
      simp only [lmLoop]
      rw [h1 _ le_rfl]
      cases ho : outerTurn c fr lims (outer' s.kOut) s with
      | error e => rfl
      | ok r =>
        obtain ⟨e1, e2⟩ := outerTurn_counts ho
        simp only [ok_bind]
        cases r.2 with
        | some i => rfl
        | none => exact ih false r.1 (fun k hk => h1 k (by omega)) fun k hk => h2 k (by omega)
    | false =>
      simp only [lmLoop]
      rw [h2 _ le_rfl]
      cases ho : innerTurn dev c fr lims (inner' s.kIn) s with
      | error e => rfl
      | ok r =>
        obtain ⟨e1, e2⟩ := innerTurn_counts ho
        simp only [ok_bind]
        cases r.2 with
        | stop i => rfl
        | inner => exact ih false r.1 (fun k hk => h1 k (by omega)) fun k hk => h2 k (by omega)
        | outer => exact ih true r.1 (fun k hk => h1 k (by omega)) fun k hk => h2 k (by omega)

/-- A run with the real linear algebra is a run with some sequences of results. `I` is an invariant of the run, `P` holds of the results used. -/
theorem fullLoop_refines {stop : Nat → Bool} {P : InnerLA α → Prop} (la0 : InnerLA α) (hP0 : P la0) (I : Bool → FullSt α → Prop)
    (hout : ∀ st st', I true st → outerFull dev m c fr lims st = .ok (st', none) → I false st')
    (hP : ∀ st k la, I false st → innerArrays lims (stop k) st = .ok la → P la.1)
    (hin : ∀ st k st' nx, I false st → innerFull dev c fr lims (stop k) st = .ok (st', nx) → (nx = .inner → I false st') ∧ (nx = .outer → I true st')) :
    ∀ (fuel : Nat) (b : Bool) (st : FullSt α) (r : LMSt α × Int), I b st → fullLoop dev m c fr lims stop fuel b st = .ok r →
      ∃ outer inner, (∀ k, P (inner k)) ∧ lmLoop dev c fr lims outer inner fuel b st.s = .ok r := by
  intro fuel
  induction fuel with
  | zero => intro b st r _ h; simp only [fullLoop] at h; cases h
  | succ fuel ih =>
    intro b st r hI h
    cases b with
    | true =>
      simp only [fullLoop] at h
      obtain ⟨⟨st', e⟩, h1, h2⟩ := bind_ok h
      have h1' := h1
      unfold outerFull at h1
      obtain ⟨_, _, h1⟩ := bind_ok h1
      obtain ⟨_, _, h1⟩ := bind_ok h1
      obtain ⟨jac, _, h1⟩ := bind_ok h1
      obtain ⟨o, h3, h1⟩ := bind_ok h1
      cases h1
      set la := (outerArrays m jac st).1 with hla
      cases he : o.2 with
      | some i =>
        simp only [he] at h2
        cases h2
        refine ⟨fun _ => la, fun _ => la0, fun _ => hP0, ?_⟩
        simp only [lmLoop]
        rw [h3, ok_bind]
        simp only [he]
        rfl
      | none =>
        simp only [he] at h2
        rw [he] at h1'
        obtain ⟨outer, inner, h4, h5⟩ := ih false _ r (hout _ _ hI h1') h2
        refine ⟨Function.update outer st.s.kOut la, inner, h4, ?_⟩
        simp only [lmLoop, Function.update_self]
        rw [h3, ok_bind]
        simp only [he]
        rw [← h5]
        obtain ⟨e1, e2⟩ := outerTurn_counts h3
        refine lmLoop_congr _ _ _ (fun k hk => Function.update_of_ne (by omega) _ _) fun k _ => rfl
    | false =>
      simp only [fullLoop] at h
      obtain ⟨⟨st', e⟩, h1, h2⟩ := bind_ok h
      have h1' := h1
      unfold innerFull at h1
      obtain ⟨la, hla, h1⟩ := bind_ok h1
      obtain ⟨o, h3, h1⟩ := bind_ok h1
      cases h1
      have hp := hP _ _ _ hI hla
      obtain ⟨e1, e2⟩ := innerTurn_counts h3
      have hupd : ∀ inner : Nat → InnerLA α, (∀ k, P (inner k)) → ∀ k, P (Function.update inner st.s.kIn la.1 k) := by
        intro inner h k
        by_cases hk : k = st.s.kIn
        · subst hk; rw [Function.update_self]; exact hp
        · rw [Function.update_of_ne hk]; exact h k
      cases he : o.2 with
      | stop i =>
        simp only [he] at h2
        cases h2
        refine ⟨fun _ => ⟨true, 0, 0⟩, Function.update (fun _ => la0) st.s.kIn la.1, hupd _ fun _ => hP0, ?_⟩
        simp only [lmLoop, Function.update_self]
        rw [h3, ok_bind]
        simp only [he]
        rfl
      | inner =>
        simp only [he] at h2
        rw [he] at h1'
        obtain ⟨outer, inner, h4, h5⟩ := ih false _ r ((hin _ _ _ _ hI h1').1 rfl) h2
        refine ⟨outer, Function.update inner st.s.kIn la.1, hupd _ h4, ?_⟩
        simp only [lmLoop, Function.update_self]
        rw [h3, ok_bind]
        simp only [he]
        rw [← h5]
        refine lmLoop_congr _ _ _ (fun k _ => rfl) fun k hk => Function.update_of_ne (by omega) _ _
      | outer =>
        simp only [he] at h2
        rw [he] at h1'
        obtain ⟨outer, inner, h4, h5⟩ := ih true _ r ((hin _ _ _ _ hI h1').2 rfl) h2
        refine ⟨outer, Function.update inner st.s.kIn la.1, hupd _ h4, ?_⟩
        simp only [lmLoop, Function.update_self]
        rw [h3, ok_bind]
        simp only [he]
        rw [← h5]
        refine lmLoop_congr _ _ _ (fun k _ => rfl) fun k hk => Function.update_of_ne (by omega) _ _

end

end Imfit
