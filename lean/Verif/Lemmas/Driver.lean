import Verif.Spec.Driver
import Verif.Props.C14
import Verif.Props.C11

/-! # Adding functions to a model and handing out names -/

namespace Imfit

open Spec

variable {α : Type}

/-- The names under which the parameters of one function go. -/
def parsOf (cat : Catalogue) (f : FnWritten α) : List Str := (cat.params f.name).getD []

/-- The object made for a function, given the optional parameters handed over. -/
def builtOf (cat : Catalogue) (e : FnWritten α → List (Str × Str)) (f : FnWritten α) : FnBuilt := ⟨f.name, f.label, e f, parsOf cat f⟩

theorem addLoop_plan (cat : Catalogue) (acc : Str → Bool) (labels : List Str) (extras : List (List (Str × Str))) (flags : List Bool)
    (e : FnWritten α → List (Str × Str)) (L : List (FnWritten α)) (i : Nat)
    (h : ∀ k (hk : k < L.length), rd labels (i + k) = .ok L[k].label ∧ extraFor extras (i + k) = .ok (e L[k]) ∧ ∃ b, flagFor flags (i + k) = .ok b)
    (hk : ∀ f ∈ L, (cat.params f.name).isSome ∧ (e f = [] ∨ 0 ≤ cat.setExtra f.name (e f)) ∧ acc f.name = true) :
    addLoop cat acc labels extras flags i (L.map FnWritten.name) = .ok (some (L.map (builtOf cat e))) := by
  induction L generalizing i with
  | nil => rfl
  | cons f L ih =>
    obtain ⟨h1, h2, b, h3⟩ := h 0 (by simp)
    simp only [Nat.add_zero, List.getElem_cons_zero] at h1 h2 h3
    obtain ⟨k1, k2, k3⟩ := hk f (by simp)
    obtain ⟨ps, hps⟩ := Option.isSome_iff_exists.1 k1
    have hone : addOne cat acc labels extras flags i f.name = .ok (some (builtOf cat e f)) := by
      unfold addOne
      rw [hps]
      simp only
      rw [h1, ok_bind, h2, ok_bind, if_neg (show ¬ (e f ≠ [] ∧ cat.setExtra f.name (e f) < 0) by
        rintro ⟨a, b⟩
        rcases k2 with h | h
        · exact a h
        · omega), h3, ok_bind, if_pos k3]
      simp [builtOf, parsOf, hps]
    have hr := ih (i + 1) (fun k hk => by
      have := h (k + 1) (by simpa using hk)
      simpa [Nat.add_assoc, Nat.add_comm 1] using this) fun g hg => hk g (by simp [hg])
    simp only [List.map_cons, addLoop]
    rw [hone, ok_bind]
    simp only
    rw [hr, ok_bind]

/-- Names of the parameters of a plan, in order. -/
def planNames (cat : Catalogue) (plan : List (SetWritten α)) : List Str :=
  plan.flatMap fun s => kX0 :: kY0 :: s.fns.flatMap (parsOf cat)

/-- Parameter names, set by set. -/
def nameSetsOf (cat : Catalogue) (plan : List (SetWritten α)) : List (List (List Str)) := plan.map fun s => s.fns.map (parsOf cat)

theorem populate_flagged (sets : List (List (List Str))) (h : ∀ s ∈ sets, s ≠ []) :
    populateNames (flagged sets) = sets.flatMap fun s => kX0 :: kY0 :: s.flatten := by
  induction sets with
  | nil => rfl
  | cons s sets ih =>
    cases s with
    | nil => exact absurd rfl (h [] (by simp))
    | cons f s =>
      have aux : ∀ (s : List (List Str)) (r : List (List Str × Bool)), populateNames (s.map (·, false) ++ r) = s.flatten ++ populateNames r := by
        intro s r
        induction s with
        | nil => rfl
        | cons a s ih => simp [populateNames, ih]
      simp only [flagged, List.cons_append, populateNames, if_true, aux, ih fun t ht => h t (by simp [ht])]
      simp [kX0, kY0]

theorem startIndices_map {β γ : Type} (g : β → γ) (m : Nat) (l : List (List β)) : startIndices m (l.map (List.map g)) = startIndices m l := by
  induction l generalizing m with
  | nil => rfl
  | cons s l ih => simp [startIndices, ih]

/-- Flags of the functions that start a set. -/
def planFlags (plan : List (SetWritten α)) : List Bool := (flagged (plan.map SetWritten.fns)).map Prod.snd

theorem flagged_snd {β γ : Type} (g : β → γ) (l : List (List β)) : (flagged (l.map (List.map g))).map Prod.snd = (flagged l).map Prod.snd := by
  rw [flagged_map]; simp

theorem planNames_length (cat : Catalogue) (plan : List (SetWritten α)) :
    (planNames cat plan).length = ((functions plan).map fun f => (parsOf cat f).length).sum + 2 * plan.length := by
  induction plan with
  | nil => rfl
  | cons s plan ih =>
    simp only [planNames, functions, List.flatMap_cons, List.map_append, List.sum_append, List.length_append, List.length_cons] at ih ⊢
    rw [ih]
    simp only [List.length_flatMap]
    omega

theorem zip_fst_snd {β γ : Type} (l : List (β × γ)) : (l.map Prod.fst).zip (l.map Prod.snd) = l := by
  induction l with
  | nil => rfl
  | cons a l ih => simp [ih]

/-- What a model object knows after the functions of a plan have been added. -/
theorem addFunctions_plan (cat : Catalogue) (acc : Str → Bool) (tot0 : Nat) (labels0 : List Str) (plan : List (SetWritten α)) (hf : Filled plan)
    (extras : List (List (Str × Str))) (flags : List Bool) (e : FnWritten α → List (Str × Str))
    (h : ∀ k (hk : k < (functions plan).length), extraFor extras k = .ok (e (functions plan)[k]) ∧ ∃ b, flagFor flags k = .ok b)
    (hk : ∀ f ∈ functions plan, (cat.params f.name).isSome ∧ (e f = [] ∨ 0 ≤ cat.setExtra f.name (e f)) ∧ acc f.name = true) :
    addFunctions cat acc tot0 labels0 ((functions plan).map FnWritten.name) ((functions plan).map FnWritten.label)
      (startIndices 0 (plan.map SetWritten.fns)) extras flags =
      .ok (some ⟨(functions plan).map (builtOf cat e), planFlags plan, tot0 + (planNames cat plan).length, labels0 ++ planNames cat plan⟩) := by
  unfold addFunctions
  rw [addLoop_plan cat acc _ extras flags e (functions plan) 0 (fun k hk => by
    have := h k hk
    simp only [Nat.zero_add]
    refine ⟨?_, this.1, this.2⟩
    rw [rd_ok (by simpa using hk)]; simp) hk, ok_bind]
  simp only
  have hsz : ((functions plan).map (builtOf cat e)).map (fun f => f.pars.length) =
      (plan.map fun s => s.fns.map fun f => (parsOf cat f).length).flatten := by
    simp [functions, List.flatMap_def, List.map_flatten, Function.comp_def, builtOf]
  have hsets : plan.map (fun s => s.fns.map fun f => (parsOf cat f).length) = (plan.map SetWritten.fns).map (List.map fun f => (parsOf cat f).length) := by
    rw [List.map_map]; rfl
  have hdef := defineFunctionSets_eq (plan.map fun s => s.fns.map fun f => (parsOf cat f).length) (by
    intro s hs
    simp only [List.mem_map] at hs
    obtain ⟨t, ht, rfl⟩ := hs
    simpa using hf.2 t ht) (by simpa using hf.1) tot0
  rw [hsz]
  have hst : startIndices 0 (plan.map SetWritten.fns) = startIndices 0 (plan.map fun s => s.fns.map fun f => (parsOf cat f).length) := by
    rw [hsets, startIndices_map]
  rw [hst, hdef, ok_bind]
  have hfl : (flagged (plan.map fun s => s.fns.map fun f => (parsOf cat f).length)).map Prod.snd = planFlags plan := by
    rw [hsets, flagged_snd]; rfl
  have hnm : (((functions plan).map (builtOf cat e)).map FnBuilt.pars).zip (planFlags plan) = flagged (nameSetsOf cat plan) := by
    have h1 : nameSetsOf cat plan = (plan.map SetWritten.fns).map (List.map (parsOf cat)) := by rw [nameSetsOf, List.map_map]; rfl
    have h2 : ((functions plan).map (builtOf cat e)).map FnBuilt.pars = (flagged (nameSetsOf cat plan)).map Prod.fst := by
      rw [flagged_fst]
      simp [functions, nameSetsOf, List.flatMap_def, List.map_flatten, Function.comp_def, builtOf]
    rw [h2, planFlags, ← flagged_snd (parsOf cat), ← h1]
    exact zip_fst_snd _
  have hpop : populateNames (flagged (nameSetsOf cat plan)) = planNames cat plan := by
    rw [populate_flagged]
    · simp only [nameSetsOf, planNames, List.flatMap_map]
      rfl
    · intro s hs
      simp only [nameSetsOf, List.mem_map] at hs
      obtain ⟨t, ht, rfl⟩ := hs
      simpa using hf.2 t ht
  have htot : (plan.map fun s => s.fns.map fun f => (parsOf cat f).length).flatten.sum + 2 * (plan.map fun s => s.fns.map fun f => (parsOf cat f).length).length =
      (planNames cat plan).length := by
    rw [planNames_length]
    rw [← hsz, List.map_map, List.length_map]
    rfl
  simp only
  rw [hfl, hnm, hpop, htot]

end Imfit
