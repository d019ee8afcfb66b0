import Verif.Lemmas.Driver

/-!
# Lemmas about the start of a fit
-/

namespace Imfit

open Spec FP

variable {α : Type}

/-- The parameter lines with the names of the parameters they stand for. -/
def tagged (cat : Catalogue) (plan : List (SetWritten α)) : List (Str × Entry α) :=
  plan.flatMap fun s => (kX0, s.x0) :: (kY0, s.y0) :: s.fns.flatMap fun f => (parsOf cat f).zip f.entries

theorem tagged_flat {β : Type} (cat : Catalogue) (L : List (FnWritten α)) (hl : ∀ f ∈ L, (parsOf cat f).length = f.entries.length) (g : Str × Entry α → β)
    (h : FnWritten α → List β) (hg : ∀ f ∈ L, ((parsOf cat f).zip f.entries).map g = h f) :
    (L.flatMap fun f => (parsOf cat f).zip f.entries).map g = L.flatMap h := by
  induction L with
  | nil => rfl
  | cons f L ih =>
    rw [List.flatMap_cons, List.map_append, hg f (by simp), ih (fun k hk => hl k (by simp [hk])) fun k hk => hg k (by simp [hk]), List.flatMap_cons]

theorem tagged_map {β : Type} (cat : Catalogue) (plan : List (SetWritten α)) (hl : ∀ f ∈ functions plan, (parsOf cat f).length = f.entries.length)
    (g : Str × Entry α → β) (h : FnWritten α → List β) (hg : ∀ f ∈ functions plan, ((parsOf cat f).zip f.entries).map g = h f) :
    (tagged cat plan).map g = plan.flatMap fun s => g (kX0, s.x0) :: g (kY0, s.y0) :: s.fns.flatMap h := by
  induction plan with
  | nil => rfl
  | cons s plan ih =>
    have hm : ∀ f ∈ functions plan, f ∈ functions (s :: plan) := fun f hf => by simp only [functions, List.flatMap_cons, List.mem_append] at hf ⊢; exact Or.inr hf
    have hm' : ∀ f ∈ s.fns, f ∈ functions (s :: plan) := fun f hf => by simp only [functions, List.flatMap_cons, List.mem_append]; exact Or.inl hf
    have e : tagged cat (s :: plan) = ((kX0, s.x0) :: (kY0, s.y0) :: s.fns.flatMap fun f => (parsOf cat f).zip f.entries) ++ tagged cat plan := by
      simp [tagged]
    rw [e, List.map_append, ih (fun f hf => hl f (hm f hf)) fun f hf => hg f (hm f hf), List.flatMap_cons, List.map_cons, List.map_cons,
      tagged_flat cat s.fns (fun f hf => hl f (hm' f hf)) g h fun f hf => hg f (hm' f hf)]

theorem loopMap_list {β γ : Type} (T : List β) (f : Nat → Res γ) (g : β → γ) (h : ∀ i (hi : i < T.length), f i = .ok (g T[i])) :
    loopMap T.length f = .ok (T.map g) :=
  loopMap_of_forall _ _ _ (by simp) fun i hi => by
    rw [h i (by simpa using hi)]; simp

/-- Where a parameter called `n` is to be moved. -/
def placed [FP α] (ox oy : Int) (n : Str) (e : Entry α) : Entry α := if n = kX0 then e.moved ox else if n = kY0 then e.moved oy else e

/-- The offset recorded for it. -/
def offsetOf (ox oy : Int) (n : Str) : Int := if n = kX0 then ox else if n = kY0 then oy else 0

theorem zip_placed [FP α] (ox oy : Int) (ps : List Str) (es : List (Entry α)) (hl : ps.length = es.length) (hx : kX0 ∉ ps) (hy : kY0 ∉ ps) :
    (ps.zip es).map (fun p => placed ox oy p.1 p.2) = es := by
  induction ps generalizing es with
  | nil => cases es with
    | nil => rfl
    | cons e es => simp at hl
  | cons p ps ih => cases es with
    | nil => simp at hl
    | cons e es =>
      rw [List.zip_cons_cons, List.map_cons, ih es (by simpa using hl) (fun h => hx (by simp [h])) fun h => hy (by simp [h])]
      have h1 : p ≠ kX0 := fun h => hx (by simp [h])
      have h2 : p ≠ kY0 := fun h => hy (by simp [h])
      simp [placed, h1, h2]

theorem zip_offset (ox oy : Int) (ps : List Str) (es : List (Entry α)) (hl : ps.length = es.length) (hx : kX0 ∉ ps) (hy : kY0 ∉ ps) :
    (ps.zip es).map (fun p => offsetOf ox oy p.1) = es.map fun _ => 0 := by
  induction ps generalizing es with
  | nil => cases es with
    | nil => rfl
    | cons e es => simp at hl
  | cons p ps ih => cases es with
    | nil => simp at hl
    | cons e es =>
      rw [List.zip_cons_cons, List.map_cons, ih es (by simpa using hl) (fun h => hx (by simp [h])) fun h => hy (by simp [h])]
      have h1 : p ≠ kX0 := fun h => hx (by simp [h])
      have h2 : p ≠ kY0 := fun h => hy (by simp [h])
      simp [offsetOf, h1, h2]

theorem countFree_eq (n : Nat) (rs : List (ParRec α)) : countFree n rs = (n : Int) - (rs.filter fun r => r.info.fixed).length := by
  unfold countFree
  have : ∀ (m : Int), rs.foldl (fun n r => if r.info.fixed then n - 1 else n) m = m - (rs.filter fun r => r.info.fixed).length := by
    induction rs with
    | nil => simp
    | cons r rs ih =>
      intro m
      rw [List.foldl_cons, ih]
      cases h : r.info.fixed <;> simp [h]
      omega
  exact this n

/-- Is the parameter to be varied? -/
def Entry.free (e : Entry α) : Bool := !e.lim.fixed

theorem lines_moved [FP α] (ox oy : Int) (plan : List (SetWritten α)) :
    lines (plan.map (SetWritten.moved ox oy)) = plan.flatMap fun s => s.x0.moved ox :: s.y0.moved oy :: s.fns.flatMap FnWritten.entries := by
  simp [lines, SetWritten.moved, List.flatMap_map]

/-- What `startFit` does with a plan whose function classes exist and whose numbers of values add up, whatever the division. -/
theorem startFit_total [FP α] (cat : Catalogue) (c : Config α) (plan : List (SetWritten α)) (ox oy : Int) (hs : Says c plan) (hf : Filled plan)
    (hu : ∀ f ∈ functions plan, Usable cat f (parsOf cat f)) :
    startFit cat c ox oy =
      if (planNames cat plan).length ≠ (lines plan).length then .ok none
      else .ok (some ⟨⟨(functions plan).map (builtOf cat FnWritten.extra), planFlags plan, (planNames cat plan).length, planNames cat plan⟩,
        ((planNames cat plan).zip (lines plan)).map (fun p => (placed ox oy p.1 p.2).value),
        ((planNames cat plan).zip (lines plan)).map (fun p => ⟨(placed ox oy p.1 p.2).lim, offsetOf ox oy p.1⟩),
        (((planNames cat plan).zip (lines plan)).map Prod.snd).countP Entry.free⟩) := by
  have hadd := addFunctions_plan cat cat.accepts 0 [] plan hf ((functions plan).map FnWritten.extra) [] FnWritten.extra (by
    intro k hk
    refine ⟨?_, true, by simp [flagFor]⟩
    unfold extraFor
    rw [if_neg (by rw [List.length_map]; omega), rd_ok (by simpa using hk)]
    simp) fun f h => ⟨by rw [(hu f h).known]; rfl, (hu f h).extra, (hu f h).accepts⟩
  unfold startFit
  rw [hs.names, hs.labels, hs.starts, hs.opts, hadd, ok_bind]
  simp only [Nat.zero_add, List.nil_append, hs.vals, List.length_map]
  by_cases hl : (planNames cat plan).length = (lines plan).length
  swap
  · rw [if_pos hl, if_pos hl]
  rw [if_neg (show ¬((planNames cat plan).length ≠ (lines plan).length) by simpa using hl),
    if_neg (show ¬((planNames cat plan).length ≠ (lines plan).length) by simpa using hl)]
  have hpos : (planNames cat plan).length ≠ 0 := by
    rw [planNames_length]
    have := List.length_pos_iff.2 hf.1
    omega
  rw [if_neg hpos]
  have hT : ((planNames cat plan).zip (lines plan)).length = (planNames cat plan).length := by simp [hl]
  have hrec : ∀ i (hi : i < ((planNames cat plan).zip (lines plan)).length),
      startRec ⟨(functions plan).map (builtOf cat FnWritten.extra), planFlags plan, (planNames cat plan).length, planNames cat plan⟩ c.lims ox oy i =
        .ok ((fun p => ⟨(placed ox oy p.1 p.2).lim, offsetOf ox oy p.1⟩) (((planNames cat plan).zip (lines plan))[i])) := by
    intro i hi
    have h1 : i < (planNames cat plan).length := by rw [hT] at hi; exact hi
    have h2 : i < (lines plan).length := by omega
    unfold startRec getParameterName
    rw [hs.lims, rd_ok (by simpa using h2), ok_bind]
    simp only
    rw [if_pos h1, rd_ok h1]
    simp only [ok_bind, pure_eq_ok, List.getElem_map, List.getElem_zip, Option.some.injEq, placed, offsetOf]
    split
    · rfl
    · split <;> rfl
  have hval : ∀ i (hi : i < ((planNames cat plan).zip (lines plan)).length),
      startValue ⟨(functions plan).map (builtOf cat FnWritten.extra), planFlags plan, (planNames cat plan).length, planNames cat plan⟩
        ((lines plan).map Entry.value) ox oy i = .ok ((fun p => (placed ox oy p.1 p.2).value) (((planNames cat plan).zip (lines plan))[i])) := by
    intro i hi
    have h1 : i < (planNames cat plan).length := by rw [hT] at hi; exact hi
    have h2 : i < (lines plan).length := by omega
    unfold startValue getParameterName
    rw [rd_ok (by simpa using h2), ok_bind]
    simp only
    rw [if_pos h1, rd_ok h1]
    simp only [ok_bind, pure_eq_ok, List.getElem_map, List.getElem_zip, Option.some.injEq, placed]
    split
    · rfl
    · split <;> rfl
  have e1 := loopMap_list ((planNames cat plan).zip (lines plan)) _ (fun p => (⟨(placed ox oy p.1 p.2).lim, offsetOf ox oy p.1⟩ : ParRec α)) hrec
  have e2 := loopMap_list ((planNames cat plan).zip (lines plan)) _ (fun p => (placed ox oy p.1 p.2).value) hval
  rw [hT] at e1 e2
  rw [e1, ok_bind, e2, ok_bind, countFree_eq]
  congr 4
  rw [List.filter_map, List.length_map, List.countP_map, ← List.countP_eq_length_filter]
  have hsum : ∀ l : List (Str × Entry α), (l.length : Int) - l.countP ((fun r : ParRec α => r.info.fixed) ∘
      fun p => ⟨(placed ox oy p.1 p.2).lim, offsetOf ox oy p.1⟩) = l.countP (Entry.free ∘ Prod.snd) := by
    intro l
    induction l with
    | nil => rfl
    | cons p l ih =>
      have hfix : (placed ox oy p.1 p.2).lim.fixed = p.2.lim.fixed := by
        unfold placed
        split
        · rfl
        · split <;> rfl
      rw [List.countP_cons, List.countP_cons, List.length_cons]
      have e1 : ((fun r : ParRec α => r.info.fixed) ∘ fun p : Str × Entry α => (⟨(placed ox oy p.1 p.2).lim, offsetOf ox oy p.1⟩ : ParRec α)) p = p.2.lim.fixed := hfix
      have e2 : (Entry.free ∘ Prod.snd) p = !p.2.lim.fixed := rfl
      rw [e1, e2]
      by_cases h : p.2.lim.fixed = true
      · rw [if_pos h, if_neg (by simp [h])]
        push_cast
        omega
      · rw [if_neg h, if_pos (by simp [h])]
        push_cast
        omega
  rw [← hT]
  exact hsum _

/-- The names and lines go together when the numbers agree function by function. -/
theorem zip_tagged (cat : Catalogue) (plan : List (SetWritten α)) (hl : ∀ f ∈ functions plan, (parsOf cat f).length = f.entries.length) :
    (planNames cat plan).zip (lines plan) = tagged cat plan ∧ (planNames cat plan).length = (lines plan).length := by
  have h1 : (tagged cat plan).map Prod.fst = planNames cat plan := by
    rw [tagged_map cat plan hl Prod.fst (parsOf cat)]
    · rfl
    · intro f hf
      exact List.map_fst_zip (le_of_eq (hl f hf))
  have h2 : (tagged cat plan).map Prod.snd = lines plan := by
    rw [tagged_map cat plan hl Prod.snd FnWritten.entries]
    · rfl
    · intro f hf
      exact List.map_snd_zip (le_of_eq (hl f hf).symm)
  refine ⟨?_, ?_⟩
  · rw [← h1, ← h2]; exact zip_fst_snd _
  · rw [← h1, ← h2]; simp

end Imfit
