import Verif.Props.C80

/-!
# C80 — Functions of single images

The parts of the start of a fit to several images that deal with an image's own functions. With one function in each set, the model of the image has the functions of the
configuration file, followed by its own; the limits of all parameters come in the order: descriptions of the images, configuration file, own functions image by image. (A fit is
never started with them, `C80_local_false`.)
-/

namespace Imfit

open Spec FP

variable {α : Type}

/-- What an image's own functions say. -/
structure OwnSays (st : PState0 α) (own : List (SetWritten α)) : Prop where
  names : st.names = (functions own).map FnWritten.name
  labels : st.labels = (functions own).map FnWritten.label
  vals : st.vals = (lines own).map Entry.value
  lims : st.lims = (lines own).map Entry.lim
  starts : st.starts = startIndices 0 (own.map SetWritten.fns)

theorem startIndices_shift {β : Type} (n m : Nat) (l : List (List β)) : startIndices (n + m) l = (startIndices m l).map (n + ·) := by
  induction l generalizing m with
  | nil => rfl
  | cons s l ih =>
    simp only [startIndices, List.map_cons, Nat.add_assoc]
    rw [ih]

theorem startIndices_append {β : Type} (m : Nat) (a b : List (List β)) :
    startIndices m (a ++ b) = startIndices m a ++ startIndices (m + (a.map List.length).sum) b := by
  induction a generalizing m with
  | nil => simp [startIndices]
  | cons s a ih => simp only [List.cons_append, startIndices, ih, List.map_cons, List.sum_cons, Nat.add_assoc]

theorem startIndices_len {β : Type} (m : Nat) (l : List (List β)) : (startIndices m l).length = l.length := by
  induction l generalizing m with
  | nil => rfl
  | cons s l ih => simp [startIndices, ih]

theorem functions_append (a b : List (SetWritten α)) : functions (a ++ b) = functions a ++ functions b := by simp [functions]

theorem functions_length (plan : List (SetWritten α)) : (functions plan).length = ((plan.map SetWritten.fns).map List.length).sum := by
  rw [functions, List.length_flatMap, List.map_map]
  rfl

theorem singles_length (own : List (SetWritten α)) (h1 : ∀ s ∈ own, s.fns.length = 1) : (functions own).length = own.length := by
  rw [functions_length, List.map_map]
  induction own with
  | nil => rfl
  | cons s own ih => simp [h1 s (by simp), ih fun s hs => h1 s (by simp [hs])]; omega

/-- The model of one image has the functions of the configuration file and then its own, each where its set begins. -/
theorem C80_ownFunctions_partial (cat : Catalogue) (c : Config α) (plan own : List (SetWritten α)) (im : ImgInfo α) (st : PState0 α) (hs : Says c plan) (ho : OwnSays st own)
    (hf : Filled plan) (h1 : ∀ s ∈ own, s.fns.length = 1) (him : im.functions = some st)
    (hk : ∀ f ∈ functions (plan ++ own), (cat.params f.name).isSome ∧ cat.accepts f.name = true) :
    buildImage cat c im = .ok (some ⟨(functions (plan ++ own)).map (builtOf cat fun _ => []), planFlags (plan ++ own), (planNames cat (plan ++ own)).length,
      planNames cat (plan ++ own)⟩) := by
  have hlen : st.names.length = own.length := by rw [ho.names, List.length_map, singles_length own h1]
  have hst : localStarts c.names.length st = .ok (startIndices c.names.length (own.map SetWritten.fns)) := by
    unfold localStarts
    rw [hlen, ho.starts, loopMap_ok _ _ fun j => c.names.length + (startIndices 0 (own.map SetWritten.fns)).getD j 0]
    · congr 1
      rw [← Nat.add_zero c.names.length, startIndices_shift, Nat.add_zero]
      refine List.ext_getElem (by simp [startIndices_len]) fun i h1 h2 => ?_
      have hi : i < (startIndices 0 (own.map SetWritten.fns)).length := by simpa using h2
      simp [List.getD_eq_getElem?_getD, hi]
    · intro j hj
      have hj' : j < (startIndices 0 (own.map SetWritten.fns)).length := by simpa [startIndices_len] using hj
      rw [rd_ok hj', ok_bind]
      simp [List.getD_eq_getElem?_getD, hj']
  have hstarts : c.starts ++ startIndices c.names.length (own.map SetWritten.fns) = startIndices 0 ((plan ++ own).map SetWritten.fns) := by
    rw [hs.starts, hs.names, List.length_map, functions_length, List.map_append, startIndices_append, Nat.zero_add]
  unfold buildImage
  rw [him]
  simp only
  rw [hst, ok_bind, hstarts, hs.names, hs.labels, ho.names, ho.labels, ← List.map_append, ← List.map_append, ← functions_append]
  have hF : Filled (plan ++ own) := by
    refine ⟨by simp [hf.1], fun s h => ?_⟩
    rcases List.mem_append.1 h with h | h
    · exact hf.2 s h
    · intro h0
      have := h1 s h
      rw [h0] at this
      cases this
  rw [addFunctions_plan cat cat.accepts 0 [] (plan ++ own) hF [] _ (fun _ => []) (fun k hk' => ⟨rfl, ?_⟩) fun f hf' => ⟨(hk f hf').1, Or.inl rfl, (hk f hf').2⟩]
  · simp
  · unfold flagFor
    split
    · exact ⟨true, rfl⟩
    · have hb : k < (List.replicate ((functions plan).map FnWritten.name).length true ++ List.replicate ((functions own).map FnWritten.name).length false).length := by
        simpa [functions_append] using hk'
      exact ⟨_, rd_ok hb⟩

/-- The own plans of the images, in order. -/
def ownLines (owns : List (List (SetWritten α))) : List (Entry α) := owns.flatMap lines

/-- The limits of all parameters: descriptions, configuration file, own functions image by image. -/
theorem C80_limits (desc : List (Entry α)) (E : List (Entry α)) (c : Config α) (hv : c.vals = E.map Entry.value) (hl : c.lims = E.map Entry.lim)
    (ims : List (ImgInfo α)) (owns : List (List (SetWritten α)))
    (h : List.Forall₂ (fun im own => match im.functions with | none => own = [] | some st => OwnSays st own) ims owns) :
    multiRecs desc.length (desc.map Entry.lim) c ims = .ok ((desc ++ E ++ ownLines owns).map fun e => (⟨e.lim, 0⟩ : ParRec α)) := by
  have hloc : allLocalRecs ims = .ok ((ownLines owns).map fun e => (⟨e.lim, 0⟩ : ParRec α)) := by
    induction h with
    | nil => rfl
    | @cons im own ims owns hi _ ih =>
      have hr : localRecs im = .ok ((lines own).map fun e => (⟨e.lim, 0⟩ : ParRec α)) := by
        unfold localRecs
        cases hf : im.functions with
        | none => rw [hf] at hi; simp only at hi; subst hi; rfl
        | some st =>
          rw [hf] at hi
          simp only at hi ⊢
          rw [hi.vals, hi.lims, List.length_map]
          exact loopMap_list (lines own) (fun j => do
            let p ← rd ((lines own).map Entry.lim) j
            .ok (⟨p, 0⟩ : ParRec α)) (fun e => ⟨e.lim, 0⟩) fun i hi => by
              beta_reduce
              rw [rd_ok (by simpa using hi), ok_bind]; simp
      rw [allLocalRecs, hr, ok_bind, ih, ok_bind, ownLines, ownLines, List.flatMap_cons, List.map_append]
  unfold multiRecs
  have h1 := loopMap_list desc (fun i => do
    let p ← rd (desc.map Entry.lim) i
    .ok (⟨p, 0⟩ : ParRec α)) (fun e => ⟨e.lim, 0⟩) fun i hi => by
      beta_reduce
      rw [rd_ok (by simpa using hi), ok_bind]; simp
  have h2 := loopMap_list E (fun i => do
    let p ← rd (E.map Entry.lim) i
    .ok (⟨p, 0⟩ : ParRec α)) (fun e => ⟨e.lim, 0⟩) fun i hi => by
      beta_reduce
      rw [rd_ok (by simpa using hi), ok_bind]; simp
  rw [h1, ok_bind, hv, List.length_map, hl, h2, ok_bind, hloc, ok_bind, List.map_append, List.map_append]

/-- A configuration with one function and an image with one of its own. -/
example : ∃ plan own : List (SetWritten XR), ∃ st, OwnSays st own ∧ Says oneSet plan ∧ Filled plan ∧ (∀ s ∈ own, s.fns.length = 1) ∧ (functions (plan ++ own)).length = 2 ∧
    (buildImage oneClass oneSet { ImgInfo.init with functions := some st }).map (Option.map fun b => (b.fns.length, b.total)) = .ok (some (2, 6)) := by
  refine ⟨[⟨⟨.fin 1, ParInfo.zero⟩, ⟨.fin 2, ParInfo.zero⟩, [⟨['F'], [], [('a' :: [], ['b'])], [⟨.fin 3, ParInfo.zero⟩]⟩]⟩],
    [⟨⟨.fin 4, ParInfo.zero⟩, ⟨.fin 5, ParInfo.zero⟩, [⟨['F'], [], [], [⟨.fin 6, ParInfo.zero⟩]⟩]⟩],
    ⟨[['F']], [[]], [.fin 4, .fin 5, .fin 6], [ParInfo.zero, ParInfo.zero, ParInfo.zero], [0], false, [], 1, false⟩,
    ⟨rfl, rfl, rfl, rfl, rfl⟩, ⟨rfl, rfl, rfl, rfl, rfl, rfl⟩, ⟨by simp, by simp⟩, by simp, rfl, ?_⟩
  rfl

end Imfit
