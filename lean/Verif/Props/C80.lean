import Verif.Lemmas.DriverMulti
import Verif.Lemmas.DE

/-!
# C80 — Starting a fit to several images

Without functions of single images, and if the counter of their parameters happened to be zero, the solver starts from the descriptions of the images (from
the second on) followed by the values of the configuration file, positions moved into the section of the image they belong to. The counter has no value,
however (`C80_uninitialised_false`); with parameters of single images a fit is never started (`C80_local_false`, `C80_overrun_false`); and optional
parameters are ignored (`C80_optional_false`).
-/

namespace Imfit

open Spec FP

variable {α : Type}

/-- C80, if there are no functions of single images and the counter is zero at the start. -/
theorem C80_partial [FP α] (cat : Catalogue) (c : Config α) (plan : List (SetWritten α)) (im : ImgInfo α) (is : List (ImgInfo α)) (o₀ : Int × Int)
    (os : List (Int × Int)) (hs : Says c plan) (hf : Filled plan) (hu : ∀ f ∈ functions plan, ∃ ps, Usable cat f ps ∧ ps.length = f.entries.length)
    (hno : ∀ i ∈ im :: is, i.functions = none) (ho : os.length = is.length) :
    ∃ st : FitStart α, startMulti cat (some 0) c (im :: is) (o₀ :: os) = .ok (some st) ∧
      st.values = ((is.zip os).flatMap (fun p => describedIn p.1 p.2) ++ lines (plan.map (SetWritten.movedLimited o₀))).map Entry.value ∧
      st.recs.map ParRec.info = ((is.zip os).flatMap (fun p => describedIn p.1 p.2) ++ lines (plan.map (SetWritten.movedLimited o₀))).map Entry.lim ∧
      st.recs.map ParRec.offset = (os.flatMap fun o => [0, 0, 0, o.1, o.2]) ++
        plan.flatMap (fun s => o₀.1 :: o₀.2 :: s.fns.flatMap fun f => f.entries.map fun _ => 0) ∧
      st.nFree = (((is.zip os).flatMap (fun p => describedIn p.1 p.2) ++ lines plan).filter fun e => !e.lim.fixed).length ∧
      st.built.fns.map (fun f => (f.name, f.label)) = (functions plan).map (fun f => (f.name, f.label)) := by
  have hps : ∀ f ∈ functions plan, ∀ ps, Usable cat f ps → ps = parsOf cat f := fun f _ ps h => by simp [parsOf, h.known]
  have hu' : ∀ f ∈ functions plan, Usable cat f (parsOf cat f) := by
    intro f h
    obtain ⟨ps, h1, -⟩ := hu f h
    rw [← hps f h ps h1]; exact h1
  have hl : ∀ f ∈ functions plan, (parsOf cat f).length = f.entries.length := by
    intro f h
    obtain ⟨ps, h1, h2⟩ := hu f h
    rw [← hps f h ps h1]; exact h2
  obtain ⟨hz, hlen⟩ := zip_tagged cat plan hl
  have hT1 : (tagged cat plan).map Prod.fst = planNames cat plan := by rw [← hz, List.map_fst_zip (le_of_eq hlen)]
  have hT2 : (tagged cat plan).map Prod.snd = lines plan := by rw [← hz, List.map_snd_zip (le_of_eq hlen.symm)]
  have hTl : (tagged cat plan).length = (lines plan).length := by rw [← hT2, List.length_map]
  obtain ⟨flag, hd⟩ := imageDesc_eq im is
  have hb := buildImages_plan cat c plan hs hf (fun f h => ⟨by rw [(hu' f h).known]; rfl, (hu' f h).accepts⟩) (im :: is) hno
  have hadd := addFunctions_plan cat (fun _ => decide (0 < (im :: is).length)) (N_IMAGE_PARAMS * ((im :: is).length - 1))
    (descLabels ((im :: is).length - 1)) plan hf [] [] (fun _ => []) (fun k hk => ⟨rfl, true, rfl⟩)
    fun f h => ⟨by rw [(hu' f h).known]; rfl, Or.inl rfl, by simp⟩
  have hdl : (is.flatMap described).length = 5 * is.length := by
    rw [List.length_flatMap]; simp [described]; omega
  have hcount : finalModelCounts (some 0) (((functions plan).map (builtOf cat fun _ => [])).map fun f => f.pars.length).sum
      (startIndices 0 (plan.map SetWritten.fns)).length (N_IMAGE_PARAMS * ((im :: is).length - 1) + (planNames cat plan).length)
      (((im :: is).map fun _ => (⟨(functions plan).map (builtOf cat fun _ => []), planFlags plan, (planNames cat plan).length, planNames cat plan⟩ : Built)).map
        Built.total) = (some ((5 * is.length + (lines plan).length : ℕ) : ℤ), (im :: is).map fun _ => (0 : ℤ)) := by
    have e : (((((functions plan).map (builtOf cat fun _ => [])).map fun f => f.pars.length).sum : ℕ) : ℤ) + 2 * (startIndices 0 (plan.map SetWritten.fns)).length =
        (planNames cat plan).length := by
      rw [planNames_length, List.map_map]
      have : ∀ (n : ℕ) (l : List (List (FnWritten α))), (startIndices n l).length = l.length := by
        intro n l
        induction l generalizing n with
        | nil => rfl
        | cons a l ih => simp [startIndices, ih]
      rw [this, List.length_map, Nat.cast_add, Nat.cast_mul]
      rfl
    unfold finalModelCounts
    simp only [e]
    rw [hlen]
    simp [N_IMAGE_PARAMS, Function.comp_def]
  have hvals : multiValues (5 * (is.length : ℤ)).toNat (5 * is.length + (lines plan).length) ((is.flatMap described).map Entry.value) c (im :: is) =
      .ok ((is.flatMap described ++ lines plan).map Entry.value) := by
    have := multiValues_eq ((is.flatMap described).map Entry.value) c (im :: is) (allLocal_none _ hno).2
    rw [List.length_map, hdl, hs.vals, List.length_map] at this
    rw [show (5 * (is.length : ℤ)).toNat = 5 * is.length by omega, this, List.map_append]
  have hrecs : multiRecs (5 * (is.length : ℤ)).toNat ((is.flatMap described).map Entry.lim) c (im :: is) =
      .ok ((is.flatMap described ++ lines plan).map fun e => (⟨e.lim, 0⟩ : ParRec α)) := by
    have := multiRecs_eq (is.flatMap described) (lines plan) c hs.vals hs.lims (im :: is) hno
    rw [hdl] at this
    rw [show (5 * (is.length : ℤ)).toNat = 5 * is.length by omega, this]
  have hcor := correctOffsets_eq is o₀ os ho (tagged cat plan)
  have hslots : slots ((is.flatMap described).map Slot.init ++ (tagged cat plan).map fun p => Slot.init p.2) =
      ((is.flatMap described ++ lines plan).map Entry.value, (is.flatMap described ++ lines plan).map fun e => (⟨e.lim, 0⟩ : ParRec α)) := by
    rw [← hT2]
    simp [slots, Slot.init, Function.comp_def]
  rw [hslots, hT1, hTl] at hcor
  have key : startMulti cat (some 0) c (im :: is) (o₀ :: os) = .ok (some ⟨⟨(functions plan).map (builtOf cat fun _ => []), planFlags plan,
      5 * is.length + (lines plan).length, descLabels is.length ++ planNames cat plan⟩,
      ((is.zip os).flatMap (fun p => shiftedDesc p.1 p.2) ++ (tagged cat plan).map (shiftedGlobal o₀)).map Prod.fst,
      ((is.zip os).flatMap (fun p => shiftedDesc p.1 p.2) ++ (tagged cat plan).map (shiftedGlobal o₀)).map Prod.snd,
      countFree (5 * is.length + (lines plan).length) ((is.flatMap described ++ lines plan).map fun e => (⟨e.lim, 0⟩ : ParRec α))⟩) := by
    unfold startMulti
    rw [hd, ok_bind, hb, ok_bind]
    simp only
    rw [hs.names, hs.labels, hs.starts, hadd, ok_bind]
    simp only
    rw [hcount]
    simp only [knownTotal, ok_bind, Int.toNat_natCast]
    rw [if_neg (by rw [(allLocal_none _ hno).2, hs.vals]; simp), hrecs, ok_bind, hvals, ok_bind, List.length_cons, Nat.add_sub_cancel, hcor, ok_bind]
    simp [slots]
  have hglob : (tagged cat plan).map (fun p => if p.1 = kX0 then p.2.movedLimited o₀.1 else if p.1 = kY0 then p.2.movedLimited o₀.2 else p.2) =
      lines (plan.map (SetWritten.movedLimited o₀)) := by
    rw [tagged_map cat plan hl _ FnWritten.entries]
    · simp [lines, List.flatMap_map, SetWritten.movedLimited, kX0, kY0]
    · intro f h
      have hx := (hu' f h).noX
      have hy := (hu' f h).noY
      have hlf := hl f h
      generalize parsOf cat f = ps at hx hy hlf
      generalize f.entries = es at hlf
      induction ps generalizing es with
      | nil => cases es with
        | nil => rfl
        | cons e es => simp at hlf
      | cons p ps ih => cases es with
        | nil => simp at hlf
        | cons e es =>
          rw [List.zip_cons_cons, List.map_cons, ih (fun h => hx (by simp [h])) (fun h => hy (by simp [h])) es (by simpa using hlf)]
          have h1 : p ≠ kX0 := fun h => hx (by simp [h, kX0])
          have h2 : p ≠ kY0 := fun h => hy (by simp [h, kY0])
          simp [h1, h2]
  refine ⟨_, key, ?_, ?_, ?_, ?_, ?_⟩
  · simp only [List.map_append, ← hglob, List.map_map, List.map_flatMap]
    congr 1
    apply List.map_congr_left
    intro p _
    simp only [Function.comp, shiftedGlobal]
    split
    · rfl
    · split <;> rfl
  · simp only [List.map_append, ← hglob, List.map_map, List.map_flatMap]
    congr 1
    · congr 1
      funext p
      simp only [shiftedDesc, describedIn, List.map_cons, List.map_nil, Slot.init, Slot.shift, shiftLimited, Entry.movedLimited, Function.comp, cond_eq_ite]
      rfl
    · apply List.map_congr_left
      intro p _
      simp only [Function.comp, shiftedGlobal]
      have : ∀ d : ℤ, (Slot.shift d (Slot.init p.2)).2.info = (p.2.movedLimited d).lim := by
        intro d
        simp only [Slot.init, Slot.shift, shiftLimited, Entry.movedLimited, cond_eq_ite]
        rfl
      split
      · exact this _
      · split
        · exact this _
        · rfl
  · simp only [List.map_append, List.map_map, List.map_flatMap]
    congr 1
    · have : ∀ (a : List (ImgInfo α)) (b : List (Int × Int)), b.length = a.length →
          ((a.zip b).flatMap fun p => (shiftedDesc p.1 p.2).map (ParRec.offset ∘ Prod.snd)) = b.flatMap fun o => [0, 0, 0, o.1, o.2] := by
        intro a
        induction a with
        | nil => intro b hb; simp at hb; subst hb; rfl
        | cons i a ih => intro b hb; cases b with
          | nil => simp at hb
          | cons o b => rw [List.zip_cons_cons, List.flatMap_cons, ih b (by simpa using hb), List.flatMap_cons]; rfl
      exact this is os ho
    · have e : (tagged cat plan).map (ParRec.offset ∘ Prod.snd ∘ shiftedGlobal o₀) = (tagged cat plan).map fun p => offsetOf o₀.1 o₀.2 p.1 := by
        apply List.map_congr_left
        intro p _
        simp only [Function.comp, shiftedGlobal, offsetOf]
        split
        · rfl
        · split <;> rfl
      rw [e, tagged_map cat plan hl _ (fun f => f.entries.map fun _ => 0)]
      · rfl
      · intro f h
        exact zip_offset _ _ _ _ (hl f h) (hu' f h).noX (hu' f h).noY
  · simp only
    rw [countFree_eq]
    have e1 : ((is.zip os).flatMap (fun p => describedIn p.1 p.2)).map (fun e => e.lim.fixed) = (is.flatMap described).map fun e => e.lim.fixed := by
      have : ∀ (a : List (ImgInfo α)) (b : List (Int × Int)), b.length = a.length →
          ((a.zip b).flatMap (fun p => describedIn p.1 p.2)).map (fun e => e.lim.fixed) = (a.flatMap described).map fun e => e.lim.fixed := by
        intro a
        induction a with
        | nil => intro b hb; rfl
        | cons i a ih => intro b hb; cases b with
          | nil => simp at hb
          | cons o b =>
            rw [List.zip_cons_cons, List.flatMap_cons, List.map_append, ih b (by simpa using hb), List.flatMap_cons, List.map_append]; rfl
      exact this is os ho
    have e2 : ((((is.zip os).flatMap (fun p => describedIn p.1 p.2)) ++ lines plan).filter fun e => !e.lim.fixed).length =
        ((is.flatMap described ++ lines plan).map fun e => e.lim.fixed).countP fun b => !b := by
      rw [List.map_append, ← e1, ← List.map_append, List.countP_map, List.countP_eq_length_filter]; rfl
    have e3 : (((is.flatMap described ++ lines plan).map fun e => (⟨e.lim, 0⟩ : ParRec α)).filter fun r => r.info.fixed).length =
        ((is.flatMap described ++ lines plan).map fun e => e.lim.fixed).countP id := by
      rw [List.countP_map, ← List.countP_eq_length_filter, List.countP_map]; rfl
    have e4 : 5 * is.length + (lines plan).length = ((is.flatMap described ++ lines plan).map fun e => e.lim.fixed).length := by
      rw [List.length_map, List.length_append, hdl]
    rw [e2, e3, e4]
    generalize ((is.flatMap described ++ lines plan).map fun e => e.lim.fixed) = B
    induction B with
    | nil => rfl
    | cons b B ih => cases b <;> simp at ih ⊢ <;> omega
  · simp [builtOf]

/-- As the program is, the number of parameters is computed from a counter without a value. -/
theorem C80_uninitialised_false [FP α] (cat : Catalogue) (c : Config α) (plan : List (SetWritten α)) (im : ImgInfo α) (is : List (ImgInfo α))
    (offsets : List (Int × Int)) (hs : Says c plan) (hf : Filled plan) (hu : ∀ f ∈ functions plan, ∃ ps, Usable cat f ps)
    (hno : ∀ i ∈ im :: is, i.functions = none) : startMulti cat none c (im :: is) offsets = .error .uninit := by
  have hk : ∀ f ∈ functions plan, (cat.params f.name).isSome ∧ cat.accepts f.name = true := fun f h => by
    obtain ⟨ps, h⟩ := hu f h
    exact ⟨by rw [h.known]; rfl, h.accepts⟩
  obtain ⟨flag, hd⟩ := imageDesc_eq im is
  have hb := buildImages_plan cat c plan hs hf hk (im :: is) hno
  have hadd := addFunctions_plan cat (fun _ => decide (0 < (im :: is).length)) (N_IMAGE_PARAMS * ((im :: is).length - 1))
    (descLabels ((im :: is).length - 1)) plan hf [] [] (fun _ => []) (fun k hk => ⟨rfl, true, rfl⟩)
    fun f h => ⟨(hk f h).1, Or.inl rfl, by simp⟩
  unfold startMulti
  rw [hd, ok_bind, hb, ok_bind]
  simp only
  rw [hs.names, hs.labels, hs.starts, hadd, ok_bind]
  rfl

theorem forN_stuck {σ : Type} (n : Nat) (s : σ) (f : Nat → σ → Res σ) (m : Nat) (hm : m < n) (hf : ∀ t s', f m t ≠ .ok s') : ∀ s', forN n s f ≠ .ok s' := by
  induction n with
  | zero => omega
  | succ n ih =>
    intro s' h
    unfold forN at h
    obtain ⟨t, h1, h2⟩ := bind_ok h
    by_cases hmn : m = n
    · subst hmn; exact hf t s' h2
    · exact ih (by omega) t h1

/-- With parameters of single images no fit is ever started, whatever the counter holds: the values of the configuration file are read past their end. -/
theorem C80_local_false [FP α] (cat : Catalogue) (per0 : Option Int) (c : Config α) (ims : List (ImgInfo α)) (offsets : List (Int × Int))
    (im : ImgInfo α) (hi : im ∈ ims) (ls : PState0 α) (hl : im.functions = some ls) (hne : ls.vals ≠ []) (st : FitStart α) :
    startMulti cat per0 c ims offsets ≠ .ok (some st) := by
  intro h
  have hloc : 0 < (localVals ims).length := by
    apply List.length_pos_of_ne_nil
    intro h0
    apply hne
    unfold localVals at h0
    rw [List.flatMap_eq_nil_iff] at h0
    have := h0 im hi
    rw [hl] at this
    exact this
  cases ims with
  | nil => simp at hi
  | cons i is =>
    obtain ⟨flag, hd⟩ := imageDesc_eq i is
    unfold startMulti at h
    rw [hd, ok_bind] at h
    obtain ⟨bs, -, h⟩ := bind_ok h
    cases bs with
    | none => simp at h
    | some bs =>
      simp only at h
      obtain ⟨b, -, h⟩ := bind_ok h
      cases b with
      | none => simp at h
      | some b =>
        simp only at h
        obtain ⟨total, -, h⟩ := bind_ok h
        split at h
        · simp at h
        · rename_i htot
          push Not at htot
          obtain ⟨recs, -, h⟩ := bind_ok h
          obtain ⟨vals, hv, -⟩ := bind_ok h
          unfold multiValues at hv
          obtain ⟨a, -, hv⟩ := bind_ok hv
          obtain ⟨b', hb', -⟩ := bind_ok hv
          refine forN_stuck _ _ _ c.vals.length ?_ ?_ _ hb'
          · omega
          · intro t s' ht
            beta_reduce at ht
            rw [rd_oob (le_refl _)] at ht
            simp [bind, Except.bind] at ht

theorem addLoop_no_extra (cat : Catalogue) (acc : Str → Bool) (labels : List Str) (flags : List Bool) (i : Nat) (names : List Str) (fs : List FnBuilt)
    (h : addLoop cat acc labels [] flags i names = .ok (some fs)) : ∀ f ∈ fs, f.extra = [] := by
  induction names generalizing i fs with
  | nil =>
    simp only [addLoop, Except.ok.injEq, Option.some.injEq] at h
    subst h
    simp
  | cons n ns ih =>
    unfold addLoop at h
    obtain ⟨o, h1, h⟩ := bind_ok h
    cases o with
    | none => simp at h
    | some f =>
      simp only at h
      obtain ⟨o', h2, h⟩ := bind_ok h
      cases o' with
      | none => simp at h
      | some fs' =>
        simp only [Except.ok.injEq, Option.some.injEq] at h
        subst h
        intro g hg
        rcases List.mem_cons.1 hg with rfl | hg
        · unfold addOne at h1
          split at h1
          · simp at h1
          · obtain ⟨lab, -, h1⟩ := bind_ok h1
            obtain ⟨e, he, h1⟩ := bind_ok h1
            simp only [extraFor, List.length_nil, if_true, Except.ok.injEq] at he
            split at h1
            · simp at h1
            · obtain ⟨b, -, h1⟩ := bind_ok h1
              split at h1
              · simp only [Except.ok.injEq, Option.some.injEq] at h1
                rw [← h1, ← he]
              · simp at h1
        · exact ih _ _ h2 g hg

/-- Optional parameters of the configuration file are ignored: none of the functions is given any. -/
theorem C80_optional_false [FP α] (cat : Catalogue) (per0 : Option Int) (c : Config α) (ims : List (ImgInfo α)) (offsets : List (Int × Int))
    (st : FitStart α) (h : startMulti cat per0 c ims offsets = .ok (some st)) : ∀ f ∈ st.built.fns, f.extra = [] := by
  unfold startMulti at h
  obtain ⟨d, -, h⟩ := bind_ok h
  obtain ⟨bs, -, h⟩ := bind_ok h
  cases bs with
  | none => simp at h
  | some bs =>
    simp only at h
    obtain ⟨b, hb, h⟩ := bind_ok h
    cases b with
    | none => simp at h
    | some b =>
      simp only at h
      obtain ⟨total, -, h⟩ := bind_ok h
      split at h
      · simp at h
      · obtain ⟨recs, -, h⟩ := bind_ok h
        obtain ⟨vals, -, h⟩ := bind_ok h
        obtain ⟨s, -, h⟩ := bind_ok h
        simp only [Except.ok.injEq, Option.some.injEq] at h
        rw [← h]
        unfold addFunctions at hb
        obtain ⟨fs, hfs, hb⟩ := bind_ok hb
        cases fs with
        | none => simp at hb
        | some fs =>
          simp only at hb
          obtain ⟨dd, -, hb⟩ := bind_ok hb
          simp only [Except.ok.injEq, Option.some.injEq] at hb
          rw [← hb]
          exact addLoop_no_extra cat _ _ _ _ _ _ hfs

/-- A catalogue with a class `F` of one parameter. -/
def oneClass : Catalogue := ⟨fun n => if n = ['F'] then some [['A']] else none, fun _ _ => 1, fun _ => true⟩

/-- A configuration with one function set, and two images of which the second has a function set of its own with `n` functions. -/
noncomputable def oneSet : Config XR := ⟨[], [['F']], [[]], [.fin 1, .fin 2, .fin 3], [ParInfo.zero, ParInfo.zero, ParInfo.zero], [0], false, [[('a' :: [], ['b'])]]⟩

noncomputable def ownFunctions (n : Nat) : List (ImgInfo XR) :=
  [ImgInfo.init, { ImgInfo.init with functions := some ⟨List.replicate n ['F'], List.replicate n [], List.replicate (n + 2) (.fin 1),
    List.replicate (n + 2) ParInfo.zero, [0], false, [], n, false⟩ }]

/-- Concretely: with one function of its own in the second image, values are read past their end (even with the counter at zero); with two functions in
one set, the start indices are. -/
theorem C80_overrun_false :
    (do let r ← startMulti oneClass (some 0) oneSet (ownFunctions 1) [(0, 0), (0, 0)]; .ok r.isSome) = (.error .oob : Res Bool) ∧
    (do let r ← startMulti oneClass (some 0) oneSet (ownFunctions 2) [(0, 0), (0, 0)]; .ok r.isSome) = (.error .oob : Res Bool) := by
  refine ⟨?_, ?_⟩ <;> decide +kernel

/-- Without them the fit starts: eight parameters, the position of the second image and the centre of the set moved each by its own offset. -/
example : (do let r ← startMulti oneClass (some 0) oneSet [ImgInfo.init, ImgInfo.init] [(10, 20), (30, 40)]
              .ok (r.map fun s => (s.nFree, s.recs.map ParRec.offset))) = (.ok (some (8, [0, 0, 0, 30, 40, 10, 20, 0])) : Res _) := by decide +kernel

/-- `oneSet` is what a plan says. -/
example : ∃ plan : List (SetWritten XR), Says oneSet plan ∧ Filled plan ∧ ∀ f ∈ functions plan, ∃ ps, Usable oneClass f ps ∧ ps.length = f.entries.length := by
  refine ⟨[⟨⟨.fin 1, ParInfo.zero⟩, ⟨.fin 2, ParInfo.zero⟩, [⟨['F'], [], [('a' :: [], ['b'])], [⟨.fin 3, ParInfo.zero⟩]⟩]⟩], ⟨rfl, rfl, rfl, rfl, rfl, rfl⟩,
    ⟨by simp, by simp⟩, ?_⟩
  intro f hf
  simp only [functions, List.flatMap_cons, List.flatMap_nil, List.append_nil, List.mem_singleton] at hf
  subst hf
  exact ⟨[['A']], ⟨rfl, Or.inr (by simp [oneClass]), rfl, by simp, by simp⟩, rfl⟩

end Imfit
