import Verif.Props.C13

/-!
# C14 — names, values and headers line up
-/

namespace Imfit

open Spec

variable {α : Type}

/-- Slots along a flagged function list. -/
def slotsFl : Nat → Nat → List (Nat × Bool) → List Slot
  | _, _, [] => []
  | k, n, (size, start) :: rest =>
    (if start then [Slot.x0 k, Slot.y0 k] else []) ++ (List.range size).map (Slot.par n) ++
      slotsFl (if start then k + 1 else k) (n + 1) rest

theorem slotsFl_tail (k n : Nat) (s : List Nat) (rest : List (Nat × Bool)) :
    slotsFl k n (s.map (·, false) ++ rest) = fnSlots n s ++ slotsFl k (n + s.length) rest := by
  induction s generalizing n with
  | nil => rfl
  | cons p s ih =>
    simp only [List.map_cons, List.cons_append, slotsFl, Bool.false_eq_true, if_false, List.nil_append, ih, fnSlots,
      List.append_assoc, List.length_cons]
    rw [show n + 1 + s.length = n + (s.length + 1) by omega]

theorem slotsFl_flagged (k n : Nat) (sets : List (List Nat)) (h : ∀ s ∈ sets, s ≠ []) :
    slotsFl k n (flagged sets) = slotsFrom k n sets := by
  induction sets generalizing k n with
  | nil => rfl
  | cons s rest ih =>
    cases s with
    | nil => exact absurd rfl (h [] (by simp))
    | cons f s =>
      simp only [flagged, slotsFrom, List.cons_append, slotsFl, if_true, fnSlots, List.length_cons]
      rw [slotsFl_tail, ih _ _ (fun t ht => h t (by simp [ht]))]
      simp only [List.append_assoc, List.nil_append]
      rw [show n + 1 + s.length = n + (s.length + 1) by omega]

theorem map_par_names (pre : List (List Str)) (names : List Str) (post : List (List Str)) (g : Str → Str) :
    (List.range names.length).map (fun j => g (((pre ++ names :: post).getD pre.length []).getD j [])) = names.map g := by
  apply List.ext_getElem
  · simp
  · intro i h1 h2
    have : i < names.length := by simpa using h1
    simp [this]

/-- Sizes of a flagged list of functions given by their parameter names. -/
def sizesFl (fl : List (List Str × Bool)) : List (Nat × Bool) := fl.map fun p => (p.1.length, p.2)

theorem populate_eq (fl : List (List Str × Bool)) (pre : List (List Str)) (k : Nat) :
    populateNames fl = (slotsFl k pre.length (sizesFl fl)).map (slotName (pre ++ fl.map Prod.fst)) := by
  induction fl generalizing pre k with
  | nil => rfl
  | cons p rest ih =>
    obtain ⟨names, start⟩ := p
    simp only [populateNames, sizesFl, List.map_cons, slotsFl, List.map_append, List.map_map]
    congr 1
    · congr 1
      · cases start <;> rfl
      · exact (map_par_names pre names (rest.map Prod.fst) id).symm.trans (by rfl) |>.symm.trans (by simp) |>.symm
    · have := ih (pre ++ [names]) (if start then k + 1 else k)
      simpa [sizesFl] using this

theorem populate_length (fl : List (List Str × Bool)) (k n : Nat) : (slotsFl k n (sizesFl fl)).length = (populateNames fl).length := by
  induction fl generalizing k n with
  | nil => rfl
  | cons p rest ih =>
    obtain ⟨names, start⟩ := p
    cases start <;> simp [populateNames, sizesFl, slotsFl] <;> exact ih _ _

theorem dec_eq (n : Nat) : showNat n = dec n := by simp [showNat, dec, Nat.repr]

theorem dec_no_tab (n : Nat) : '\t' ∉ dec n := by
  rw [← dec_eq]
  intro h
  have := Nat.isDigit_of_mem_toDigits (by decide) (by decide) h
  simp [Char.isDigit] at this

theorem tabFields_cons (t rest : Str) (h1 : '\t' ∉ t) (h2 : t ≠ []) : tabFields (t ++ '\t' :: rest) = t :: tabFields rest := by
  unfold tabFields
  rw [List.splitOn_append_cons_self_of_not_mem h1]
  simp [h2]

theorem tabFields_tab (rest : Str) : tabFields ('\t' :: rest) = tabFields rest := by
  unfold tabFields
  rw [show '\t' :: rest = [] ++ '\t' :: rest from rfl, List.splitOn_append_cons_self_of_not_mem (by simp)]
  simp

theorem tabFields_flat (g : Str → Str) (hg : ∀ s, '\t' ∉ s → '\t' ∉ g s) (hne : ∀ s, g s ≠ []) (names : List Str)
    (h : ∀ s ∈ names, '\t' ∉ s) (rest : Str) :
    tabFields (names.flatMap (fun s => g s ++ ['\t']) ++ rest) = names.map g ++ tabFields rest := by
  induction names with
  | nil => rfl
  | cons s names ih =>
    have := ih (fun t ht => h t (by simp [ht]))
    simp only [List.flatMap_cons, List.append_assoc, List.cons_append, List.nil_append, List.map_cons]
    rw [tabFields_cons _ _ (hg s (h s (by simp))) (hne s), this]

theorem headerFn_eq (pre names post : List Str) (n tot : Nat) (ht : pre.length + names.length ≤ tot) :
    headerFn (pre ++ names ++ post) tot n pre.length names.length =
      .ok (names.flatMap fun s => (s ++ ['_'] ++ dec (n + 1)) ++ ['\t']) := by
  unfold headerFn
  rw [forN_ok names.length [] _ (fun z => (names.take z).flatMap fun s => (s ++ ['_'] ++ dec (n + 1)) ++ ['\t']) (by simp)]
  · simp
  · intro z hz
    have h1 : rd (pre ++ names ++ post) (pre.length + z) = .ok names[z] := by
      rw [rd_ok (by simp; omega)]
      congr 1
      rw [List.getElem_append_left (by simp; omega), List.getElem_append_right (by omega)]
      simp
    unfold getParameterName
    rw [if_pos (by omega), h1]
    simp only [ok_bind, pure_eq_ok, nameText, Option.getD_some]
    rw [List.take_succ_eq_append_getElem hz, List.flatMap_append]
    simp [dec_eq]

theorem headerLoop_eq (fl : List (List Str × Bool)) (hn : ∀ p ∈ fl, ∀ s ∈ p.1, '\t' ∉ s) (pre : List Str) (preF : List (List Str))
    (k tot : Nat) (ht : tot = pre.length + (populateNames fl).length) :
    ∃ str, headerLoop (pre ++ populateNames fl) tot (sizesFl fl) k preF.length pre.length = .ok str ∧
      tabFields str = (slotsFl k preF.length (sizesFl fl)).map (slotHeader (preF ++ fl.map Prod.fst)) := by
  induction fl generalizing pre preF k with
  | nil => exact ⟨[], by simp [populateNames, sizesFl, headerLoop], by simp [tabFields, slotsFl, sizesFl]⟩
  | cons p rest ih =>
    obtain ⟨names, start⟩ := p
    have hnames : ∀ s ∈ names, '\t' ∉ s := hn (names, start) (by simp)
    have hfn : ∀ rs : Str, tabFields (names.flatMap (fun s => (s ++ ['_'] ++ dec (preF.length + 1)) ++ ['\t']) ++ rs) =
        names.map (fun s => s ++ ['_'] ++ dec (preF.length + 1)) ++ tabFields rs := fun rs =>
      tabFields_flat (fun s => s ++ ['_'] ++ dec (preF.length + 1))
        (by intro s hs; simp [hs, dec_no_tab]) (by simp) names hnames rs
    have hcol : names.map (fun s => s ++ ['_'] ++ dec (preF.length + 1)) =
        ((List.range names.length).map (Slot.par preF.length)).map (slotHeader (preF ++ ((names, start) :: rest).map Prod.fst)) := by
      rw [List.map_map]
      exact (map_par_names preF names (rest.map Prod.fst) (fun s => s ++ ['_'] ++ dec (preF.length + 1))).symm
    cases start with
    | false =>
      obtain ⟨str, g1, g2⟩ := ih (fun q hq => hn q (by simp [hq])) (pre ++ names) (preF ++ [names]) k
        (by rw [ht]; simp [populateNames]; omega)
      have hf := headerFn_eq pre names (populateNames rest) preF.length tot (by rw [ht]; simp [populateNames])
      simp only [populateNames, Bool.false_eq_true, if_false, List.nil_append] at *
      simp only [sizesFl, List.map_cons, headerLoop, Bool.false_eq_true, if_false, List.nil_append]
      rw [← List.append_assoc, hf]
      simp only [sizesFl, List.length_append, List.length_singleton] at g1
      simp only [ok_bind, g1]
      refine ⟨_, rfl, ?_⟩
      rw [hfn, g2, hcol]
      simp [slotsFl, sizesFl]
    | true =>
      obtain ⟨str, g1, g2⟩ := ih (fun q hq => hn q (by simp [hq])) (pre ++ [['X', '0'], ['Y', '0']] ++ names) (preF ++ [names]) (k + 1)
        (by rw [ht]; simp [populateNames]; omega)
      have hf := headerFn_eq (pre ++ [['X', '0'], ['Y', '0']]) names (populateNames rest) preF.length tot
        (by rw [ht]; simp [populateNames]; omega)
      simp only [populateNames, if_true] at *
      simp only [sizesFl, List.map_cons, headerLoop, if_true]
      have e : pre ++ ([['X', '0'], ['Y', '0']] ++ names ++ populateNames rest) =
        pre ++ [['X', '0'], ['Y', '0']] ++ names ++ populateNames rest := by simp
      simp only [sizesFl, List.length_append, List.length_singleton] at g1
      simp only [List.length_append, List.length_cons, List.length_nil, Nat.zero_add] at hf g1
      rw [e, show pre.length + 2 = pre.length + (1 + 1) from rfl] at *
      rw [hf]
      simp only [ok_bind, g1]
      refine ⟨_, rfl, ?_⟩
      have e2 : ∀ rs : Str, ("X0_".toList ++ showNat (k + 1) ++ "\t\t".toList ++ "Y0_".toList ++ showNat (k + 1) ++ "\t\t".toList) ++ rs =
          ("X0_".toList ++ dec (k + 1)) ++ '\t' :: '\t' :: (("Y0_".toList ++ dec (k + 1)) ++ '\t' :: '\t' :: rs) := by
        intro rs; simp [dec_eq]
      rw [List.append_assoc, e2, tabFields_cons _ _ (by simp [dec_no_tab]) (by simp), tabFields_tab,
        tabFields_cons _ _ (by simp [dec_no_tab]) (by simp), tabFields_tab, hfn, g2, hcol]
      simp [slotsFl, sizesFl, slotHeader]

/-- A model described by the parameter names of its functions, set by set: sets are non-empty. -/
def NameSets (sets : List (List (List Str))) : Prop := sets ≠ [] ∧ ∀ s ∈ sets, s ≠ []

/-- Parameter counts of a model described by names. -/
def nameSizes (sets : List (List (List Str))) : List (List Nat) := sets.map (List.map List.length)

theorem slots_eq (sets : List (List (List Str))) (h : NameSets sets) :
    slotsFl 0 0 (sizesFl (flagged sets)) = slots (nameSizes sets) := by
  have : sizesFl (flagged sets) = flagged (nameSizes sets) := (flagged_map List.length sets).symm
  rw [this, slotsFl_flagged]
  · rfl
  · intro s hs
    simp only [nameSizes, List.mem_map] at hs
    obtain ⟨t, ht, rfl⟩ := hs
    simpa using h.2 t ht

/-- The function list that `DefineFunctionSets` produces for a model: parameter counts and start flags. -/
theorem C14_flags (sets : List (List (List Str))) (h : NameSets sets) :
    ∃ flags tot, defineFunctionSets (sets.flatten.map List.length) (startIndices 0 sets) 0 = .ok (flags, tot) ∧
      tot = (slots (nameSizes sets)).length ∧
      sets.flatten.zip flags = flagged sets ∧ (sets.flatten.map List.length).zip flags = sizesFl (flagged sets) := by
  have hne : ∀ s ∈ nameSizes sets, s ≠ [] := by
    intro s hs
    simp only [nameSizes, List.mem_map] at hs
    obtain ⟨t, ht, rfl⟩ := hs
    simpa using h.2 t ht
  have h1 : sets.flatten.map List.length = (nameSizes sets).flatten := by simp [nameSizes, List.map_flatten]
  have h2 : ∀ m (l : List (List (List Str))), startIndices m l = startIndices m (nameSizes l) := by
    intro m l
    induction l generalizing m with
    | nil => rfl
    | cons s l ih => simp [startIndices, nameSizes, ih]
  have h3 : (flagged (nameSizes sets)).map Prod.snd = (flagged sets).map Prod.snd := by
    rw [nameSizes, flagged_map]; simp
  have hz : ∀ (l : List (List Str × Bool)), (l.map Prod.fst).zip (l.map Prod.snd) = l := by
    intro l
    induction l with
    | nil => rfl
    | cons a l ih => simp [ih]
  have hz2 : ∀ (l : List (List Str × Bool)), ((l.map Prod.fst).map List.length).zip (l.map Prod.snd) = sizesFl l := by
    intro l
    induction l with
    | nil => rfl
    | cons a l ih => simpa [sizesFl] using ih
  refine ⟨(flagged sets).map Prod.snd, 0 + ((nameSizes sets).flatten.sum + 2 * (nameSizes sets).length), ?_, ?_, ?_, ?_⟩
  · rw [h1, h2, ← h3]
    exact defineFunctionSets_eq (nameSizes sets) hne (by simpa [nameSizes] using h.1) 0
  · rw [← slots_eq sets h, populate_length]
    have : ∀ l : List (List (List Str)), (∀ s ∈ l, s ≠ []) →
        (populateNames (flagged l)).length = (nameSizes l).flatten.sum + 2 * (nameSizes l).length := by
      intro l hl
      induction l with
      | nil => rfl
      | cons s l ih =>
        have ih := ih (fun t ht => hl t (by simp [ht]))
        cases s with
        | nil => exact absurd rfl (hl [] (by simp))
        | cons f s =>
          have aux : ∀ (s : List (List Str)) (r : List (List Str × Bool)), (populateNames (s.map (·, false) ++ r)).length =
              (s.map List.length).sum + (populateNames r).length := by
            intro s r
            induction s with
            | nil => simp
            | cons a s ih => simp [populateNames, ih]; omega
          simp only [flagged, List.cons_append, populateNames, if_true, List.length_append, List.length_cons, List.length_nil, aux, ih]
          simp [nameSizes]
          omega
    rw [this sets h.2]; simp
  · conv_lhs => rw [← flagged_fst sets]
    exact hz _
  · conv_lhs => rw [← flagged_fst sets]
    exact hz2 _

/-- C14, names: the i-th parameter name is the name of the i-th slot. -/
theorem C14_names (sets : List (List (List Str))) (h : NameSets sets) :
    populateNames (flagged sets) = (slots (nameSizes sets)).map (slotName sets.flatten) ∧
    ∀ i (hi : i < (slots (nameSizes sets)).length),
      getParameterName (populateNames (flagged sets)) (slots (nameSizes sets)).length i =
        .ok (some (slotName sets.flatten ((slots (nameSizes sets))[i]))) := by
  have h1 : populateNames (flagged sets) = (slots (nameSizes sets)).map (slotName sets.flatten) := by
    have := populate_eq (flagged sets) [] 0
    rw [List.length_nil, slots_eq sets h, flagged_fst, List.nil_append] at this
    exact this
  refine ⟨h1, ?_⟩
  intro i hi
  unfold getParameterName
  rw [if_pos hi, h1, rd_ok (by simpa using hi)]
  simp [ok_bind, pure_eq_ok]

/-- C14, header: after the leading comment mark, the columns of the header line are the header texts of the slots, in order. -/
theorem C14_header (sets : List (List (List Str))) (h : NameSets sets) (hn : ∀ s ∈ sets, ∀ f ∈ s, ∀ p ∈ f, '\t' ∉ p) :
    ∃ line, paramHeader (populateNames (flagged sets)) (slots (nameSizes sets)).length (sizesFl (flagged sets)) =
        .ok ("# ".toList ++ line) ∧
      tabFields line = (slots (nameSizes sets)).map (slotHeader sets.flatten) := by
  have hn' : ∀ p ∈ flagged sets, ∀ s ∈ p.1, '\t' ∉ s := by
    intro p hp s hs
    have : p.1 ∈ sets.flatten := by
      rw [← flagged_fst sets]; exact List.mem_map_of_mem hp
    obtain ⟨t, ht, hpt⟩ := List.mem_flatten.1 this
    exact hn t ht p.1 hpt s hs
  obtain ⟨str, g1, g2⟩ := headerLoop_eq (flagged sets) hn' [] [] 0 (slots (nameSizes sets)).length
    (by rw [← slots_eq sets h, populate_length]; simp)
  refine ⟨str, ?_, ?_⟩
  · unfold paramHeader
    simp only [List.nil_append, List.length_nil] at g1
    rw [g1]; rfl
  · rw [g2, List.length_nil, slots_eq sets h, List.nil_append, flagged_fst]

/-- Texts of the values from position `offset` on. -/
def valTexts [FP α] (fmt : α → Str) (params : List α) (ox oy : Int) (k n offset : Nat) (fl : List (Nat × Bool)) : List Str :=
  List.zipWith (fun s v => fmt (slotValue ox oy s v)) (slotsFl k n fl) (params.drop offset)

theorem horizFn_eq (fmt : α → Str) (sep : Str) (params : List α) (offset count : Nat) (h : offset + count ≤ params.length) :
    horizFn fmt sep params offset count = .ok (((params.drop offset).take count).flatMap fun v => sep ++ fmt v) := by
  unfold horizFn
  rw [forN_ok count [] _ (fun z => ((params.drop offset).take z).flatMap fun v => sep ++ fmt v) (by simp)]
  intro z hz
  rw [rd_ok (by omega)]
  simp only [ok_bind, pure_eq_ok]
  rw [List.take_succ_eq_append_getElem (by simp; omega), List.flatMap_append]
  simp

theorem zipWith_par (fmt : α → Str) [FP α] (ox oy : Int) (n count : Nat) (l : List α) (h : l.length = count) :
    List.zipWith (fun s v => fmt (slotValue ox oy s v)) ((List.range count).map (Slot.par n)) l = l.map fmt := by
  apply List.ext_getElem
  · simp [h]
  · intro i h1 h2; simp [slotValue]

theorem valTexts_cons [FP α] (fmt : α → Str) (params : List α) (ox oy : Int) (k n offset size : Nat) (start : Bool)
    (rest : List (Nat × Bool)) (off1 : Nat) (ho : off1 = if start then offset + 2 else offset) (h : off1 + size ≤ params.length) :
    valTexts fmt params ox oy k n offset ((size, start) :: rest) =
      (if start then [fmt (params.getD offset 0 + FP.lit (ox : ℚ)), fmt (params.getD (offset + 1) 0 + FP.lit (oy : ℚ))] else []) ++
      ((params.drop off1).take size).map fmt ++
      valTexts fmt params ox oy (if start then k + 1 else k) (n + 1) (off1 + size) rest := by
  have hsplit : params.drop off1 = (params.drop off1).take size ++ params.drop (off1 + size) := by
    rw [← List.drop_drop]; simp
  have key : List.zipWith (fun s v => fmt (slotValue ox oy s v))
      ((List.range size).map (Slot.par n) ++ slotsFl (if start then k + 1 else k) (n + 1) rest) (params.drop off1) =
      ((params.drop off1).take size).map fmt ++ valTexts fmt params ox oy (if start then k + 1 else k) (n + 1) (off1 + size) rest := by
    have hl : ((params.drop off1).take size).length = size := by simp; omega
    conv_lhs => rw [hsplit]
    rw [List.zipWith_append (by simp [hl]), zipWith_par fmt ox oy n size _ hl]
    rfl
  cases start with
  | false =>
    simp only [Bool.false_eq_true, if_false] at ho key ⊢
    subst ho
    simp only [valTexts, slotsFl, Bool.false_eq_true, if_false, List.nil_append]
    exact key
  | true =>
    simp only [if_true] at ho key ⊢
    subst ho
    have e : params.drop offset = params.getD offset 0 :: params.getD (offset + 1) 0 :: params.drop (offset + 2) := by
      rw [List.drop_eq_getElem_cons (by omega), List.drop_eq_getElem_cons (by omega)]
      congr 1
      · simp [List.getD_eq_getElem?_getD, show offset < params.length by omega]
      · congr 1
        simp [List.getD_eq_getElem?_getD, show offset + 1 < params.length by omega]
    simp only [valTexts, slotsFl, if_true, List.cons_append, List.nil_append, e, List.zipWith_cons_cons]
    simp only [slotValue]
    congr 2

theorem horizLoop_eq [FP α] (fmt : α → Str) (sep : Str) (params : List α) (ox oy : Int) (fl : List (Nat × Bool)) (k n offset : Nat)
    (hn : n ≠ 0) (h : params.length = offset + (slotsFl k n fl).length) :
    horizLoop fmt sep params ox oy fl n offset = .ok ((valTexts fmt params ox oy k n offset fl).flatMap fun v => sep ++ v) := by
  induction fl generalizing k n offset with
  | nil => simp [horizLoop, valTexts, slotsFl]
  | cons p rest ih =>
    obtain ⟨size, start⟩ := p
    let off1 := if start then offset + 2 else offset
    have hl : params.length = off1 + size + (slotsFl (if start then k + 1 else k) (n + 1) rest).length := by
      rw [h]; cases start <;> simp [slotsFl, off1] <;> omega
    have hxy : horizStart fmt sep params ox oy n offset start =
        .ok ((if start then [fmt (params.getD offset 0 + FP.lit (ox : ℚ)), fmt (params.getD (offset + 1) 0 + FP.lit (oy : ℚ))]
          else []).flatMap fun v => sep ++ v) := by
      cases start with
      | false => rfl
      | true =>
        have : offset + 2 ≤ params.length := by simp only [off1, if_true] at hl; omega
        simp only [horizStart, if_true, horizXY, if_neg hn]
        rw [rd_getD 0 (by omega), rd_getD 0 (by omega)]
        simp [ok_bind, pure_eq_ok]
    rw [valTexts_cons fmt params ox oy k n offset size start rest off1 rfl (by omega)]
    simp only [horizLoop]
    rw [hxy]
    simp only [ok_bind]
    have hf : horizFn fmt sep params (if start = true then offset + 2 else offset) size = _ :=
      horizFn_eq fmt sep params off1 size (by omega)
    rw [hf]
    simp only [ok_bind]
    have hr : horizLoop fmt sep params ox oy rest (n + 1) ((if start = true then offset + 2 else offset) + size) = _ :=
      ih (if start then k + 1 else k) (n + 1) (off1 + size) (by omega) hl
    rw [hr]
    simp only [ok_bind, pure_eq_ok, List.flatMap_append, List.flatMap_map]

theorem splitOn_flat (c : Char) (v : Str) (vs : List Str) (h : ∀ w ∈ v :: vs, c ∉ w) :
    (v ++ vs.flatMap fun w => [c] ++ w).splitOn c = v :: vs := by
  induction vs generalizing v with
  | nil => simpa using List.splitOn_eq_singleton (h v (by simp))
  | cons w vs ih =>
    have e : v ++ (w :: vs).flatMap (fun w => [c] ++ w) = v ++ c :: (w ++ vs.flatMap fun w => [c] ++ w) := by simp
    rw [e, List.splitOn_append_cons_self_of_not_mem (h v (by simp)), ih w (fun u hu => h u (by simp at hu ⊢; tauto))]

/-- C14, one-line dump: for every number format whose output does not contain the separator character, the pieces of the line are the
formatted values of the slots in order: X0 and Y0 with the image offset added, all others unchanged. -/
theorem C14_dump [FP α] (sets : List (List (List Str))) (h : NameSets sets) (fmt : α → Str) (c : Char) (hc : ∀ v, c ∉ fmt v)
    (params : List α) (hp : params.length = (slots (nameSizes sets)).length) (ox oy : Int) :
    ∃ line, horizLoop fmt [c] params ox oy (sizesFl (flagged sets)) 0 0 = .ok line ∧
      line.splitOn c = List.zipWith (fun s v => fmt (slotValue ox oy s v)) (slots (nameSizes sets)) params := by
  rw [← slots_eq sets h] at hp ⊢
  have hv : List.zipWith (fun s v => fmt (slotValue ox oy s v)) (slotsFl 0 0 (sizesFl (flagged sets))) params =
    valTexts fmt params ox oy 0 0 0 (sizesFl (flagged sets)) := rfl
  rw [hv]
  obtain ⟨s, rest, rfl⟩ := List.exists_cons_of_ne_nil h.1
  obtain ⟨f, s, rfl⟩ := List.exists_cons_of_ne_nil (h.2 s (by simp))
  have hfl : sizesFl (flagged ((f :: s) :: rest)) = (f.length, true) :: sizesFl (s.map (·, false) ++ flagged rest) := by
    simp [sizesFl, flagged]
  rw [hfl] at hp ⊢
  generalize sizesFl (s.map (·, false) ++ flagged rest) = fl at hp ⊢
  have hl : params.length = 0 + 2 + f.length + (slotsFl 1 1 fl).length := by
    rw [hp]; simp [slotsFl]; omega
  rw [valTexts_cons fmt params ox oy 0 0 0 f.length true fl 2 rfl (by omega)]
  simp only [horizLoop, horizStart, if_true, horizXY]
  rw [rd_getD 0 (by omega), rd_getD 0 (by omega)]
  simp only [ok_bind, pure_eq_ok]
  rw [horizFn_eq fmt [c] params (0 + 2) f.length (by omega)]
  simp only [ok_bind]
  rw [horizLoop_eq fmt [c] params ox oy fl 1 (0 + 1) (0 + 2 + f.length) (by omega) hl]
  simp only [ok_bind]
  refine ⟨_, rfl, ?_⟩
  have := splitOn_flat c (fmt (params.getD 0 0 + FP.lit (ox : ℚ)))
    (fmt (params.getD (0 + 1) 0 + FP.lit (oy : ℚ)) :: (((params.drop 2).take f.length).map fmt ++
      valTexts fmt params ox oy 1 1 (2 + f.length) fl)) (by
      intro w hw
      simp only [List.mem_cons, List.mem_append, List.mem_map] at hw
      rcases hw with rfl | rfl | ⟨v, _, rfl⟩ | hw
      · exact hc _
      · exact hc _
      · exact hc _
      · obtain ⟨i, hi, rfl⟩ := List.mem_iff_getElem.1 hw
        simp only [valTexts, List.getElem_zipWith]
        exact hc _)
  rw [List.flatMap_cons, List.flatMap_append, List.flatMap_map] at this
  simp only [List.append_assoc, List.cons_append, List.nil_append, Nat.zero_add] at this ⊢
  exact this

theorem offsetLoop_eq (ox oy : Int) (fl : List (Nat × Bool)) (k n : Nat) (pre : List Int) :
    offsetLoop ox oy fl pre.length (pre ++ List.replicate (slotsFl k n fl).length 0) =
      .ok (pre ++ (slotsFl k n fl).map (slotOffset ox oy)) := by
  induction fl generalizing k n pre with
  | nil => simp [offsetLoop, slotsFl]
  | cons p rest ih =>
    obtain ⟨size, start⟩ := p
    have hz : ((List.range size).map (Slot.par n)).map (slotOffset ox oy) = List.replicate size 0 := by
      rw [List.eq_replicate_iff]
      refine ⟨by simp, ?_⟩
      intro b hb
      simp only [List.mem_map] at hb
      obtain ⟨_, ⟨j, _, rfl⟩, rfl⟩ := hb
      rfl
    cases start with
    | false =>
      have := ih k (n + 1) (pre ++ List.replicate size 0)
      simp only [offsetLoop, offsetStart, Bool.false_eq_true, if_false, ok_bind, slotsFl, List.nil_append, List.map_append, hz,
        List.length_append, List.length_map, List.length_range]
      rw [← List.replicate_append_replicate]
      simpa using this
    | true =>
      have := ih (k + 1) (n + 1) (pre ++ [ox, oy] ++ List.replicate size 0)
      simp only [offsetLoop, offsetStart, if_true, slotsFl, List.map_append, hz]
      have hw : (wr (pre ++ List.replicate ([Slot.x0 k, Slot.y0 k] ++ (List.range size).map (Slot.par n) ++
          slotsFl (k + 1) (n + 1) rest).length 0) pre.length ox >>= fun a => wr a (pre.length + 1) oy) =
          .ok ((pre ++ [ox, oy] ++ List.replicate size 0) ++ List.replicate (slotsFl (k + 1) (n + 1) rest).length 0) := by
        rw [wr_ok (by simp)]
        simp only [ok_bind]
        rw [wr_ok (by simp)]
        congr 1
        rw [List.set_append_right _ _ le_rfl, List.set_append_right _ _ (by omega)]
        have : ([Slot.x0 k, Slot.y0 k] ++ (List.range size).map (Slot.par n) ++
          slotsFl (k + 1) (n + 1) rest).length = (size + (slotsFl (k + 1) (n + 1) rest).length) + 1 + 1 := by simp
        rw [this, List.replicate_succ, List.replicate_succ, ← List.replicate_append_replicate]
        simp
      rw [hw]
      simp only [ok_bind]
      have hlen : pre.length + 2 + size = (pre ++ [ox, oy] ++ List.replicate size 0).length := by simp; omega
      rw [hlen, this]
      simp [slotOffset]

/-- C14, offsets: the offset vector (from an array of zeros) holds the image offset of each slot. -/
theorem C14_offsets (sets : List (List (List Str))) (h : NameSets sets) (ox oy : Int) :
    imageOffsets ox oy (sizesFl (flagged sets)) (List.replicate (slots (nameSizes sets)).length 0) =
      .ok ((slots (nameSizes sets)).map (slotOffset ox oy)) := by
  unfold imageOffsets
  by_cases hz : ox ≠ 0 ∨ oy ≠ 0
  · rw [if_pos hz, ← slots_eq sets h]
    have := offsetLoop_eq ox oy (sizesFl (flagged sets)) 0 0 []
    simpa using this
  · rw [if_neg hz]
    simp only [not_or, not_not] at hz
    congr 1
    symm
    rw [List.eq_replicate_iff]
    refine ⟨by simp, ?_⟩
    intro b hb
    simp only [List.mem_map] at hb
    obtain ⟨s, _, rfl⟩ := hb
    cases s <;> simp [slotOffset, hz.1, hz.2]

/-- Example: one set with a function of parameters PA, I_0 and a sky function, then a second set; the slots, names and offsets. -/
example : slots [[2, 1], [1]] = [.x0 0, .y0 0, .par 0 0, .par 0 1, .par 1 0, .x0 1, .y0 1, .par 2 0] ∧
    (slots [[2, 1], [1]]).map (slotOffset 100 50) = [100, 50, 0, 0, 0, 100, 50, 0] ∧
    imageOffsets 100 50 [(2, true), (1, false), (1, true)] (List.replicate 8 0) = .ok [100, 50, 0, 0, 0, 100, 50, 0] := by
  refine ⟨by decide, by decide, ?_⟩
  exact C14_offsets [["PA".toList, "I_0".toList] :: [["I_sky".toList]], [["n".toList]]] ⟨by simp, by simp⟩ 100 50

/-- Example: the hypotheses of the header theorem hold for these names. -/
example : NameSets [["PA".toList, "I_0".toList] :: [["I_sky".toList]], [["n".toList]]] ∧
    (slots (nameSizes [["PA".toList, "I_0".toList] :: [["I_sky".toList]], [["n".toList]]])).map
      (slotHeader ["PA".toList :: ["I_0".toList], ["I_sky".toList], ["n".toList]]) =
      ["X0_1", "Y0_1", "PA_1", "I_0_1", "I_sky_2", "X0_2", "Y0_2", "n_3"].map String.toList := by
  refine ⟨⟨by simp, by simp⟩, by decide⟩

end Imfit
