import Verif.Model.PrintMulti
import Verif.Spec.MultiColumns
import Verif.Props.C14

/-!
# C91: rows of parameters of several images have the columns of their header
-/

namespace Imfit

open Spec

variable {α : Type} [FP α]

theorem valTexts_n (fmt : α → Str) (params : List α) (ox oy : Int) (fl : List (Nat × Bool)) (k n k' n' offset : Nat) :
    valTexts fmt params ox oy k n offset fl = valTexts fmt params ox oy k' n' offset fl := by
  have h : (slotsFl k n fl).map (fun s => fun v : α => fmt (slotValue ox oy s v)) = (slotsFl k' n' fl).map (fun s => fun v : α => fmt (slotValue ox oy s v)) := by
    induction fl generalizing k n k' n' with
    | nil => rfl
    | cons p rest ih =>
      obtain ⟨size, start⟩ := p
      simp only [slotsFl, List.map_append, List.map_map]
      rw [ih _ _ (if start then k' + 1 else k') (n' + 1)]
      congr 1
      congr 1
      cases start <;> rfl
  unfold valTexts
  have e : ∀ l : List Slot, List.zipWith (fun s v => fmt (slotValue ox oy s v)) l (params.drop offset) =
      List.zipWith (fun g v => g v) (l.map (fun s => fun v : α => fmt (slotValue ox oy s v))) (params.drop offset) := by
    intro l
    rw [List.zipWith_map_left]
  rw [e, e, h]

theorem multiRowFns_eq (fmt : α → Str) (sep : Str) (params : List α) (ox oy : Int) (fl : List (Nat × Bool)) (n offset : Nat) :
    multiRowFns fmt sep params ox oy fl offset = horizLoop fmt sep params ox oy fl (n + 1) offset := by
  induction fl generalizing n offset with
  | nil => rfl
  | cons p rest ih =>
    obtain ⟨size, start⟩ := p
    have : multiRowXY fmt sep params ox oy offset start = horizStart fmt sep params ox oy (n + 1) offset start := by
      cases start <;> rfl
    unfold multiRowFns horizLoop
    rw [this]
    simp only [ih (n + 1)]
    rfl

omit [FP α] in
theorem multiRowDesc_eq (fmt : α → Str) (sep : Str) (params : List α) (m : Nat) (v : α) (vs : List α) (hp : params.take (m + 1) = v :: vs)
    (hm : m + 1 ≤ params.length) : multiRowDesc fmt sep params (m + 1) = .ok (fmt v ++ (vs.map fmt).flatMap fun w => sep ++ w) := by
  have hv : ∀ i (hi : i < m), params[i + 1] = vs[i]'(by have := congrArg List.length hp; simp at this; omega) := by
    intro i hi
    have : (params.take (m + 1))[i + 1]'(by simp; omega) = (v :: vs)[i + 1]'(by have := congrArg List.length hp; simp at this; simp; omega) := by
      simp only [hp]
    simpa using this
  have hl : vs.length = m := by have := congrArg List.length hp; simp at this; omega
  have h0 : params[0] = v := by
    have : (params.take (m + 1))[0]'(by simp; omega) = (v :: vs)[0]'(by simp) := by simp only [hp]
    simpa using this
  unfold multiRowDesc
  rw [rd_ok (by omega), h0]
  simp only [ok_bind, Nat.add_sub_cancel]
  rw [forN_ok m _ _ (fun z => fmt v ++ ((vs.take z).map fmt).flatMap fun w => sep ++ w) (by simp)]
  · simp [← hl]
  · intro z hz
    rw [rd_ok (by omega), hv z hz]
    simp only [ok_bind]
    have e : vs.take (z + 1) = vs.take z ++ [vs[z]] := List.take_succ_eq_append_getElem (by omega)
    simp only [e, List.map_append, List.flatMap_append, List.append_assoc]
    simp

/-- The row. -/
theorem multiRow_columns (sets : List (List (List Str))) (h : NameSets sets) (fmt : α → Str) (c : Char) (hc : ∀ v, c ∉ fmt v) (n : ℕ) (hn : 2 ≤ n)
    (params : List α) (hp : params.length = 5 * (n - 1) + (slots (nameSizes sets)).length) (ox oy : Int) :
    ∃ line, multiRow fmt [c] params n ox oy (sizesFl (flagged sets)) = .ok line ∧ line.splitOn c = multiEntries fmt n (nameSizes sets) ox oy params := by
  obtain ⟨m, hm⟩ : ∃ m, (n - 1) * 5 = m + 1 := ⟨(n - 1) * 5 - 1, by omega⟩
  have hm' : 5 * (n - 1) = m + 1 := by omega
  cases ht : params.take (m + 1) with
  | nil => have := congrArg List.length ht; simp at this; subst this; simp at hp; omega
  | cons v vs =>
    have hd := multiRowDesc_eq fmt [c] params m v vs ht (by omega)
    have hf := horizLoop_eq fmt [c] params ox oy (sizesFl (flagged sets)) 0 1 (m + 1) (by simp) (by
      have e : (slotsFl 0 1 (sizesFl (flagged sets))).length = (slotsFl 0 0 (sizesFl (flagged sets))).length := by
        rw [populate_length, populate_length]
      rw [e, slots_eq sets h]; omega)
    unfold multiRow
    rw [hm, hd, multiRowFns_eq fmt [c] params ox oy _ 0, hf]
    simp only [ok_bind]
    refine ⟨_, rfl, ?_⟩
    have hv : valTexts fmt params ox oy 0 1 (m + 1) (sizesFl (flagged sets)) =
        List.zipWith (fun s v => fmt (slotValue ox oy s v)) (slots (nameSizes sets)) (params.drop (5 * (n - 1))) := by
      rw [valTexts_n fmt params ox oy _ 0 1 0 0, ← slots_eq sets h, hm']
      rfl
    rw [hv, List.append_assoc, ← List.flatMap_append, splitOn_flat]
    · unfold multiEntries
      rw [hm', ht]
      simp
    · intro w hw
      rcases List.mem_cons.1 hw with rfl | hw
      · exact hc _
      rcases List.mem_append.1 hw with hw | hw
      · obtain ⟨u, _, rfl⟩ := List.mem_map.1 hw
        exact hc _
      · obtain ⟨i, hi, rfl⟩ := List.mem_iff_getElem.1 hw
        rw [List.getElem_zipWith]
        exact hc _

theorem multiHeaderImage_fields (i : ℕ) (rest : Str) :
    tabFields (multiHeaderImage (i + 1) ++ rest) = (imageTitles.map (· ++ "_IM_".toList ++ dec (i + 2))) ++ tabFields rest := by
  have key : ∀ (nm : Str) (rest : Str), '\t' ∉ nm → tabFields (nm ++ showNat (i + 2) ++ ['\t'] ++ rest) = (nm ++ dec (i + 2)) :: tabFields rest := by
    intro nm rest h
    rw [dec_eq, List.append_assoc, List.singleton_append, tabFields_cons]
    · simp only [List.mem_append, not_or]
      exact ⟨h, dec_no_tab _⟩
    · rw [← dec_eq]
      simp [showNat, Nat.toDigits_ne_nil]
  unfold multiHeaderImage
  have e : ∀ a b c d f : Str, a ++ b ++ c ++ d ++ f ++ rest = a ++ (b ++ (c ++ (d ++ (f ++ rest)))) := by simp
  rw [e, key _ _ (by decide), key _ _ (by decide), key _ _ (by decide), key _ _ (by decide), key _ _ (by decide)]
  simp [imageTitles]

/-- The header. -/
theorem multiHeader_columns (sets : List (List (List Str))) (h : NameSets sets) (hn : ∀ s ∈ sets, ∀ f ∈ s, ∀ p ∈ f, '\t' ∉ p) (n : ℕ) :
    ∃ line, multiHeader n (populateNames (flagged sets)) (slots (nameSizes sets)).length (sizesFl (flagged sets)) = .ok ("# ".toList ++ line) ∧
      tabFields line = multiTitles n (nameSizes sets) sets.flatten := by
  obtain ⟨b, hb, ht⟩ := C14_header sets h hn
  have hs : substr ("# ".toList ++ b) 2 none = .ok b := by
    unfold substr
    simp
  unfold multiHeader
  rw [hb]
  simp only [ok_bind, hs]
  refine ⟨_, by rw [List.append_assoc], ?_⟩
  unfold multiTitles
  rw [← ht]
  generalize List.range (n - 1) = l
  induction l with
  | nil => simp
  | cons i l ih =>
    rw [List.flatMap_cons, List.append_assoc, multiHeaderImage_fields, ih, List.flatMap_cons, List.append_assoc]

/-- With two images or more and no functions of the first image alone, header and rows have the same columns: what stands below a title is the value of that
parameter, the positions of the shared functions counted in the reference image. -/
theorem C91_columns_partial (sets : List (List (List Str))) (h : NameSets sets) (hn : ∀ s ∈ sets, ∀ f ∈ s, ∀ p ∈ f, '\t' ∉ p) (fmt : α → Str) (c : Char)
    (hc : ∀ v, c ∉ fmt v) (n : ℕ) (h2 : 2 ≤ n) (params : List α) (hp : params.length = 5 * (n - 1) + (slots (nameSizes sets)).length) (ox oy : Int) :
    ∃ head row, multiHeader n (populateNames (flagged sets)) (slots (nameSizes sets)).length (sizesFl (flagged sets)) = .ok ("# ".toList ++ head) ∧
      multiRow fmt [c] params n ox oy (sizesFl (flagged sets)) = .ok row ∧
      tabFields head = multiTitles n (nameSizes sets) sets.flatten ∧ row.splitOn c = multiEntries fmt n (nameSizes sets) ox oy params ∧
      (tabFields head).length = params.length ∧ (row.splitOn c).length = params.length := by
  obtain ⟨head, h3, h4⟩ := multiHeader_columns sets h hn n
  obtain ⟨row, h5, h6⟩ := multiRow_columns sets h fmt c hc n h2 params hp ox oy
  refine ⟨head, row, h3, h5, h4, h6, ?_, ?_⟩
  · rw [h4]
    simp [multiTitles, imageTitles, hp]
    omega
  · rw [h6]
    simp [multiEntries]
    omega

/-- One image: the first value is there twice, and every row has one column more than the header. -/
theorem C91_one_image_false (sets : List (List (List Str))) (h : NameSets sets) (hn : ∀ s ∈ sets, ∀ f ∈ s, ∀ p ∈ f, '\t' ∉ p) (fmt : α → Str) (c : Char)
    (hc : ∀ v, c ∉ fmt v) (params : List α) (hp : params.length = (slots (nameSizes sets)).length) (ox oy : Int) :
    ∃ head row, multiHeader 1 (populateNames (flagged sets)) (slots (nameSizes sets)).length (sizesFl (flagged sets)) = .ok ("# ".toList ++ head) ∧
      multiRow fmt [c] params 1 ox oy (sizesFl (flagged sets)) = .ok row ∧
      (tabFields head).length = params.length ∧ (row.splitOn c).length = params.length + 1 := by
  obtain ⟨head, h3, h4⟩ := multiHeader_columns sets h hn 1
  have hlen : 0 < params.length := by
    rw [hp]
    obtain ⟨h1, _⟩ := h
    cases sets with
    | nil => exact absurd rfl h1
    | cons s sets => simp [nameSizes, slots, slotsFrom]
  have hf := horizLoop_eq fmt [c] params ox oy (sizesFl (flagged sets)) 0 1 0 (by simp) (by
    have e : (slotsFl 0 1 (sizesFl (flagged sets))).length = (slotsFl 0 0 (sizesFl (flagged sets))).length := by
      rw [populate_length, populate_length]
    rw [e, slots_eq sets h]; omega)
  have hrow : multiRow fmt [c] params 1 ox oy (sizesFl (flagged sets)) =
      .ok (fmt params[0] ++ (valTexts fmt params ox oy 0 1 0 (sizesFl (flagged sets))).flatMap fun v => [c] ++ v) := by
    unfold multiRow multiRowDesc
    rw [rd_ok hlen, multiRowFns_eq fmt [c] params ox oy _ 0, hf]
    rfl
  refine ⟨head, _, h3, hrow, ?_, ?_⟩
  · rw [h4]
    simp [multiTitles, hp]
  · rw [splitOn_flat]
    · have e : (slotsFl 0 1 (sizesFl (flagged sets))).length = params.length := by
        rw [populate_length, ← populate_length (flagged sets) 0 0, slots_eq sets h, hp]
      simp [valTexts, e]
    · intro w hw
      rcases List.mem_cons.1 hw with rfl | hw
      · exact hc _
      · unfold valTexts at hw
        obtain ⟨i, hi, rfl⟩ := List.mem_iff_getElem.1 hw
        rw [List.getElem_zipWith]
        exact hc _

/-- Functions of the first image alone have titles, but no values. -/
theorem C91_local_false (sets loc : List (List (List Str))) (h : NameSets sets) (hl : NameSets loc) (hn : ∀ s ∈ sets ++ loc, ∀ f ∈ s, ∀ p ∈ f, '\t' ∉ p)
    (fmt : α → Str) (c : Char) (hc : ∀ v, c ∉ fmt v) (n : ℕ) (h2 : 2 ≤ n) (params : List α)
    (hp : params.length = 5 * (n - 1) + (slots (nameSizes sets)).length) (ox oy : Int) :
    ∃ head row, multiHeader n (populateNames (flagged (sets ++ loc))) (slots (nameSizes (sets ++ loc))).length (sizesFl (flagged (sets ++ loc))) =
        .ok ("# ".toList ++ head) ∧
      multiRow fmt [c] params n ox oy (sizesFl (flagged sets)) = .ok row ∧ (row.splitOn c).length < (tabFields head).length := by
  have h' : NameSets (sets ++ loc) := ⟨by simp [h.1], fun s hs => by rcases List.mem_append.1 hs with hs | hs; exacts [h.2 s hs, hl.2 s hs]⟩
  obtain ⟨head, h3, h4⟩ := multiHeader_columns (sets ++ loc) h' hn n
  obtain ⟨row, h5, h6⟩ := multiRow_columns sets h fmt c hc n h2 params hp ox oy
  refine ⟨head, row, h3, h5, ?_⟩
  have hlt : (slots (nameSizes sets)).length < (slots (nameSizes (sets ++ loc))).length := by
    have hloc : 0 < loc.length := List.length_pos_iff.2 hl.1
    have key : ∀ (a b : List (List ℕ)) (k m : ℕ), 0 < b.length → (slotsFrom k m a).length < (slotsFrom k m (a ++ b)).length := by
      intro a b
      induction a with
      | nil =>
        intro k m hb
        cases b with
        | nil => simp at hb
        | cons s b => simp [slotsFrom]
      | cons s a ih =>
        intro k m hb
        have := ih (k + 1) (m + s.length) hb
        simp only [slotsFrom, List.cons_append, List.length_cons, List.length_append]
        omega
    unfold slots nameSizes
    rw [List.map_append]
    exact key _ _ _ _ (by simpa using hloc)
  rw [h4, h6]
  simp [multiTitles, multiEntries, imageTitles]
  omega

/-- A case: two images, one function with one parameter. -/
example : multiHeader 2 (populateNames (flagged [[["I".toList]]])) 3 (sizesFl (flagged [[["I".toList]]])) =
    .ok "# PIXEL_SCALE_IM_2\tIMAGE_PA_IM_2\tFLUX_SCALE_IM_2\tX0_IM_2\tY0_IM_2\tX0_1\t\tY0_1\t\tI_1\t".toList := by decide +kernel

end Imfit
