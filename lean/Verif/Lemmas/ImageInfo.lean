import Verif.Spec.ImageInfo
import Verif.Lemmas.Config

/-! # Lemmas about image-information files -/

namespace Imfit

open Spec

variable {α : Type} [FP α]

theorem split_kept {l : Str} (h : Kept l) : splitString l isBlank = .ok (words l) := by
  obtain ⟨c, cs, rfl, h1, -⟩ := h
  rw [splitString_eq, List.dropWhile_cons_of_neg (by simp [h1])]
  unfold words
  split
  · rfl
  · rename_i hn
    rw [tokens_self isBlank (c :: cs) (by simp) (by simpa using hn)]

theorem words_kept {l : Str} (h : Kept l) : ∃ w ws, words l = w :: ws := by
  obtain ⟨c, cs, rfl, h1, -⟩ := h
  unfold words
  cases ht : tokens isBlank (c :: cs) with
  | cons w ws => exact ⟨w, ws, rfl⟩
  | nil =>
    exfalso
    have hp := congrArg List.flatten ht
    have hf : (tokens isBlank (c :: cs)).flatten = (c :: cs).filter (fun c => !isBlank c) := by
      clear ht hp h1
      generalize c :: cs = s
      induction s with
      | nil => simp [tokens]
      | cons c cs ih =>
        unfold tokens at *
        rw [List.splitOnP_cons_eq_if_modifyHead]
        by_cases hc : isBlank c = true
        · rw [if_pos hc]; simpa [hc] using ih
        · rw [if_neg hc]
          simp only [Bool.not_eq_true] at hc
          have hne := List.splitOnP_ne_nil isBlank cs
          cases hs : cs.splitOnP isBlank with
          | nil => exact absurd hs hne
          | cons a as =>
            rw [hs] at ih
            simp only [List.modifyHead_cons, List.filter_cons, hc, Bool.not_false, if_true]
            rw [← ih]
            cases a <;> simp
    rw [hf] at hp
    simp [h1] at hp

/-- What the line does to the parameter. -/
def updPar (q : ImgPar) (old : ParInfo α) (p : α × ParInfo α × Int) : ParInfo α := if q.strict then fixedUnless old p else p.2.1

omit [FP α] in
theorem second_ok {ps : List Str} {f : Str → ImgInfo α} {i : ImgInfo α} (h : second ps f = .ok i) : ∃ t, i = f t := by
  unfold second at h
  cases hr : rd ps 1 with
  | error e => rw [hr] at h; cases h
  | ok t => rw [hr] at h; cases h; exact ⟨t, rfl⟩

omit [FP α] in
theorem secondInts_ok {nl : NumLib α} {ps : List Str} {f : Int × Int → ImgInfo α} {i : ImgInfo α} (h : secondInts nl ps f = .ok i) :
    ∃ t, i = f t := by
  unfold secondInts at h
  cases hr : rd ps 1 with
  | error e => rw [hr] at h; cases h
  | ok t =>
    rw [hr, ok_bind] at h
    cases hr : twoInts nl t with
    | error e => rw [hr] at h; cases h
    | ok t => rw [hr] at h; cases h; exact ⟨t, rfl⟩

theorem withLimits_ok {nl : NumLib α} {l : Str} {f : α × ParInfo α × Int → ImgInfo α} {i : ImgInfo α} (h : withLimits nl l f = .ok i) :
    ∃ p, getParameterAndLimits nl l = .ok p ∧ i = f p := by
  unfold withLimits at h
  cases hr : getParameterAndLimits nl l with
  | error e => rw [hr] at h; cases h
  | ok t => rw [hr] at h; cases h; exact ⟨t, rfl, rfl⟩

theorem storeInfo_desc (nl : NumLib α) (l : Str) (i i' : ImgInfo α) (hk : Kept l) (h : storeInfo nl l i = .ok i') (q : ImgPar) :
    if (words l).head? = some q.word then
      ∃ p, getParameterAndLimits nl l = .ok p ∧ q.val i' = p.1 ∧ q.lim i' = updPar q (q.lim i) p
    else q.val i' = q.val i ∧ q.lim i' = q.lim i := by
  obtain ⟨w, ws, hw⟩ := words_kept hk
  unfold storeInfo at h
  rw [split_kept hk, ok_bind, hw] at h
  have hr : rd (w :: ws) 0 = .ok w := rfl
  rw [hr, ok_bind] at h
  rw [hw, List.head?_cons]
  simp only [Option.some.injEq]
  by_cases h0 : w = iGain
  · rw [if_pos h0] at h
    obtain ⟨p, rfl⟩ := second_ok h
    subst h0
    cases q <;> (rw [if_neg (by decide)]; exact ⟨rfl, rfl⟩)
  rw [if_neg h0] at h
  by_cases h1 : w = iReadNoise
  · rw [if_pos h1] at h
    obtain ⟨p, rfl⟩ := second_ok h
    subst h1
    cases q <;> (rw [if_neg (by decide)]; exact ⟨rfl, rfl⟩)
  rw [if_neg h1] at h
  by_cases h2 : w = iSky
  · rw [if_pos h2] at h
    obtain ⟨p, rfl⟩ := second_ok h
    subst h2
    cases q <;> (rw [if_neg (by decide)]; exact ⟨rfl, rfl⟩)
  rw [if_neg h2] at h
  by_cases h3 : w = iExpTime
  · rw [if_pos h3] at h
    obtain ⟨p, rfl⟩ := second_ok h
    subst h3
    cases q <;> (rw [if_neg (by decide)]; exact ⟨rfl, rfl⟩)
  rw [if_neg h3] at h
  by_cases h4 : w = iWeight
  · rw [if_pos h4] at h
    obtain ⟨p, rfl⟩ := second_ok h
    subst h4
    cases q <;> (rw [if_neg (by decide)]; exact ⟨rfl, rfl⟩)
  rw [if_neg h4] at h
  by_cases h5 : w = iPixelScale
  · rw [if_pos h5] at h
    obtain ⟨p, hp, rfl⟩ := withLimits_ok h
    subst h5
    cases q
    all_goals first
      | (rw [if_pos (by decide)]; exact ⟨p, hp, rfl, rfl⟩)
      | (rw [if_neg (by decide)]; exact ⟨rfl, rfl⟩)
  rw [if_neg h5] at h
  by_cases h6 : w = iImagePA
  · rw [if_pos h6] at h
    obtain ⟨p, hp, rfl⟩ := withLimits_ok h
    subst h6
    cases q
    all_goals first
      | (rw [if_pos (by decide)]; exact ⟨p, hp, rfl, rfl⟩)
      | (rw [if_neg (by decide)]; exact ⟨rfl, rfl⟩)
  rw [if_neg h6] at h
  by_cases h7 : w = iFluxScale
  · rw [if_pos h7] at h
    obtain ⟨p, hp, rfl⟩ := withLimits_ok h
    subst h7
    cases q
    all_goals first
      | (rw [if_pos (by decide)]; exact ⟨p, hp, rfl, rfl⟩)
      | (rw [if_neg (by decide)]; exact ⟨rfl, rfl⟩)
  rw [if_neg h7] at h
  by_cases h8 : w = iX0
  · rw [if_pos h8] at h
    obtain ⟨p, hp, rfl⟩ := withLimits_ok h
    subst h8
    cases q
    all_goals first
      | (rw [if_pos (by decide)]; exact ⟨p, hp, rfl, rfl⟩)
      | (rw [if_neg (by decide)]; exact ⟨rfl, rfl⟩)
  rw [if_neg h8] at h
  by_cases h9 : w = iY0
  · rw [if_pos h9] at h
    obtain ⟨p, hp, rfl⟩ := withLimits_ok h
    subst h9
    cases q
    all_goals first
      | (rw [if_pos (by decide)]; exact ⟨p, hp, rfl, rfl⟩)
      | (rw [if_neg (by decide)]; exact ⟨rfl, rfl⟩)
  rw [if_neg h9] at h
  by_cases h10 : w = iNcols
  · rw [if_pos h10] at h
    obtain ⟨p, rfl⟩ := second_ok h
    subst h10
    cases q <;> (rw [if_neg (by decide)]; exact ⟨rfl, rfl⟩)
  rw [if_neg h10] at h
  by_cases h11 : w = iNrows
  · rw [if_pos h11] at h
    obtain ⟨p, rfl⟩ := second_ok h
    subst h11
    cases q <;> (rw [if_neg (by decide)]; exact ⟨rfl, rfl⟩)
  rw [if_neg h11] at h
  by_cases h12 : w = iNrowsNcols
  · rw [if_pos h12] at h
    obtain ⟨p, rfl⟩ := secondInts_ok h
    subst h12
    cases q <;> (rw [if_neg (by decide)]; exact ⟨rfl, rfl⟩)
  rw [if_neg h12] at h
  by_cases h13 : w = iNcolsNrows
  · rw [if_pos h13] at h
    obtain ⟨p, rfl⟩ := secondInts_ok h
    subst h13
    cases q <;> (rw [if_neg (by decide)]; exact ⟨rfl, rfl⟩)
  rw [if_neg h13] at h
  by_cases h14 : w = iNcombined
  · rw [if_pos h14] at h
    obtain ⟨p, rfl⟩ := second_ok h
    subst h14
    cases q <;> (rw [if_neg (by decide)]; exact ⟨rfl, rfl⟩)
  rw [if_neg h14] at h
  by_cases h15 : w = iData
  · rw [if_pos h15] at h
    obtain ⟨p, rfl⟩ := second_ok h
    subst h15
    cases q <;> (rw [if_neg (by decide)]; exact ⟨rfl, rfl⟩)
  rw [if_neg h15] at h
  by_cases h16 : w = iMask
  · rw [if_pos h16] at h
    obtain ⟨p, rfl⟩ := second_ok h
    subst h16
    cases q <;> (rw [if_neg (by decide)]; exact ⟨rfl, rfl⟩)
  rw [if_neg h16] at h
  by_cases h17 : w = iError
  · rw [if_pos h17] at h
    obtain ⟨p, rfl⟩ := second_ok h
    subst h17
    cases q <;> (rw [if_neg (by decide)]; exact ⟨rfl, rfl⟩)
  rw [if_neg h17] at h
  by_cases h18 : w = iPsf
  · rw [if_pos h18] at h
    obtain ⟨p, rfl⟩ := second_ok h
    subst h18
    cases q <;> (rw [if_neg (by decide)]; exact ⟨rfl, rfl⟩)
  rw [if_neg h18] at h
  by_cases h19 : w = iOverScale
  · rw [if_pos h19] at h
    obtain ⟨p, rfl⟩ := second_ok h
    subst h19
    cases q <;> (rw [if_neg (by decide)]; exact ⟨rfl, rfl⟩)
  rw [if_neg h19] at h
  by_cases h20 : w = iOverPsf
  · rw [if_pos h20] at h
    obtain ⟨p, rfl⟩ := second_ok h
    subst h20
    cases q <;> (rw [if_neg (by decide)]; exact ⟨rfl, rfl⟩)
  rw [if_neg h20] at h
  by_cases h21 : w = iOverRegion
  · rw [if_pos h21] at h
    obtain ⟨p, rfl⟩ := second_ok h
    subst h21
    cases q <;> (rw [if_neg (by decide)]; exact ⟨rfl, rfl⟩)
  rw [if_neg h21] at h
  by_cases h22 : w = iMaskGood
  · rw [if_pos h22] at h
    cases h
    subst h22
    cases q <;> (rw [if_neg (by decide)]; exact ⟨rfl, rfl⟩)
  rw [if_neg h22] at h
  by_cases h23 : w = iMaskBad
  · rw [if_pos h23] at h
    cases h
    subst h23
    cases q <;> (rw [if_neg (by decide)]; exact ⟨rfl, rfl⟩)
  rw [if_neg h23] at h
  by_cases h24 : w = iSigmas
  · rw [if_pos h24] at h
    cases h
    subst h24
    cases q <;> (rw [if_neg (by decide)]; exact ⟨rfl, rfl⟩)
  rw [if_neg h24] at h
  by_cases h25 : w = iVariances
  · rw [if_pos h25] at h
    cases h
    subst h25
    cases q <;> (rw [if_neg (by decide)]; exact ⟨rfl, rfl⟩)
  rw [if_neg h25] at h
  by_cases h26 : w = iWeights
  · rw [if_pos h26] at h
    cases h
    subst h26
    cases q <;> (rw [if_neg (by decide)]; exact ⟨rfl, rfl⟩)
  rw [if_neg h26] at h
  cases h
  rw [if_neg]
  · exact ⟨rfl, rfl⟩
  · cases q
    · exact h5
    · exact h6
    · exact h7
    · exact h8
    · exact h9

theorem has_iff (k l : Str) : hasSub k l = true ↔ Has k l := by unfold hasSub Has; simp

theorem lineFor_cons (w l : Str) (ls : List Str) : lineFor w (l :: ls) =
    if hasSub iFunctionsStart l then none
    else (lineFor w ls).or (if (words l).head? = some w then some l else none) := by
  unfold lineFor descLines
  by_cases h : hasSub iFunctionsStart l = true
  · have h' : Has functionsStart l := (has_iff _ _).1 h
    rw [if_pos h, List.takeWhile_cons_of_neg (by simpa using h')]
    rfl
  · have h' : ¬ Has functionsStart l := fun hh => h ((has_iff _ _).2 hh)
    rw [if_neg h, List.takeWhile_cons_of_pos (by simpa using h'), List.reverse_cons, List.find?_append]
    congr 1
    by_cases hh : (words l).head? = some w
    · simp [hh]
    · simp [hh]

theorem addInfoLoop_desc (nl : NumLib α) (q : ImgPar) (ls : List Str) (hk : ∀ l ∈ ls, Kept l) (k : ℕ) (i i' : ImgInfo α) (m : ℕ)
    (h : addInfoLoop nl k i ls = .ok (i', m)) :
    match lineFor q.word ls with
    | none => q.val i' = q.val i ∧ q.lim i' = q.lim i
    | some l => ∃ p old, getParameterAndLimits nl l = .ok p ∧ q.val i' = p.1 ∧ q.lim i' = updPar q old p := by
  induction ls generalizing k i with
  | nil => cases h; exact ⟨rfl, rfl⟩
  | cons l ls ih =>
    rw [lineFor_cons]
    unfold addInfoLoop at h
    by_cases hf : hasSub iFunctionsStart l = true
    · rw [if_pos hf] at h ⊢
      cases h; exact ⟨rfl, rfl⟩
    · rw [if_neg hf] at h ⊢
      cases hs : storeInfo nl l i with
      | error e => rw [hs] at h; cases h
      | ok i1 =>
        rw [hs, ok_bind] at h
        have h1 := storeInfo_desc nl l i i1 (hk l (by simp)) hs q
        have h2 := ih (fun l hl => hk l (by simp [hl])) _ _ h
        cases hl : lineFor q.word ls with
        | some l' => rw [hl] at h2; exact h2
        | none =>
          rw [hl] at h2
          by_cases hw : (words l).head? = some q.word
          · rw [if_pos hw] at h1 ⊢
            obtain ⟨p, hp, e1, e2⟩ := h1
            exact ⟨p, _, hp, h2.1.trans e1, h2.2.trans e2⟩
          · rw [if_neg hw] at h1 ⊢
            exact ⟨h2.1.trans h1.1, h2.2.trans h1.2⟩

theorem readImageBlock_desc (nl : NumLib α) (q : ImgPar) (b : List Str) (hk : ∀ l ∈ b, Kept l) (i : ImgInfo α)
    (h : readImageBlock nl b = .ok (some i)) :
    match lineFor q.word b with
    | none => q.val i = q.default ∧ q.lim i = ParInfo.zero
    | some l => ∃ p old, getParameterAndLimits nl l = .ok p ∧ q.val i = p.1 ∧ q.lim i = updPar q old p := by
  unfold readImageBlock at h
  cases ha : addInfoFromLines nl b with
  | error e => rw [ha] at h; cases h
  | ok p =>
    rw [ha, ok_bind] at h
    have h1 := addInfoLoop_desc nl q b hk 0 _ p.1 p.2 ha
    have hv : q.val i = q.val p.1 ∧ q.lim i = q.lim p.1 := by
      by_cases hp : p.2 > 0
      · rw [if_pos hp] at h
        cases hf : parseFunctionSection nl.d true false [] (b.drop (p.2 + 1)) with
        | error e => rw [hf] at h; cases h
        | ok r =>
          rw [hf, ok_bind] at h
          cases r with
          | none => cases h
          | some st => cases h; cases q <;> exact ⟨rfl, rfl⟩
      · rw [if_neg hp] at h; cases h; exact ⟨rfl, rfl⟩
    rw [hv.1, hv.2]
    have hd : q.val (ImgInfo.init : ImgInfo α) = q.default ∧ q.lim (ImgInfo.init : ImgInfo α) = ParInfo.zero := by
      cases q <;> exact ⟨rfl, rfl⟩
    cases hl : lineFor q.word b with
    | none => rw [hl] at h1; exact ⟨h1.1.trans hd.1, h1.2.trans hd.2⟩
    | some l => rw [hl] at h1; exact h1

theorem readImageBlocks_ok (nl : NumLib α) (bs : List (List Str)) (is : List (ImgInfo α)) (h : readImageBlocks nl bs = .ok (some is)) :
    is.length = bs.length ∧ ∀ p ∈ bs.zip is, readImageBlock nl p.1 = .ok (some p.2) := by
  induction bs generalizing is with
  | nil => cases h; simp
  | cons b bs ih =>
    unfold readImageBlocks at h
    cases hb : readImageBlock nl b with
    | error e => rw [hb] at h; cases h
    | ok r =>
      rw [hb, ok_bind] at h
      cases r with
      | none => cases h
      | some i =>
        simp only at h
        cases hs : readImageBlocks nl bs with
        | error e => rw [hs] at h; cases h
        | ok r =>
          rw [hs, ok_bind] at h
          cases r with
          | none => cases h
          | some is' =>
            cases h
            obtain ⟨e, hh⟩ := ih is' hs
            refine ⟨by simp [e], ?_⟩
            intro p hp
            rw [List.zip_cons_cons, List.mem_cons] at hp
            rcases hp with rfl | hp
            · exact hb
            · exact hh p hp

/-! ## Blocks -/

theorem imageStarts_none (ls : List Str) (h : ∀ l ∈ ls, ¬ Has imageStart l) (k : ℕ) (r : List Str) :
    imageStarts k (ls ++ r) = imageStarts (k + ls.length) r := by
  induction ls generalizing k with
  | nil => rfl
  | cons l ls ih =>
    have hl : hasSub iImageStart l = false := Bool.eq_false_iff.2 fun hh => h l (by simp) ((has_iff _ _).1 hh)
    rw [List.cons_append]
    conv_lhs => unfold imageStarts
    rw [hl, ih (fun x hx => h x (by simp [hx]))]
    simp only [List.length_cons, Bool.false_eq_true, if_false]
    congr 1; omega

theorem imageBlocks_eq (bs : List (List Str)) (hb : IsBlocks bs) (pre : List Str) :
    imageBlocks (pre ++ bs.flatten) (imageStarts pre.length bs.flatten) = bs := by
  induction bs generalizing pre with
  | nil => rfl
  | cons b bs ih =>
    obtain ⟨l, r, rfl, h1, h2⟩ := hb b (by simp)
    have hl : hasSub iImageStart l = true := (has_iff _ _).2 h1
    have hb' : IsBlocks bs := fun x hx => hb x (by simp [hx])
    rw [List.flatten_cons, List.cons_append]
    unfold imageStarts
    rw [if_pos hl, imageStarts_none r h2]
    have e := ih hb' (pre ++ l :: r)
    have e1 : (pre ++ l :: r).length = pre.length + 1 + r.length := by simp; omega
    rw [e1, List.append_assoc, List.cons_append] at e
    cases bs with
    | nil =>
      simp [imageBlocks, imageStarts]
    | cons b' bs =>
      obtain ⟨l', r', rfl, h1', h2'⟩ := hb b' (by simp)
      have hl' : hasSub iImageStart l' = true := (has_iff _ _).2 h1'
      have hst : ∃ rest, imageStarts (pre.length + 1 + r.length) ((l' :: r') :: bs).flatten = (pre.length + 1 + r.length) :: rest := by
        rw [List.flatten_cons, List.cons_append]
        unfold imageStarts
        rw [if_pos hl']
        exact ⟨_, rfl⟩
      obtain ⟨rest, hst⟩ := hst
      rw [hst] at e ⊢
      unfold imageBlocks
      rw [e]
      congr 1
      have e2 : pre.length + 1 + r.length - pre.length = (l :: r).length := by simp; omega
      rw [e2, List.drop_left]
      simp

end Imfit
