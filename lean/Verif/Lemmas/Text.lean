import Verif.Spec.Text
import Verif.Lemmas.Fit
import Mathlib.Data.List.TakeWhile

/-!
# Text helpers: closed forms
-/

namespace Imfit

open Spec

theorem tokens_nil (d : Char → Bool) : tokens d [] = [] := by simp [tokens]

theorem tokens_delim (d : Char → Bool) {c : Char} (h : d c = true) (s : Str) : tokens d (c :: s) = tokens d s := by
  unfold tokens
  rw [List.splitOnP_cons_eq_if_modifyHead, if_pos h]
  simp

theorem tokens_delims (d : Char → Bool) (m s : Str) (h : ∀ c ∈ m, d c = true) : tokens d (m ++ s) = tokens d s := by
  induction m with
  | nil => rfl
  | cons c m ih =>
    rw [List.cons_append, tokens_delim d (h c (by simp)), ih fun x hx => h x (by simp [hx])]

theorem tokens_all (d : Char → Bool) (s : Str) (h : ∀ c ∈ s, d c = true) : tokens d s = [] := by
  have := tokens_delims d s [] h
  rwa [List.append_nil, tokens_nil] at this

theorem tokens_single (d : Char → Bool) (t : Str) (h : ∀ c ∈ t, d c = false) (hne : t ≠ []) : tokens d t = [t] := by
  unfold tokens
  rw [List.splitOnP_eq_singleton h]
  simp [hne]

theorem tokens_cons (d : Char → Bool) (t : Str) (h : ∀ c ∈ t, d c = false) (hne : t ≠ []) (c : Char) (hc : d c = true) (s : Str) :
    tokens d (t ++ c :: s) = t :: tokens d s := by
  unfold tokens
  rw [List.splitOnP_append_cons_of_forall_mem h c hc]
  simp [hne]

/-- A delimiter splits the token list. -/
theorem tokens_append_cons (d : Char → Bool) (a b : Str) (c : Char) (hc : d c = true) : tokens d (a ++ c :: b) = tokens d a ++ tokens d b := by
  unfold tokens
  rw [List.splitOnP_append_cons _ _ hc, List.filter_append]

theorem tokens_snoc_delim (d : Char → Bool) (a : Str) (c : Char) (hc : d c = true) : tokens d (a ++ [c]) = tokens d a := by
  rw [tokens_append_cons d a [] c hc, tokens_nil, List.append_nil]

theorem findFrom_some (p : Char → Bool) (s : Str) (k n : Nat) (h : findFrom p s (some k) = some n) :
    ∃ j, n = k + j ∧ j < (s.drop k).length ∧ (∀ c ∈ (s.drop k).take j, p c = false) ∧
      ∃ c, (s.drop k).drop j = c :: (s.drop k).drop (j + 1) ∧ p c = true := by
  simp only [findFrom, Option.map_eq_some_iff] at h
  obtain ⟨j, hj, rfl⟩ := h
  obtain ⟨hlt, hp, hall⟩ := List.findIdx?_eq_some_iff_getElem.1 hj
  refine ⟨j, by omega, hlt, ?_, (s.drop k)[j], List.drop_eq_getElem_cons hlt, hp⟩
  intro c hc
  obtain ⟨i, hi, rfl⟩ := List.getElem_of_mem hc
  rw [List.length_take] at hi
  have := hall i (by omega)
  simp only [List.getElem_take]
  simpa using this

theorem findFrom_none (p : Char → Bool) (s : Str) (k : Nat) (h : findFrom p s (some k) = none) : ∀ c ∈ s.drop k, p c = false := by
  simp only [findFrom, Option.map_eq_none_iff] at h
  simpa using List.findIdx?_eq_none_iff.1 h

theorem splitLoop_ok (s : Str) (d : Char → Bool) (fuel L : Nat) (toks : List Str) (hf : s.length - L < fuel)
    (hL : L < s.length) (hd : ∃ c, s.drop L = c :: s.drop (L + 1) ∧ d c = false) :
    splitLoop s d fuel (some L) (findFrom d s (some L)) toks = .ok (toks ++ tokens d (s.drop L)) := by
  induction fuel generalizing L toks with
  | zero => omega
  | succ fuel ih =>
    obtain ⟨c0, hc0, hdc0⟩ := hd
    unfold splitLoop
    cases hpos : findFrom d s (some L) with
    | none =>
      have hno := findFrom_none d s L hpos
      have hs : substr s L (tokenLen none L) = .ok (s.drop L) := by simp [substr, tokenLen]; omega
      simp only [hs, ok_bind, findFrom]
      unfold splitLoop
      rw [tokens_single d _ hno (by rw [hc0]; simp)]
    | some P =>
      obtain ⟨j, rfl, hj, hfree, c, hcons, hc⟩ := findFrom_some d s L P hpos
      have hj0 : 0 < j := by
        rcases Nat.eq_zero_or_pos j with h | h
        · subst h
          rw [List.drop_zero, hc0] at hcons
          cases hcons
          rw [hdc0] at hc
          cases hc
        · exact h
      have hs : substr s L (tokenLen (some (L + j)) L) = .ok ((s.drop L).take j) := by
        simp only [substr, tokenLen, Option.map_some, Nat.add_sub_cancel_left]
        rw [if_neg (by omega)]
      have hu : s.drop L = (s.drop L).take j ++ c :: (s.drop L).drop (j + 1) := by
        conv_lhs => rw [← List.take_append_drop j (s.drop L)]
        rw [hcons]
      have hne : (s.drop L).take j ≠ [] := by
        intro h0
        have := congrArg List.length h0
        rw [List.length_take, List.length_nil] at this
        omega
      have htok : tokens d (s.drop L) = (s.drop L).take j :: tokens d (s.drop (L + j)) := by
        rw [hu, tokens_cons d _ hfree hne c hc]
        have e : s.drop (L + j) = c :: (s.drop L).drop (j + 1) := by rw [← List.drop_drop, hcons]
        rw [e, tokens_delim d hc, ← hu]
      simp only [hs, ok_bind]
      cases hl : findFrom (fun c => !d c) s (some (L + j)) with
      | none =>
        have := findFrom_none _ s _ hl
        simp only [findFrom]
        unfold splitLoop
        rw [htok, tokens_all d _ fun x hx => by simpa using this x hx]
      | some L' =>
        obtain ⟨m, rfl, hm, hdel, c', hcons', hc'⟩ := findFrom_some _ s _ _ hl
        rw [List.length_drop] at hm hj
        rw [ih (L + j + m) _ (by omega) (by omega)]
        · rw [htok]
          have e : tokens d (s.drop (L + j)) = tokens d (s.drop (L + j + m)) := by
            conv_lhs => rw [← List.take_append_drop m (s.drop (L + j))]
            rw [tokens_delims d _ _ fun x hx => by simpa using hdel x hx, List.drop_drop]
          rw [e]
          simp
        · refine ⟨c', ?_, by simpa using hc'⟩
          rw [← List.drop_drop, hcons', List.drop_drop]
          rfl

theorem splitStringAdd_eq (s : Str) (toks : List Str) (d : Char → Bool) : splitStringAdd s toks d = .ok (toks ++ tokens d s) := by
  unfold splitStringAdd
  simp only
  cases hl : findFrom (fun c => !d c) s (some 0) with
  | none =>
    have := findFrom_none _ s _ hl
    rw [List.drop_zero] at this
    unfold splitLoop
    rw [tokens_all d s fun x hx => by simpa using this x hx, List.append_nil]
  | some L =>
    obtain ⟨m, rfl, hm, hdel, c', hcons', hc'⟩ := findFrom_some _ s _ _ hl
    simp only [List.drop_zero, Nat.zero_add] at *
    rw [splitLoop_ok s d _ m _ (by omega) hm ⟨c', hcons', by simpa using hc'⟩]
    have e : tokens d s = tokens d (s.drop m) := by
      conv_lhs => rw [← List.take_append_drop m s]
      rw [tokens_delims d _ _ fun x hx => by simpa using hdel x hx]
    rw [e]

theorem dropWhile_eq_drop (d : Char → Bool) (s : Str) (m : Nat) (h1 : ∀ c ∈ s.take m, d c = true)
    (h2 : ∃ c, s.drop m = c :: s.drop (m + 1) ∧ d c = false) : s.dropWhile d = s.drop m := by
  obtain ⟨c, hc, hdc⟩ := h2
  conv_lhs => rw [← List.take_append_drop m s]
  rw [List.dropWhile_append_of_pos h1, hc, List.dropWhile_cons_of_neg (by simp [hdc])]

theorem splitString_eq (s : Str) (d : Char → Bool) :
    splitString s d = .ok (if (s.dropWhile d).any d then tokens d s else [s]) := by
  have hadd := splitStringAdd_eq s [] d
  unfold splitStringAdd at hadd
  unfold splitString
  simp only [List.nil_append] at *
  cases hl : findFrom (fun c => !d c) s (some 0) with
  | none =>
    have := findFrom_none _ s _ hl
    rw [List.drop_zero] at this
    have he : s.dropWhile d = [] := List.dropWhile_eq_nil_iff.2 fun x hx => by simpa using this x hx
    rw [he]
    simp [findFrom]
  | some L =>
    rw [hl] at hadd
    obtain ⟨m, rfl, hm, hdel, c', hcons', hc'⟩ := findFrom_some _ s _ _ hl
    simp only [List.drop_zero, Nat.zero_add] at *
    have he : s.dropWhile d = s.drop m := dropWhile_eq_drop d s m (fun x hx => by simpa using hdel x hx) ⟨c', hcons', by simpa using hc'⟩
    rw [he]
    cases hp : findFrom d s (some m) with
    | none =>
      have := findFrom_none _ s _ hp
      have : (s.drop m).any d = false := by simpa using this
      rw [this]; rfl
    | some P =>
      obtain ⟨j, rfl, hj, hfree, c, hcons, hc⟩ := findFrom_some d s m _ hp
      have hmem : c ∈ s.drop m := List.mem_of_mem_drop (by rw [hcons]; simp)
      have : (s.drop m).any d = true := List.any_eq_true.2 ⟨c, hmem, hc⟩
      simp only [this, if_true]
      rw [hp] at hadd
      exact hadd

theorem chopAt_eq (c : Char) (s : Str) : chopAt c s = .ok (before c s) := by
  unfold chopAt before
  cases h : findFrom (· == c) s (some 0) with
  | none =>
    have := findFrom_none _ s _ h
    rw [List.drop_zero] at this
    have e : s.takeWhile (· != c) = s := List.takeWhile_eq_self_iff.2 fun x hx => by
      have := this x hx
      simp only [bne, this, Bool.not_false]
    rw [e]
    simp [substr]
  | some n =>
    obtain ⟨j, rfl, hj, hfree, x, hcons, hx⟩ := findFrom_some _ s _ _ h
    simp only [List.drop_zero, Nat.zero_add] at *
    have e : s.takeWhile (· != c) = s.take j := by
      conv_lhs => rw [← List.take_append_drop j s]
      rw [List.takeWhile_append_of_pos (fun y hy => by simp only [bne, hfree y hy, Bool.not_false]), hcons,
        List.takeWhile_cons_of_neg (by simp only [bne, hx]; decide), List.append_nil]
    rw [e]
    simp [substr]

theorem findLast_some (p : Char → Bool) (s : Str) (n : Nat) (h : findLast p s = some n) :
    n < s.length ∧ (∃ c, s.take (n + 1) = s.take n ++ [c] ∧ p c = true) ∧ ∀ c ∈ s.drop (n + 1), p c = false := by
  simp only [findLast, Option.map_eq_some_iff] at h
  obtain ⟨j, hj, rfl⟩ := h
  obtain ⟨hlt, hp, hall⟩ := List.findIdx?_eq_some_iff_getElem.1 hj
  rw [List.length_reverse] at hlt
  refine ⟨by omega, ⟨_, List.take_succ_eq_append_getElem (by omega), ?_⟩, ?_⟩
  · rwa [List.getElem_reverse] at hp
  · intro c hc
    obtain ⟨i, hi, rfl⟩ := List.getElem_of_mem hc
    rw [List.length_drop] at hi
    have := hall (s.length - 1 - (s.length - 1 - j + 1 + i)) (by omega)
    rw [List.getElem_reverse] at this
    rw [List.getElem_drop]
    have e : s.length - 1 - (s.length - 1 - (s.length - 1 - j + 1 + i)) = s.length - 1 - j + 1 + i := by omega
    simp only [e] at this
    simpa using this

theorem findLast_none (p : Char → Bool) (s : Str) (h : findLast p s = none) : ∀ c ∈ s, p c = false := by
  simp only [findLast, Option.map_eq_none_iff] at h
  have := List.findIdx?_eq_none_iff.1 h
  intro c hc
  simpa using this c (by simpa using hc)

theorem trim_all_blank (s : Str) (h : ∀ c ∈ s, isBlank c = true) : trim s = [] := by
  unfold trim
  rw [List.dropWhile_eq_nil_iff.2 h]
  rfl

theorem trimWhitespace_eq (s : Str) : trimWhitespace s = .ok (if (trim s).length = 1 then [] else trim s) := by
  unfold trimWhitespace
  by_cases hs : s = []
  · subst hs; simp [trim]
  rw [if_neg hs]
  cases h1 : findFrom (fun c => !isBlank c) s (some 0) with
  | none =>
    have hb := findFrom_none _ s _ h1
    rw [List.drop_zero] at hb
    have hb' : ∀ c ∈ s, isBlank c = true := fun c hc => by simpa using hb c hc
    cases h2 : findLast (fun c => !isBlank c) s with
    | none => rw [trim_all_blank s hb']; rfl
    | some b =>
      obtain ⟨hlt, ⟨c, hc, hp⟩, _⟩ := findLast_some _ s b h2
      have : c ∈ s := List.mem_of_mem_take (i := b + 1) (by rw [hc]; simp)
      simp [hb' c this] at hp
  | some a =>
    obtain ⟨j, rfl, hj, hfree, x, hcons, hx⟩ := findFrom_some _ s _ _ h1
    simp only [List.drop_zero, Nat.zero_add] at *
    cases h2 : findLast (fun c => !isBlank c) s with
    | none =>
      have := findLast_none _ s h2 x (List.mem_of_mem_drop (i := j) (by rw [hcons]; simp))
      rw [hx] at this; cases this
    | some b =>
      obtain ⟨hlt, ⟨c, hc, hp⟩, hlast⟩ := findLast_some _ s b h2
      have hab : j ≤ b := by
        by_contra hcon
        have hmem : x ∈ s.drop (b + 1) := by
          have : s.drop j = (s.drop (b + 1)).drop (j - (b + 1)) := by rw [List.drop_drop]; congr 1; omega
          rw [this] at hcons
          exact List.mem_of_mem_drop (i := j - (b + 1)) (by rw [hcons]; simp)
        have := hlast x hmem
        rw [hx] at this; cases this
      have hdw : s.dropWhile isBlank = s.drop j :=
        dropWhile_eq_drop isBlank s j (fun y hy => by simpa using hfree y hy) ⟨x, hcons, by simpa using hx⟩
      have htrim : trim s = (s.drop j).take (b - j + 1) := by
        unfold trim
        rw [hdw]
        have hsplit : s.drop j = (s.drop j).take (b - j) ++ [c] ++ s.drop (b + 1) := by
          have e1 : (s.take (b + 1)).drop j = (s.take b).drop j ++ [c] := by
            rw [hc, List.drop_append_of_le_length (by rw [List.length_take]; omega)]
          have e2 : (s.take b).drop j = (s.drop j).take (b - j) := by rw [List.drop_take]
          have e3 : s.drop j = (s.take (b + 1)).drop j ++ s.drop (b + 1) := by
            conv_lhs => rw [← List.take_append_drop (b + 1) s]
            rw [List.drop_append_of_le_length (by rw [List.length_take]; omega)]
          rw [e3, e1, e2]
          congr 2
          rw [← e2, ← e1, ← e3]
          exact e2
        have htake : (s.drop j).take (b - j + 1) = (s.drop j).take (b - j) ++ [c] := by
          have hl : ((s.drop j).take (b - j) ++ [c]).length = b - j + 1 := by
            rw [List.length_append, List.length_take, List.length_drop, List.length_singleton]; omega
          conv_lhs => rw [hsplit]
          rw [List.take_left' hl]
        rw [htake]
        conv_lhs => rw [hsplit]
        rw [List.reverse_append, List.dropWhile_append_of_pos (fun y hy => by
          have := hlast y (List.mem_reverse.1 hy)
          simpa using this), List.reverse_append, List.reverse_singleton, List.singleton_append,
          List.dropWhile_cons_of_neg (by simpa using hp)]
        simp
      have hlen : (trim s).length = b - j + 1 := by
        rw [htrim, List.length_take, List.length_drop]; omega
      unfold trimBetween
      by_cases hjb : j = b
      · simp [hjb, hlen]
      · simp only [hjb, if_false]
        rw [if_neg (by omega), htrim]
        simp only [substr]
        rw [if_neg (by omega)]

end Imfit
