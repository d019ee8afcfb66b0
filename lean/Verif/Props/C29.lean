import Verif.Lemmas.Text

/-!
# C29 — tokenising

`SplitStringAdd` has the property. `SplitString` does not: if no delimiter follows the first token it returns the *whole string*, including leading
delimiters, and for an empty (or all-delimiter) string one token that is no token (`C29_false`). `C29_split` says exactly what it returns.
-/

namespace Imfit

open Spec

/-- `SplitStringAdd` appends exactly the maximal delimiter-free pieces, in order. -/
theorem C29_add (s : Str) (toks : List Str) (d : Char → Bool) : splitStringAdd s toks d = .ok (toks ++ tokens d s) :=
  splitStringAdd_eq s toks d

/-- `SplitString`, exactly: the pieces, or the whole string if no delimiter follows the first piece. -/
theorem C29_split (s : Str) (d : Char → Bool) : splitString s d = .ok (if (s.dropWhile d).any d then tokens d s else [s]) :=
  splitString_eq s d

/-- For every non-empty string that does not start with a delimiter, or that has a delimiter after its first piece, `SplitString` gives exactly the
pieces. (Missing: the other strings, where it does not.) -/
theorem C29_split_partial (s : Str) (d : Char → Bool) (h : (s.dropWhile d).any d = true ∨ (s ≠ [] ∧ s.head?.any d = false)) :
    splitString s d = .ok (tokens d s) := by
  rw [splitString_eq]
  by_cases h1 : (s.dropWhile d).any d = true
  · rw [if_pos h1]
  · rw [if_neg h1]
    rcases h with h | ⟨hne, hh⟩
    · exact absurd h h1
    · cases s with
      | nil => exact absurd rfl hne
      | cons c t =>
        have hc : d c = false := by simpa using hh
        rw [List.dropWhile_cons_of_neg (by simp [hc])] at h1
        have h1' : (c :: t).any d = false := by simpa using h1
        rw [tokens_single d _ (by simpa using h1') (by simp)]

/-- The two ways `SplitString` goes wrong: a leading blank stays in the token, and an empty line has one (empty) token. -/
theorem C29_false : splitString " abc".toList isBlank = .ok [" abc".toList] ∧ tokens isBlank " abc".toList = ["abc".toList] ∧
    splitString [] isBlank = .ok [[]] ∧ tokens isBlank [] = [] := by
  refine ⟨?_, ?_, ?_, ?_⟩ <;> decide

/-- The pieces: none is empty, none contains a delimiter, and together they are all the other characters in order. -/
theorem C29_pieces (d : Char → Bool) (s : Str) :
    (∀ t ∈ tokens d s, t ≠ [] ∧ ∀ c ∈ t, d c = false) ∧ (tokens d s).flatten = s.filter (fun c => !d c) := by
  constructor
  · intro t ht
    have ht' := List.mem_filter.1 ht
    refine ⟨by simpa using ht'.2, ?_⟩
    have key : ∀ (s : Str) (acc : Str), (∀ c ∈ acc, d c = false) → ∀ t ∈ List.splitOnPPrepend d s acc, ∀ c ∈ t, d c = false := by
      intro s
      induction s with
      | nil => intro acc hacc t ht c hc; simp at ht; subst ht; exact hacc c (by simpa using hc)
      | cons a s ih =>
        intro acc hacc t ht
        cases ha : d a with
        | true =>
          rw [List.splitOnPPrepend_cons_pos ha] at ht
          rcases List.mem_cons.1 ht with rfl | ht
          · intro c hc; exact hacc c (by simpa using hc)
          · exact ih [] (by simp) t (by simpa using ht)
        | false =>
          rw [List.splitOnPPrepend_cons_neg ha] at ht
          exact ih (a :: acc) (by intro c hc; rcases List.mem_cons.1 hc with rfl | h; exacts [ha, hacc c h]) t ht
    exact key s [] (by simp) t (by simpa using ht'.1)
  · have h1 : ∀ l : List Str, (l.filter (· ≠ [])).flatten = l.flatten := by
      intro l
      induction l with
      | nil => rfl
      | cons a l ih =>
        by_cases ha : a = []
        · subst ha; simp at ih ⊢; exact ih
        · rw [List.filter_cons_of_pos (by simpa using ha), List.flatten_cons, List.flatten_cons, ih]
    unfold tokens
    rw [h1]
    induction s with
    | nil => simp
    | cons a s ih =>
      rw [List.splitOnP_cons_eq_if_modifyHead]
      cases ha : d a with
      | true => simp [ih, ha]
      | false =>
        simp only [Bool.false_eq_true, if_false]
        have hne := List.splitOnP_ne_nil d s
        cases hsp : s.splitOnP d with
        | nil => exact absurd hsp hne
        | cons x xs =>
          rw [hsp] at ih
          simp [ha, ← ih]

/-- Extra delimiters — before, behind, or next to another delimiter — do not change the tokens. -/
theorem C29_extra (a b m : Str) (toks : List Str) (d : Char → Bool) (c : Char) (hc : d c = true) (hm : ∀ x ∈ m, d x = true) :
    splitStringAdd (m ++ a) toks d = splitStringAdd a toks d ∧ splitStringAdd (a ++ m) toks d = splitStringAdd a toks d ∧
    splitStringAdd (a ++ c :: (m ++ b)) toks d = splitStringAdd (a ++ c :: b) toks d := by
  simp only [splitStringAdd_eq]
  refine ⟨by rw [tokens_delims d m a hm], ?_, ?_⟩
  · cases m with
    | nil => simp
    | cons x m =>
      rw [tokens_append_cons d a m x (hm x (by simp)), tokens_all d m fun y hy => hm y (by simp [hy]), List.append_nil]
  · rw [tokens_append_cons d a _ c hc, tokens_append_cons d a _ c hc, tokens_delims d m b hm]

/-- The maximality of the pieces: between the pieces lie delimiters only — a string made of pieces separated by delimiter runs is split into exactly
these pieces. -/
theorem C29_maximal (d : Char → Bool) (ps : List (Str × Str)) (lead : Str) (hl : ∀ c ∈ lead, d c = true)
    (h : ∀ p ∈ ps, p.1 ≠ [] ∧ (∀ c ∈ p.1, d c = false) ∧ p.2 ≠ [] ∧ ∀ c ∈ p.2, d c = true) (toks : List Str) :
    splitStringAdd (lead ++ ps.flatMap fun p => p.1 ++ p.2) toks d = .ok (toks ++ ps.map (·.1)) := by
  rw [splitStringAdd_eq, tokens_delims d lead _ hl]
  congr 2
  induction ps with
  | nil => exact tokens_nil d
  | cons p ps ih =>
    obtain ⟨h1, h2, h3, h4⟩ := h p (by simp)
    rw [List.flatMap_cons, List.map_cons]
    cases hp : p.2 with
    | nil => exact absurd hp h3
    | cons c m =>
      rw [hp] at h4
      rw [List.append_assoc, List.cons_append, tokens_cons d p.1 h2 h1 c (h4 c (by simp)),
        tokens_delims d m _ fun x hx => h4 x (by simp [hx]), ih fun q hq => h q (by simp [hq])]

/-- Non-vacuous. -/
example : splitString "X0  34.5\t 30,40".toList isBlank = .ok ["X0".toList, "34.5".toList, "30,40".toList] := by
  rw [C29_split_partial _ _ (Or.inl (by decide))]
  congr 1

example : splitStringAdd "  a b ".toList ["z".toList] isBlank = .ok ["z".toList, "a".toList, "b".toList] := by
  rw [C29_add]
  congr 1

end Imfit
