import Verif.Lemmas.Text

/-!
# C30 — whitespace and comments

Comment removal has the property. Trimming does not: a string with exactly one non-blank character is emptied (`C30_false`), because the first and the
last non-blank position being equal is taken for "all blank". `C30_trim` says exactly what is returned.
-/

namespace Imfit

open Spec

/-- Comment removal keeps exactly the text before the first comment character. -/
theorem C30_chop (c : Char) (s : Str) : ∃ rest, chopAt c s = .ok (before c s) ∧ s = before c s ++ rest ∧ c ∉ before c s ∧
    (rest = [] ∨ rest.head? = some c) := by
  refine ⟨s.dropWhile (· != c), chopAt_eq c s, (List.takeWhile_append_dropWhile).symm, ?_, ?_⟩
  · intro h
    have := List.mem_takeWhile_imp h
    simp at this
  · cases h : s.dropWhile (· != c) with
    | nil => left; rfl
    | cons x t =>
      right
      have h0 : 0 < (s.dropWhile (· != c)).length := by rw [h]; simp
      have := List.dropWhile_get_zero_not (· != c) s h0
      simp only [h, List.get_eq_getElem, List.getElem_cons_zero] at this
      simpa using this

theorem before_idem (c : Char) (s : Str) : before c (before c s) = before c s :=
  List.takeWhile_eq_self_iff.2 fun _ hx => List.mem_takeWhile_imp (p := (· != c)) hx

/-- Comment removal is idempotent. -/
theorem C30_chop_idempotent (c : Char) (s t : Str) (h : chopAt c s = .ok t) : chopAt c t = .ok t := by
  rw [chopAt_eq] at *
  cases h
  rw [before_idem]

/-- Trimming, exactly: the trimmed text, except that a single character is dropped. -/
theorem C30_trim (s : Str) : trimWhitespace s = .ok (if (trim s).length = 1 then [] else trim s) := trimWhitespace_eq s

/-- Trimming removes exactly the leading and trailing blanks, tabs and newlines. (Missing: texts with exactly one non-blank stretch of length one,
which are emptied.) -/
theorem C30_trim_partial (s : Str) (h : (trim s).length ≠ 1) : trimWhitespace s = .ok (trim s) := by
  rw [C30_trim, if_neg h]

/-- What `trim` means: `s` is blanks, the trimmed text, blanks; the trimmed text neither starts nor ends with a blank. -/
theorem C30_trim_spec (s : Str) : ∃ a b, s = a ++ trim s ++ b ∧ (∀ c ∈ a, isBlank c = true) ∧ (∀ c ∈ b, isBlank c = true) ∧
    (∀ c, (trim s).head? = some c → isBlank c = false) ∧ (∀ c, (trim s).getLast? = some c → isBlank c = false) := by
  unfold trim
  set u := s.dropWhile isBlank with hu
  refine ⟨s.takeWhile isBlank, (u.reverse.takeWhile isBlank).reverse, ?_, fun c hc => List.mem_takeWhile_imp hc,
    fun c hc => List.mem_takeWhile_imp (List.mem_reverse.1 hc), ?_, ?_⟩
  · rw [List.append_assoc, ← List.reverse_append, List.takeWhile_append_dropWhile, List.reverse_reverse, hu, List.takeWhile_append_dropWhile]
  · intro c hc
    have hsub : (u.reverse.dropWhile isBlank).reverse <+: u := by
      rw [← List.reverse_suffix, List.reverse_reverse]
      exact List.dropWhile_suffix _
    obtain ⟨r, hr⟩ := hsub
    have hu0 : u.head? = some c := by
      rw [← hr]
      cases h : (u.reverse.dropWhile isBlank).reverse with
      | nil => rw [h] at hc; cases hc
      | cons x xs => rw [h] at hc; exact hc
    cases hu' : u with
    | nil => rw [hu'] at hu0; cases hu0
    | cons x xs =>
      rw [hu'] at hu0
      cases hu0
      have h0 : 0 < (s.dropWhile isBlank).length := by rw [← hu, hu']; simp
      have := List.dropWhile_get_zero_not isBlank s h0
      rw [← Bool.not_eq_true]
      simpa [← hu, hu'] using this
  · intro c hc
    rw [List.getLast?_reverse] at hc
    cases h : u.reverse.dropWhile isBlank with
    | nil => rw [h] at hc; cases hc
    | cons x xs =>
      rw [h] at hc
      cases hc
      have h0 : 0 < (u.reverse.dropWhile isBlank).length := by rw [h]; simp
      have := List.dropWhile_get_zero_not isBlank u.reverse h0
      rw [← Bool.not_eq_true]
      simpa [h] using this

/-- Trimming is idempotent (also with the defect). -/
theorem C30_trim_idempotent (s t : Str) (h : trimWhitespace s = .ok t) : trimWhitespace t = .ok t := by
  have hid : trim (trim s) = trim s := by
    obtain ⟨a, b, _, _, _, hh, hl⟩ := C30_trim_spec s
    generalize trim s = t at hh hl
    cases t with
    | nil => rfl
    | cons x xs =>
      have hx := hh x rfl
      unfold trim
      rw [List.dropWhile_cons_of_neg (by simp [hx])]
      cases hr : (x :: xs).reverse with
      | nil => simp at hr
      | cons y ys =>
        have hy := hl y (by rw [← List.head?_reverse, hr]; rfl)
        rw [List.dropWhile_cons_of_neg (by simp [hy]), ← hr, List.reverse_reverse]
  rw [C30_trim] at h
  cases h
  rw [C30_trim]
  by_cases h1 : (trim s).length = 1
  · rw [if_pos h1]; rfl
  · rw [if_neg h1, hid, if_neg h1]

/-- A one-character text is emptied. -/
theorem C30_false : trimWhitespace " 5 ".toList = .ok [] ∧ trim " 5 ".toList = "5".toList := by decide

/-- Non-vacuous. -/
example : trimWhitespace "\t X0 10  ".toList = .ok "X0 10".toList := by decide

example : chopAt '#' "X0 10 # a # b".toList = .ok "X0 10 ".toList := by decide

end Imfit
