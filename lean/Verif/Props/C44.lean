import Verif.Model.CmdLine

/-!
# C44 — Formatted output is never truncated

False of the code: a text of exactly 1024 characters loses its last character, and longer texts are formatted a second time from an argument list that the
first attempt has consumed.
-/

namespace Imfit

theorem vok {α β : Type} (a : α) (f : α → Res β) : (Except.ok a >>= f) = f a := rfl

/-- Reading back the first characters of a buffer that begins with them. -/
theorem bufString_prefix (u : Str) (rest : List (Option Char)) : bufString (u.map some ++ rest) u.length = .ok u := by
  unfold bufString
  have key : ∀ (l : List Nat) (g : Nat → Char), (∀ i ∈ l, (u.map some ++ rest)[i]? = some (some (g i))) →
      l.mapM (bufByte (u.map some ++ rest)) = (.ok (l.map g) : Res Str) := by
    intro l g h
    induction l with
    | nil => rfl
    | cons i l ih =>
      rw [List.mapM_cons, ih fun j hj => h j (by simp [hj])]
      have : bufByte (u.map some ++ rest) i = .ok (g i) := by unfold bufByte rd; rw [h i (by simp)]; rfl
      rw [this]
      rfl
  rw [key (List.range u.length) (fun i => u.getD i 'x')]
  · congr 1
    apply List.ext_getElem
    · simp
    · intro i h1 h2
      simp [List.getD_eq_getElem?_getD, h2]
  · intro i hi
    have hi' : i < u.length := by simpa using hi
    rw [List.getElem?_append_left (by simpa using hi')]
    simp [List.getD_eq_getElem?_getD, hi']

theorem buf_fits (t : Str) (size : Nat) (h : t.length < size) : bufString (snprintfBuf t size) t.length = .ok t := by
  unfold snprintfBuf
  have e : min t.length (size - 1) = t.length := by omega
  simp only [e, List.take_length, List.append_assoc]
  exact bufString_prefix t _

/-- Texts shorter than the stack buffer are returned completely, and longer ones (below 2 GB) if the format takes no arguments. (Missing: the length 1024,
and longer texts with arguments, for which this is false or undefined.) -/
theorem C44_partial (t : Str) (nargs : Nat) (h : t.length < 1024 ∨ (nargs = 0 ∧ t.length ≠ 1024 ∧ t.length < 2 ^ 31)) : vformat t nargs = .ok t := by
  unfold vformat vformatLoop
  rw [if_neg (by simp)]
  have hr : snprintfRet t = t.length := by
    unfold snprintfRet
    rw [if_pos (by omega)]
  simp only [hr]
  by_cases h1 : t.length < 1024
  · rw [if_pos (by omega), Int.toNat_natCast]
    exact buf_fits t 1024 h1
  · obtain ⟨h0, h2, h3⟩ := h.resolve_left h1
    rw [if_neg (by omega), if_pos (by omega), Int.toNat_natCast]
    unfold vformatLoop
    rw [if_neg (by simp [h0])]
    simp only [hr]
    rw [if_pos (by omega), Int.toNat_natCast]
    exact buf_fits t _ (by omega)

/-- A text of exactly 1024 characters: the last one is replaced by NUL. -/
theorem C44_cut (t : Str) (nargs : Nat) (h : t.length = 1024) : vformat t nargs = .ok (t.take 1023 ++ ['\x00']) := by
  unfold vformat vformatLoop
  rw [if_neg (by simp)]
  have hr : snprintfRet t = t.length := by
    unfold snprintfRet
    rw [if_pos (by omega)]
  simp only [hr]
  rw [if_pos (by omega), Int.toNat_natCast]
  have hl : (t.take 1023 ++ ['\x00']).length = t.length := by simp [h]
  rw [← hl]
  unfold snprintfBuf
  simp only [h]
  have := bufString_prefix (t.take 1023 ++ ['\x00']) []
  simpa using this

/-- Longer texts with at least one argument: the consumed argument list is used again, which is undefined. -/
theorem C44_reuse (t : Str) (nargs : Nat) (hn : nargs ≠ 0) (h : 1024 < t.length) : vformat t nargs = .error .null := by
  unfold vformat vformatLoop
  rw [if_neg (by simp)]
  have hr : ¬ (snprintfRet t ≤ ((1024 : Nat) : Int) ∧ snprintfRet t ≥ 0) := by
    unfold snprintfRet
    split <;> omega
  simp only [if_neg hr]
  unfold vformatLoop
  rw [if_pos ⟨rfl, hn⟩]

/-- No text of 1024 characters without NUL survives, and no longer one with arguments. -/
theorem C44_false (t : Str) (nargs : Nat) (hz : '\x00' ∉ t) (h : t.length = 1024 ∨ (1024 < t.length ∧ nargs ≠ 0)) : vformat t nargs ≠ .ok t := by
  rcases h with h | ⟨h1, h2⟩
  · rw [C44_cut t nargs h]
    intro e
    have e' : t.take 1023 ++ ['\x00'] = t := by injection e
    exact hz (by rw [← e']; simp)
  · rw [C44_reuse t nargs h2 h1]
    intro e; cases e

/-- Non-vacuous: a text of 1023 characters is complete, one of 1024 is not, 1025 without arguments is complete again. -/
example : vformat (List.replicate 1023 'a') 1 = .ok (List.replicate 1023 'a') ∧ vformat (List.replicate 1024 'a') 1 ≠ .ok (List.replicate 1024 'a') ∧
    vformat (List.replicate 1025 'a') 0 = .ok (List.replicate 1025 'a') ∧ vformat (List.replicate 1025 'a') 1 = .error .null := by
  have l (n : Nat) : (List.replicate n 'a').length = n := List.length_replicate
  refine ⟨C44_partial _ 1 (Or.inl (by rw [l]; omega)), C44_false _ 1 ?_ (Or.inl (l _)), C44_partial _ 0 (Or.inr (by rw [l]; omega)),
    C44_reuse _ 1 (by omega) (by rw [l]; omega)⟩
  intro h
  have := List.eq_of_mem_replicate h
  revert this; decide

end Imfit
