import Verif.Lemmas.Dream

/-!
# Lemmas about resuming the Markov-chain sampler
-/

namespace Imfit

section
variable {σ α : Type}

/-- A cell belongs to one generation and one chain. -/
theorem cell_inj {n k k' i i' : Nat} (hi : i < n) (hi' : i' < n) (h : k * n + i = k' * n + i') : k = k' ∧ i = i' := by
  have h1 : (k * n + i) % n = i := by rw [Nat.mul_add_mod_self_right, Nat.mod_eq_of_lt hi]
  have h2 : (k' * n + i') % n = i' := by rw [Nat.mul_add_mod_self_right, Nat.mod_eq_of_lt hi']
  have hii : i = i' := by rw [← h1, h, h2]
  refine ⟨?_, hii⟩
  subst hii
  have : k * n = k' * n := by omega
  exact Nat.eq_of_mul_eq_mul_right (by omega) this

/-- The line that has been read into cell `(k, i)`, if any: lines `ls` read from line number `line` on. -/
def lineAt (ls : List (ChainLine α)) (line k : Nat) : Option (ChainLine α) := if line ≤ k then ls[k - line]? else none

/-- Sizes of the two arrays. -/
def Sized (c : DreamCfg α) (st : DreamSt σ α) : Prop :=
  st.state.length = c.maxEvals * c.numChains ∧ st.lik.length = (c.maxEvals + 1) * c.numChains

/-- What reading does to the variables. -/
structure ReadInto (c : DreamCfg α) (st st' : DreamSt σ α) (cell : Nat → Nat → Option (ChainLine α)) : Prop where
  same : ∃ s l b p, st' = { st with state := s, lik := l, inBurn := b, pCR := p }
  sized : Sized c st'
  state : ∀ k i, i < c.numChains → st'.state[k * c.numChains + i]? = match cell k i with
    | some l => some (some l.vals)
    | none => st.state[k * c.numChains + i]?
  lik : ∀ k i, i < c.numChains → st'.lik[k * c.numChains + i]? = match cell k i with
    | some l => some (some l.lik)
    | none => st.lik[k * c.numChains + i]?

theorem restoreLines_sat {c : DreamCfg α} {i0 : Nat} (hi0 : i0 < c.numChains) (ls : List (ChainLine α)) (line : Nat) (st : DreamSt σ α) (hs : Sized c st)
    (hle : line + ls.length ≤ c.maxEvals) :
    Sat (restoreLines c i0 ls line st) fun r => ReadInto c st r.1 (fun k i => if i = i0 then lineAt ls line k else none) ∧ r.2 = line + ls.length ∧
      (∀ l, ls.getLast? = some l → r.1.inBurn = l.burn ∧ r.1.pCR = l.pCR) ∧ (ls = [] → r.1 = st) := by
  induction ls generalizing line st with
  | nil =>
    refine Sat.ok ⟨⟨⟨_, _, _, _, rfl⟩, hs, ?_, ?_⟩, rfl, ?_, fun _ => rfl⟩
    · intro k i hi
      have : (if i = i0 then lineAt ([] : List (ChainLine α)) line k else none) = none := by simp [lineAt]
      rw [this]
    · intro k i hi
      have : (if i = i0 then lineAt ([] : List (ChainLine α)) line k else none) = none := by simp [lineAt]
      rw [this]
    · intro l h
      cases h
  | cons a ls ih =>
    simp only [List.length_cons] at hle
    unfold restoreLines
    rw [if_neg (by omega)]
    have hlt : line * c.numChains + i0 < st.state.length := by
      rw [hs.1]
      exact cellIdx_lt hi0 (by omega)
    have hlt' : line * c.numChains + i0 < st.lik.length := by
      rw [hs.2]
      exact cellIdx_lt hi0 (by omega)
    refine Sat.bind (Sat.wr hlt) ?_
    rintro s rfl
    refine Sat.bind (Sat.wr hlt') ?_
    rintro l rfl
    refine (ih (line + 1) _ ⟨by simpa using hs.1, by simpa using hs.2⟩ (by omega)).mono ?_
    rintro ⟨r, n⟩ ⟨h1, h2, h3, h4⟩
    have hcell : ∀ k i, i < c.numChains → (k = line ∧ i = i0) ∨ ((k ≠ line ∨ i ≠ i0) ∧
        (if i = i0 then lineAt (a :: ls) line k else none) = (if i = i0 then lineAt ls (line + 1) k else none) ∧
        line * c.numChains + i0 ≠ k * c.numChains + i) := by
      intro k i hi
      by_cases hki : k = line ∧ i = i0
      · exact Or.inl hki
      · refine Or.inr ⟨by tauto, ?_, ?_⟩
        · by_cases hii : i = i0
          · rw [if_pos hii, if_pos hii]
            unfold lineAt
            have hkl : k ≠ line := fun h => hki ⟨h, hii⟩
            by_cases hlk : line ≤ k
            · rw [if_pos hlk, if_pos (by omega), show k - line = (k - (line + 1)) + 1 by omega, List.getElem?_cons_succ]
            · rw [if_neg hlk, if_neg (by omega)]
          · rw [if_neg hii, if_neg hii]
        · intro h
          have := cell_inj hi0 hi h
          exact hki ⟨this.1.symm, this.2.symm⟩
    have hnone : (if i0 = i0 then lineAt ls (line + 1) line else none) = none := by
      rw [if_pos rfl]
      unfold lineAt
      rw [if_neg (by omega)]
    have hsome : (if i0 = i0 then lineAt (a :: ls) line line else none) = some a := by
      rw [if_pos rfl]
      unfold lineAt
      rw [if_pos (le_refl _), Nat.sub_self]
      rfl
    refine ⟨⟨?_, h1.sized, ?_, ?_⟩, ?_, ?_, fun h => by cases h⟩
    · obtain ⟨s', l', b', p', e⟩ := h1.same
      exact ⟨s', l', b', p', e⟩
    · intro k i hi
      rw [h1.state k i hi]
      rcases hcell k i hi with ⟨rfl, rfl⟩ | ⟨-, e, hne⟩
      · rw [hnone, hsome]
        exact List.getElem?_set_self hlt
      · rw [e, List.getElem?_set_ne hne]
    · intro k i hi
      rw [h1.lik k i hi]
      rcases hcell k i hi with ⟨rfl, rfl⟩ | ⟨-, e, hne⟩
      · rw [hnone, hsome]
        exact List.getElem?_set_self hlt'
      · rw [e, List.getElem?_set_ne hne]
    · have : n = line + 1 + ls.length := h2
      show n = _
      rw [this, List.length_cons]
      omega
    · intro l hl
      cases ls with
      | nil =>
        cases hl
        have : r = _ := h4 rfl
        rw [this]
        exact ⟨rfl, rfl⟩
      | cons b ls => exact h3 l hl

/-- The line that has been read into cell `(k, i)`, if any: files `fs` read for chain `i0` and the following ones. -/
def fileAt (fs : List (List (ChainLine α))) (i0 k i : Nat) : Option (ChainLine α) := if i0 ≤ i then (fs[i - i0]?).bind (·[k]?) else none

theorem restoreChains_sat {c : DreamCfg α} (fs : List (List (ChainLine α))) (i0 : Nat) (prev : Int) (st : DreamSt σ α) (hs : Sized c st)
    (hn : i0 + fs.length ≤ c.numChains) (hle : ∀ f ∈ fs, f.length ≤ c.maxEvals) :
    Sat (restoreChains c i0 (fs.map some) prev st) fun r => ReadInto c st r.1 (fileAt fs i0) ∧ r.2 = (fs.map List.length).foldl prevAfter prev ∧
      (∀ f l, fs.getLast? = some f → f.getLast? = some l → r.1.inBurn = l.burn ∧ r.1.pCR = l.pCR) ∧ (fs = [] → r.1 = st) := by
  induction fs generalizing i0 prev st with
  | nil =>
    refine Sat.ok ⟨⟨⟨_, _, _, _, rfl⟩, hs, ?_, ?_⟩, rfl, ?_, fun _ => rfl⟩
    · intro k i hi
      have : fileAt ([] : List (List (ChainLine α))) i0 k i = none := by simp [fileAt]
      rw [this]
    · intro k i hi
      have : fileAt ([] : List (List (ChainLine α))) i0 k i = none := by simp [fileAt]
      rw [this]
    · intro f l h
      cases h
  | cons f fs ih =>
    simp only [List.length_cons] at hn
    rw [List.map_cons]
    unfold restoreChains
    refine Sat.bind (restoreLines_sat (by omega) f 0 st hs (by rw [Nat.zero_add]; exact hle f (by simp))) ?_
    rintro ⟨r1, n⟩ ⟨h1, h2, h3, h4⟩
    refine (ih (i0 + 1) _ r1 h1.sized (by omega) fun g hg => hle g (by simp [hg])).mono ?_
    rintro ⟨r, p⟩ ⟨g1, g2, g3, g4⟩
    have hcell : ∀ k i, (i = i0 ∧ fileAt fs (i0 + 1) k i = none ∧ fileAt (f :: fs) i0 k i = lineAt f 0 k) ∨
        (i ≠ i0 ∧ fileAt (f :: fs) i0 k i = fileAt fs (i0 + 1) k i) := by
      intro k i
      by_cases h : i = i0
      · subst h
        refine Or.inl ⟨rfl, ?_, ?_⟩
        · unfold fileAt
          rw [if_neg (by omega)]
        · unfold fileAt lineAt
          rw [if_pos (le_refl _), if_pos (Nat.zero_le _), Nat.sub_self]
          rfl
      · refine Or.inr ⟨h, ?_⟩
        unfold fileAt
        by_cases hle : i0 ≤ i
        · rw [if_pos hle, if_pos (by omega), show i - i0 = (i - (i0 + 1)) + 1 by omega, List.getElem?_cons_succ]
        · rw [if_neg hle, if_neg (by omega)]
    refine ⟨⟨?_, g1.sized, ?_, ?_⟩, ?_, ?_, fun h => by cases h⟩
    · obtain ⟨s', l', b', p', e⟩ := h1.same
      obtain ⟨s2, l2, b2, p2, e2⟩ := g1.same
      refine ⟨s2, l2, b2, p2, ?_⟩
      show r = _
      rw [show r = _ from e2, show r1 = _ from e]
    · intro k i hi
      rw [g1.state k i hi]
      rcases hcell k i with ⟨rfl, e1, e2⟩ | ⟨hne, e⟩
      · rw [e1, e2]
        have := h1.state k i hi
        rw [if_pos rfl] at this
        exact this
      · rw [e]
        have := h1.state k i hi
        rw [if_neg hne] at this
        cases fileAt fs (i0 + 1) k i with
        | none => exact this
        | some l => rfl
    · intro k i hi
      rw [g1.lik k i hi]
      rcases hcell k i with ⟨rfl, e1, e2⟩ | ⟨hne, e⟩
      · rw [e1, e2]
        have := h1.lik k i hi
        rw [if_pos rfl] at this
        exact this
      · rw [e]
        have := h1.lik k i hi
        rw [if_neg hne] at this
        cases fileAt fs (i0 + 1) k i with
        | none => exact this
        | some l => rfl
    · rw [show p = _ from g2, List.map_cons, List.foldl_cons, show n = _ from h2, Nat.zero_add]
    · intro g l hg hl
      cases fs with
      | nil =>
        cases hg
        rw [show (r, p).1 = r1 from g4 rfl]
        exact h3 l hl
      | cons b fs => exact g3 g l hg hl

end

end Imfit
