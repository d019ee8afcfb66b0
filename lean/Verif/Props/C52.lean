import Verif.Model.Psf

/-!
# C52: every point source uses its own interpolation method

The model object has one interpolator, made for the first point source; all later point sources share it whatever their `method` is.
-/

namespace Imfit

/-- The words accepted for a method. -/
def Spec.methodWord : List Char → Option PsfMethod
  | ['b', 'i', 'c', 'u', 'b', 'i', 'c'] => some .bicubic
  | ['B', 'i', 'c', 'u', 'b', 'i', 'c'] => some .bicubic
  | ['l', 'a', 'n', 'c', 'z', 'o', 's', '2'] => some .lanczos2
  | ['L', 'a', 'n', 'c', 'z', 'o', 's', '2'] => some .lanczos2
  | ['l', 'a', 'n', 'c', 'z', 'o', 's', '3'] => some .lanczos3
  | ['L', 'a', 'n', 'c', 'z', 'o', 's', '3'] => some .lanczos3
  | _ => none

/-- A method given alone is stored if it is one of the words, and otherwise refused with the value -3, leaving the object as it was. -/
theorem C52_words (cur : PsfMethod) (v : List Char) :
    setMethod cur [(['m', 'e', 't', 'h', 'o', 'd'], v)] = match Spec.methodWord v with
      | some m => (1, m)
      | none => (-3, cur) := by
  unfold setMethod
  simp only [if_true]
  split_ifs with h1 h2 h3
  · rcases h1 with rfl | rfl <;> rfl
  · rcases h2 with rfl | rfl <;> rfl
  · rcases h3 with rfl | rfl <;> rfl
  · have : Spec.methodWord v = none := by
      unfold Spec.methodWord
      split <;> first
        | rfl
        | (exfalso; simp_all)
    rw [this]

/-- The word `lanczos3` and a misspelling. -/
example : setMethod .bicubic [(['m', 'e', 't', 'h', 'o', 'd'], ['L', 'a', 'n', 'c', 'z', 'o', 's', '3'])] = (1, .lanczos3) ∧
    setMethod .bicubic [(['m', 'e', 't', 'h', 'o', 'd'], ['l', 'a', 'n', 'c'])] = (-3, .bicubic) := by
  constructor <;> rw [C52_words] <;> rfl

/-- Whatever the optional parameters, the stored method changes only when 1 is returned. -/
theorem C52_refused (cur : PsfMethod) (m : List (List Char × List Char)) (h : (setMethod cur m).1 ≠ 1) : (setMethod cur m).2 = cur := by
  unfold setMethod at h ⊢
  split
  · rfl
  · split_ifs <;> simp_all

example : (setMethod .lanczos2 []).2 = .lanczos2 := C52_refused _ _ (by decide)

theorem addPointSources_some (hasPsf : Bool) (C R : Nat) (u : PsfMethod) (ms : List PsfMethod) (g : List PsfMethod) :
    addPointSources hasPsf C R ⟨some u, g⟩ ms = some ⟨some u, g ++ List.replicate ms.length u⟩ := by
  induction ms generalizing g with
  | nil => simp [addPointSources]
  | cons m ms ih =>
    simp only [addPointSources, addPointSource]
    rw [ih]
    simp [List.replicate_succ]

/-- The interpolators handed out: the method of the first point source, for all of them. Adding point sources fails exactly when there is no PSF image or
it has fewer than four columns or rows. -/
theorem C52_first (hasPsf : Bool) (C R : Nat) (m : PsfMethod) (ms : List PsfMethod) :
    addPointSources hasPsf C R ⟨none, []⟩ (m :: ms) =
      if hasPsf = true ∧ 4 ≤ C ∧ 4 ≤ R then some ⟨some m, List.replicate (ms.length + 1) m⟩ else none := by
  have hs : setupPsfInterp hasPsf C R m = if hasPsf = true ∧ 4 ≤ C ∧ 4 ≤ R then some m else none := by
    unfold setupPsfInterp
    cases hasPsf
    · simp
    · by_cases h : C < 4 ∨ R < 4
      · have h' : ¬(4 ≤ C ∧ 4 ≤ R) := by omega
        simp [h, h']
      · have h' : 4 ≤ C ∧ 4 ≤ R := by omega
        simp [h, h']
  simp only [addPointSources, addPointSource, hs]
  by_cases h : hasPsf = true ∧ 4 ≤ C ∧ 4 ≤ R
  · simp only [h, if_true, and_self, addPointSources_some]
    simp [List.replicate_succ]
  · simp only [h, if_false]

/-- Point sources that all name the same method get it. Missing: point sources with different methods, see `C52_method_false`. -/
theorem C52_same_partial (C R : Nat) (hC : 4 ≤ C) (hR : 4 ≤ R) (m : PsfMethod) (ms : List PsfMethod) (h : ∀ u ∈ ms, u = m) :
    ∃ s, addPointSources true C R ⟨none, []⟩ (m :: ms) = some s ∧ s.given = m :: ms := by
  rw [C52_first, if_pos ⟨rfl, hC, hR⟩]
  refine ⟨_, rfl, ?_⟩
  show List.replicate (ms.length + 1) m = _
  rw [List.replicate_succ, ← List.eq_replicate_of_mem h]

example : ∃ s, addPointSources true 5 4 ⟨none, []⟩ [.lanczos3, .lanczos3] = some s ∧ s.given = [.lanczos3, .lanczos3] :=
  C52_same_partial 5 4 (by decide) (by decide) .lanczos3 [.lanczos3] (by simp)

/-- A second point source with another method: its method is ignored, and no error is reported. -/
theorem C52_method_false (C R : Nat) (hC : 4 ≤ C) (hR : 4 ≤ R) :
    ∃ s, addPointSources true C R ⟨none, []⟩ [.bicubic, .lanczos2] = some s ∧ s.given = [.bicubic, .bicubic] := by
  rw [C52_first, if_pos ⟨rfl, hC, hR⟩]
  exact ⟨_, rfl, rfl⟩

end Imfit
