import Verif.Spec.DreamStat
import Mathlib.Data.List.Sort

/-!
# The statistics functions without rounding

`exactGsl` shows that the contract `Spec.ExactGsl` can be met.
-/

namespace Imfit

open XR

/-- The finite values of a list. -/
noncomputable def finVals (l : List XR) : List ℝ := l.filterMap fun
  | fin x => some x
  | _ => none

theorem finVals_map (l : List ℝ) : finVals (l.map fin) = l := by
  unfold finVals
  rw [List.filterMap_map]
  induction l with
  | nil => rfl
  | cons a l ih => simp

open Classical in
/-- Exact statistics. -/
noncomputable def exactGsl : Gsl XR where
  mean l := fin (Spec.mean (finVals l))
  varM l m := match m with
    | fin m => fin (Spec.varAbout (finVals l) m)
    | _ => nan
  sd l := fin (Real.sqrt (Spec.var (finVals l)))
  quantile l f := match f with
    | fin f => fin (Spec.quantile (finVals l) f)
    | _ => nan
  maxIndex l := if h : ∃ (k : Nat) (v : ℝ), (finVals l)[k]? = some v ∧ ∀ x ∈ finVals l, x ≤ v then h.choose else 0
  sort l := ((finVals l).insertionSort (· ≤ ·)).map fin

theorem exists_max (l : List ℝ) (h : l ≠ []) : ∃ (k : Nat) (v : ℝ), l[k]? = some v ∧ ∀ x ∈ l, x ≤ v := by
  induction l with
  | nil => exact absurd rfl h
  | cons a l ih =>
    by_cases hl : l = []
    · subst hl
      exact ⟨0, a, rfl, by simp⟩
    · obtain ⟨k, v, h1, h2⟩ := ih hl
      rcases le_total a v with hav | hav
      · refine ⟨k + 1, v, by simpa using h1, ?_⟩
        intro x hx
        rcases List.mem_cons.1 hx with rfl | hx
        · exact hav
        · exact h2 x hx
      · refine ⟨0, a, rfl, ?_⟩
        intro x hx
        rcases List.mem_cons.1 hx with rfl | hx
        · exact le_refl _
        · exact (h2 x hx).trans hav

open Classical in
theorem exactGsl_exact : Spec.ExactGsl exactGsl where
  mean l _ := by
    show fin (Spec.mean (finVals (l.map fin))) = _
    rw [finVals_map]
  varM l m _ := by
    show fin (Spec.varAbout (finVals (l.map fin)) m) = _
    rw [finVals_map]
  sort l := by
    refine ⟨l.insertionSort (· ≤ ·), ?_, List.perm_insertionSort _ _, List.pairwise_insertionSort _ _⟩
    show ((finVals (l.map fin)).insertionSort (· ≤ ·)).map fin = _
    rw [finVals_map]
  quantile l f _ _ _ := by
    show fin (Spec.quantile (finVals (l.map fin)) f) = _
    rw [finVals_map]
  maxIndex l h := by
    have hex : ∃ (k : Nat) (v : ℝ), (finVals (l.map fin))[k]? = some v ∧ ∀ x ∈ finVals (l.map fin), x ≤ v := by
      rw [finVals_map]
      exact exists_max l h
    have he : exactGsl.maxIndex (l.map fin) = hex.choose := dif_pos hex
    obtain ⟨v, h1, h2⟩ := hex.choose_spec
    rw [he]
    generalize hex.choose = k at h1
    rw [finVals_map] at h1 h2
    exact ⟨v, h1, h2⟩

end Imfit
