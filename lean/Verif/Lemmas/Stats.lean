import Verif.Model.Stats
import Verif.Lemmas.Fit
import Mathlib.Data.Rat.Floor
import Mathlib.Tactic.Linarith
import Mathlib.Tactic.Positivity
import Mathlib.Algebra.Order.BigOperators.Group.List

/-!
# Statistics helpers on finite samples
-/

namespace Imfit

open XR

/-- A sample of finite values. -/
def finL (l : List ℝ) : List XR := l.map fin

theorem finL_length (l : List ℝ) : (finL l).length = l.length := by simp [finL]

theorem rd_finL (l : List ℝ) {k : Nat} (h : k < l.length) : rd (finL l) k = .ok (fin l[k]) := by
  rw [rd_ok (by simpa [finL] using h)]; simp [finL]

theorem sum_take_succ (l : List ℝ) (k : Nat) (h : k < l.length) (f : ℝ → ℝ) :
    ((l.take (k + 1)).map f).sum = ((l.take k).map f).sum + f l[k] := by
  rw [List.take_succ_eq_append_getElem h, List.map_append, List.sum_append]; simp

theorem sumVals_prefix (l : List ℝ) (n : Nat) (hn : n ≤ l.length) : sumVals (finL l) n = .ok (fin (l.take n).sum) := by
  unfold sumVals
  rw [forN_ok n _ _ (fun k => fin (l.take k).sum)]
  · simp
  · intro k hk
    rw [rd_finL l (by omega)]
    have := sum_take_succ l k (by omega) id
    simp only [List.map_id, id] at this
    simp [this]

theorem sumSqDiff_prefix (l : List ℝ) (n : Nat) (hn : n ≤ l.length) (m : ℝ) :
    sumSqDiff (finL l) n (fin m) = .ok (fin ((l.take n).map fun x => (x - m) * (x - m)).sum) := by
  unfold sumSqDiff
  rw [forN_ok n _ _ (fun k => fin ((l.take k).map fun x => (x - m) * (x - m)).sum)]
  · simp
  · intro k hk
    rw [rd_finL l (by omega)]
    have := sum_take_succ l k (by omega) (fun x => (x - m) * (x - m))
    rw [this]
    simp only [ok_bind, fin_sub, fin_mul, fin_add, pure_eq_ok]

theorem meanOf_prefix (l : List ℝ) (n : Nat) (h0 : 0 < n) (hn : n ≤ l.length) :
    meanOf (finL l) n = .ok (fin ((l.take n).sum / n)) := by
  have : ((n : ℚ) : ℝ) ≠ 0 := by exact_mod_cast h0.ne'
  simp only [meanOf, sumVals_prefix l n hn, ok_bind, lit_def, fin_div_of_ne this, pure_eq_ok]
  push_cast
  rfl

theorem sq_sum_nonneg (l : List ℝ) (m : ℝ) : 0 ≤ (l.map fun x => (x - m) * (x - m)).sum := by
  apply List.sum_nonneg
  intro x hx
  obtain ⟨y, _, rfl⟩ := List.mem_map.1 hx
  exact mul_self_nonneg _

theorem stdDev_prefix (l : List ℝ) (n : Nat) (h1 : 1 < n) (hn : n ≤ l.length) :
    stdDev (finL l) n = .ok (fin (Real.sqrt (((l.take n).map fun x => (x - (l.take n).sum / n) * (x - (l.take n).sum / n)).sum / ((n : ℝ) - 1)))) := by
  have h2 : (n : ℝ) ≠ 0 := by
    have : 0 < n := by omega
    exact_mod_cast this.ne'
  have hpos : (0 : ℝ) < (n : ℝ) - 1 := by
    have : (1 : ℝ) < n := by exact_mod_cast h1
    linarith
  have h3 : ((((n : Int) - 1 : Int) : ℚ) : ℝ) = (n : ℝ) - 1 := by push_cast; ring
  have h5 : ((n : ℚ) : ℝ) = (n : ℝ) := by push_cast; rfl
  have hle : ∀ q : ℝ, 0 ≤ q → fle (fin 0) (fin q) = true := by
    intro q hq; simp [hq]
  simp only [stdDev, sumVals_prefix l n hn, ok_bind, lit_def, h5, fin_div_of_ne h2, sumSqDiff_prefix l n hn, zero_def,
    hle _ (sq_sum_nonneg _ _), h3, if_true, fin_div_of_ne hpos.ne', pure_eq_ok]
  rw [fsqrt_fin_of_nonneg]
  exact div_nonneg (sq_sum_nonneg _ _) hpos.le

/-- The sort of a finite sample. -/
noncomputable def sortedR (l : List ℝ) : List ℝ := l.mergeSort (fun a b => decide (a ≤ b))

theorem sortedR_perm (l : List ℝ) : (sortedR l).Perm l := List.mergeSort_perm _ _

theorem sortedR_sorted (l : List ℝ) : (sortedR l).Pairwise (· ≤ ·) := by
  have := List.pairwise_mergeSort (le := fun a b : ℝ => decide (a ≤ b)) (fun a b c h1 h2 => by
    simp only [decide_eq_true_eq] at *; linarith) (fun a b => by
    simp only [Bool.or_eq_true, decide_eq_true_eq]; exact le_total a b) l
  unfold sortedR
  exact this.imp fun h => by simpa using h

theorem sortComp_fin (a b : ℝ) : decide (sortComp (fin a) (fin b) ≤ 0) = decide (a ≤ b) := by
  unfold sortComp
  simp only [flt_fin, fle_fin]
  by_cases h : b < a
  · simp [h, not_le.2 h]
  · have h' := not_lt.1 h
    simp only [h, decide_false, Bool.false_eq_true, if_false, h', decide_true, Bool.true_and]
    split <;> simp

theorem sortVals_finL (l : List ℝ) (n : Nat) : sortVals (finL l) n = finL (sortedR (l.take n)) ++ finL (l.drop n) := by
  unfold sortVals finL sortedR
  rw [← List.map_take, ← List.map_drop, List.map_mergeSort (s := fun x y => decide (sortComp x y ≤ 0)) (f := fin)]
  intro a _ b _
  exact (sortComp_fin a b).symm

theorem ciLower_facts {n : Nat} (hn : 0 < n) : 0 ≤ ciLower n ∧ ciLower n < n := by
  unfold ciLower roundHalfUp
  simp only
  have hf : ⌊1585 / 10000 * (n : ℚ) + 1 / 2⌋ ≤ n := by
    have : 1585 / 10000 * (n : ℚ) + 1 / 2 < (n : ℚ) + 1 := by
      have : (0 : ℚ) ≤ n := by positivity
      linarith
    have := Int.floor_lt (z := (n : Int) + 1) |>.2 (by push_cast; exact this)
    omega
  split <;> omega

theorem ciUpper_facts {n : Nat} (hn : 0 < n) : 0 ≤ ciUpper n ∧ ciUpper n < n := by
  unfold ciUpper roundHalfUp
  simp only
  have hf : 0 ≤ ⌊8415 / 10000 * (n : ℚ) + 1 / 2⌋ := Int.floor_nonneg.2 (by positivity)
  split <;> omega

/-- The interval covers at least 68.3 % of the indices. -/
theorem ci_width {n : Nat} (hn : 0 < n) : (683 : ℚ) / 1000 * n ≤ ((ciUpper n - ciLower n + 1 : Int) : ℚ) := by
  have hn' : (1 : ℚ) ≤ n := by exact_mod_cast hn
  have u1 : 8415 / 10000 * (n : ℚ) + 1 / 2 < (⌊8415 / 10000 * (n : ℚ) + 1 / 2⌋ : ℚ) + 1 := Int.lt_floor_add_one _
  have l1 : (⌊1585 / 10000 * (n : ℚ) + 1 / 2⌋ : ℚ) ≤ 1585 / 10000 * (n : ℚ) + 1 / 2 := Int.floor_le _
  unfold ciUpper ciLower roundHalfUp
  simp only
  split <;> split <;> rename_i h1 h2
  · push_cast; linarith
  · push_cast; linarith
  · -- small sample: lower index clipped to 0
    have h3 : ⌊1585 / 10000 * (n : ℚ) + 1 / 2⌋ ≤ 0 := by omega
    push_cast; linarith
  · push_cast; linarith

/-- ... and not much more than 68.3 % of them. -/
theorem ci_narrow {n : Nat} (hn : 0 < n) : ((ciUpper n - ciLower n - 1 : Int) : ℚ) ≤ (683 : ℚ) / 1000 * n + 1 := by
  have hn' : (1 : ℚ) ≤ n := by exact_mod_cast hn
  have u1 : (⌊8415 / 10000 * (n : ℚ) + 1 / 2⌋ : ℚ) ≤ 8415 / 10000 * (n : ℚ) + 1 / 2 := Int.floor_le _
  have l1 : 1585 / 10000 * (n : ℚ) + 1 / 2 < (⌊1585 / 10000 * (n : ℚ) + 1 / 2⌋ : ℚ) + 1 := Int.lt_floor_add_one _
  have hu : (ciUpper n : ℚ) ≤ 8415 / 10000 * (n : ℚ) + 1 / 2 := by
    unfold ciUpper roundHalfUp
    simp only
    split
    · rename_i h
      have : ((n : Int) : ℚ) ≤ (⌊8415 / 10000 * (n : ℚ) + 1 / 2⌋ : ℚ) := by exact_mod_cast h
      push_cast at this ⊢
      linarith
    · exact u1
  have hl : 1585 / 10000 * (n : ℚ) - 3 / 2 ≤ (ciLower n : ℚ) := by
    unfold ciLower roundHalfUp
    simp only
    split
    · rename_i h
      have : (⌊1585 / 10000 * (n : ℚ) + 1 / 2⌋ : ℚ) ≤ 0 := by
        have : ⌊1585 / 10000 * (n : ℚ) + 1 / 2⌋ ≤ 0 := by omega
        exact_mod_cast this
      push_cast
      linarith
    · push_cast
      linarith
  push_cast
  linarith

theorem ci_ordered {n : Nat} (hn : 0 < n) : ciLower n ≤ ciUpper n := by
  have h := ci_width hn
  have hn' : (0 : ℚ) < n := by exact_mod_cast hn
  have : (0 : ℚ) < ((ciUpper n - ciLower n + 1 : Int) : ℚ) := lt_of_lt_of_le (by positivity) h
  have : 0 < ciUpper n - ciLower n + 1 := by exact_mod_cast this
  omega

theorem rdI_nat {β : Type} (l : List β) (i : Int) (h : 0 ≤ i) : rdI l i = rd l i.toNat := by
  unfold rdI
  rw [if_neg (by omega)]

/-- The interval of the first `n` values. -/
theorem confInterval_prefix (l : List ℝ) (n : Nat) (h0 : 0 < n) (hn : n ≤ l.length) :
    ∃ (hl : (ciLower n).toNat < (sortedR (l.take n)).length) (hu : (ciUpper n).toNat < (sortedR (l.take n)).length),
      confInterval (finL l) n = .ok (finL (sortedR (l.take n)) ++ finL (l.drop n),
        fin (sortedR (l.take n))[(ciLower n).toNat], fin (sortedR (l.take n))[(ciUpper n).toNat]) := by
  have hlen : (sortedR (l.take n)).length = n := by
    rw [(sortedR_perm _).length_eq, List.length_take]; omega
  have h1 := ciLower_facts h0
  have h2 := ciUpper_facts h0
  refine ⟨by omega, by omega, ?_⟩
  unfold confInterval
  simp only [sortVals_finL, rdI_nat _ _ h1.1, rdI_nat _ _ h2.1]
  have rdl : ∀ i (hi : i < n), rd (finL (sortedR (l.take n)) ++ finL (l.drop n)) i = .ok (fin ((sortedR (l.take n))[i]'(by omega))) := by
    intro i hi
    rw [rd_ok (by simp [finL_length, hlen]; omega)]
    congr 1
    rw [List.getElem_append_left (by rw [finL_length, hlen]; exact hi)]
    simp [finL]
  rw [rdl _ (by omega), rdl _ (by omega)]
  rfl

end Imfit
