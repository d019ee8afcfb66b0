import Verif.Model.LinAlg
import Verif.Lemmas.Func
import Verif.Props.C39
import Mathlib.Algebra.BigOperators.Intervals
import Mathlib.Tactic.Linarith
import Mathlib.Tactic.Ring
import Mathlib.Tactic.FieldSimp

/-!
# Householder transformations on real vectors

Vectors are functions on the natural numbers, of which the first `m` entries count.
-/

namespace Imfit
open XR Finset

noncomputable section

/-! ### Sums and norms of the model -/

theorem feq_fin (a b : ℝ) : feq (fin a) (fin b) = decide (a = b) := by
  unfold feq
  rw [fle_fin, fle_fin]
  by_cases h : a = b
  · simp [h]
  · rcases lt_or_gt_of_ne h with h' | h'
    · simp [h, not_le.2 h']
    · simp [h, not_le.2 h']

theorem sum_list_range' (lo k : ℕ) (v : ℕ → ℝ) : ((List.range' lo k).map v).sum = ∑ i ∈ Ico lo (lo + k), v i := by
  induction k generalizing lo with
  | zero => simp
  | succ k ih =>
    rw [List.range'_succ, List.map_cons, List.sum_cons, ih, show lo + (k + 1) = lo + 1 + k by omega]
    rw [← Finset.sum_eq_sum_Ico_succ_bot (by omega)]

theorem sumFrom_fin (lo hi : ℕ) (f : ℕ → XR) (v : ℕ → ℝ) (h : ∀ i, lo ≤ i → i < hi → f i = fin (v i)) :
    sumFrom lo hi f = fin (∑ i ∈ Ico lo hi, v i) := by
  unfold sumFrom
  rw [zero_def, foldl_fin_add _ _ v, zero_add, sum_list_range']
  · by_cases hl : lo ≤ hi
    · rw [show lo + (hi - lo) = hi by omega]
    · rw [Finset.Ico_eq_empty_of_le (by omega), Finset.Ico_eq_empty_of_le (by omega)]
  · intro i hi'
    rw [List.mem_range'] at hi'
    obtain ⟨t, ht, rfl⟩ := hi'
    exact h _ (by omega) (by omega)

/-- The norm of entries that are all below the size where `mp_enorm` drops others. -/
theorem enorm_exact {ι : Type} (l : List ι) (v : ι → ℝ) (h : ∀ i ∈ l, |v i| < largeSize / l.length) :
    mpEnorm (l.map fun i => fin (v i)) = fin (Real.sqrt ((l.map fun i => v i ^ 2).sum)) := by
  have := C39_exact_partial (l.map v) (Or.inr (by
    intro x hx
    obtain ⟨i, hi, rfl⟩ := List.mem_map.1 hx
    rw [List.length_map]
    exact Or.inr (h i hi)))
  rw [List.map_map] at this
  rw [show (fun i => fin (v i)) = fin ∘ v from rfl, this]
  unfold Spec.sumSq
  rw [List.map_map]
  rfl

/-- `colNorm` of small enough entries. -/
theorem colNorm_fin (a : Arr2 XR) (k lo m : ℕ) (B : ℕ → ℝ) (ha : ∀ i, lo ≤ i → i < m → a i k = fin (B i))
    (hb : ∀ i, lo ≤ i → i < m → |B i| < largeSize / m) :
    colNorm a k lo m = fin (Real.sqrt (∑ i ∈ Ico lo m, B i ^ 2)) := by
  unfold colNorm
  have hmem : ∀ i ∈ List.range' lo (m - lo), lo ≤ i ∧ i < m := by
    intro i hi
    rw [List.mem_range'] at hi
    obtain ⟨t, ht, rfl⟩ := hi
    exact ⟨by omega, by omega⟩
  rw [List.map_congr_left (g := fun i => fin (B i)) (fun i hi => ha i (hmem i hi).1 (hmem i hi).2), enorm_exact, sum_list_range']
  · by_cases hl : lo ≤ m
    · rw [show lo + (m - lo) = m by omega]
    · rw [Finset.Ico_eq_empty_of_le (by omega), Finset.Ico_eq_empty_of_le (by omega)]
  · intro i hi
    have h1 := hmem i hi
    refine lt_of_lt_of_le (hb i h1.1 h1.2) ?_
    rw [List.length_range']
    have hpos : (0 : ℝ) < ((m - lo : ℕ) : ℝ) := by
      have : 0 < m - lo := by omega
      exact_mod_cast this
    have hle : ((m - lo : ℕ) : ℝ) ≤ (m : ℝ) := by
      have : m - lo ≤ m := by omega
      exact_mod_cast this
    exact div_le_div_of_nonneg_left (by unfold largeSize; positivity) hpos hle

/-! ### One transformation -/

/-- The product of two vectors from row `j` on. -/
def dotIco (j m : ℕ) (v w : ℕ → ℝ) : ℝ := ∑ i ∈ Ico j m, v i * w i

/-- `(1 - u uᵀ / u_j) w`, where `u` is `v` from row `j` on. -/
def hous (m j : ℕ) (v w : ℕ → ℝ) : ℕ → ℝ := fun i => if j ≤ i then w i - dotIco j m v w / v j * v i else w i

/-- The vectors that make `hous` orthogonal. -/
def HouseVec (m j : ℕ) (v : ℕ → ℝ) : Prop := dotIco j m v v = 2 * v j

theorem HouseVec.zero {m j : ℕ} {v : ℕ → ℝ} (h : HouseVec m j v) (h0 : v j = 0) : ∀ i, j ≤ i → i < m → v i = 0 := by
  intro i h1 h2
  unfold HouseVec dotIco at h
  rw [h0, mul_zero, Finset.sum_eq_zero_iff_of_nonneg (fun i _ => mul_self_nonneg (v i))] at h
  exact mul_self_eq_zero.1 (h i (Finset.mem_Ico.2 ⟨h1, h2⟩))

theorem hous_lt {m j i : ℕ} (v w : ℕ → ℝ) (h : i < j) : hous m j v w i = w i := if_neg (by omega)

theorem range_split {m j : ℕ} (h : j ≤ m) (f : ℕ → ℝ) : ∑ i ∈ range m, f i = ∑ i ∈ range j, f i + ∑ i ∈ Ico j m, f i :=
  (Finset.sum_range_add_sum_Ico f h).symm

/-- The transformation keeps products of vectors. -/
theorem hous_dot {m j : ℕ} {v : ℕ → ℝ} (hv : HouseVec m j v) (hj : j ≤ m) (w w' : ℕ → ℝ) :
    ∑ i ∈ range m, hous m j v w i * hous m j v w' i = ∑ i ∈ range m, w i * w' i := by
  rw [range_split hj, range_split hj]
  congr 1
  · refine Finset.sum_congr rfl fun i hi => ?_
    rw [hous_lt _ _ (Finset.mem_range.1 hi), hous_lt _ _ (Finset.mem_range.1 hi)]
  · by_cases h0 : v j = 0
    · refine Finset.sum_congr rfl fun i hi => ?_
      have := Finset.mem_Ico.1 hi
      unfold hous
      rw [if_pos this.1, if_pos this.1, hv.zero h0 i this.1 this.2]
      simp
    · have e : ∀ i ∈ Ico j m, hous m j v w i * hous m j v w' i =
          w i * w' i - dotIco j m v w' / v j * (v i * w i) - dotIco j m v w / v j * (v i * w' i) +
            dotIco j m v w / v j * (dotIco j m v w' / v j) * (v i * v i) := by
        intro i hi
        have := Finset.mem_Ico.1 hi
        unfold hous
        rw [if_pos this.1, if_pos this.1]
        ring
      rw [Finset.sum_congr rfl e, Finset.sum_add_distrib, Finset.sum_sub_distrib, Finset.sum_sub_distrib, ← Finset.mul_sum, ← Finset.mul_sum,
        ← Finset.mul_sum]
      change ∑ i ∈ Ico j m, w i * w' i - dotIco j m v w' / v j * dotIco j m v w - dotIco j m v w / v j * dotIco j m v w' +
        dotIco j m v w / v j * (dotIco j m v w' / v j) * dotIco j m v v = _
      rw [show dotIco j m v v = 2 * v j from hv]
      field_simp
      ring

/-- The vector built from a column, and what the transformation does to the column. -/
theorem hous_column {m j : ℕ} (hj : j < m) (w : ℕ → ℝ) (s : ℝ) (hs : s ^ 2 = ∑ i ∈ Ico j m, w i ^ 2) (hs0 : s ≠ 0)
    (v : ℕ → ℝ) (hv : ∀ i, j ≤ i → i < m → v i = if i = j then w i / s + 1 else w i / s) :
    HouseVec m j v ∧ (v j ≠ 0 → hous m j v w j = -s ∧ ∀ i, j < i → i < m → hous m j v w i = 0) := by
  have hsplit : ∀ f : ℕ → ℝ, ∑ i ∈ Ico j m, f i = f j + ∑ i ∈ Ico (j + 1) m, f i := fun f => Finset.sum_eq_sum_Ico_succ_bot hj f
  have hvj : v j = w j / s + 1 := by rw [hv j le_rfl hj, if_pos rfl]
  have hvi : ∀ i ∈ Ico (j + 1) m, v i = w i / s := fun i hi => by
    have := Finset.mem_Ico.1 hi
    rw [hv i (by omega) this.2, if_neg (by omega)]
  have hq : ∑ i ∈ Ico (j + 1) m, w i ^ 2 = s ^ 2 - w j ^ 2 := by rw [hs, hsplit]; ring
  have h1 : dotIco j m v v = 2 * v j := by
    unfold dotIco
    rw [hsplit, Finset.sum_congr rfl (fun i hi => by rw [hvi i hi]), show (fun i => w i / s * (w i / s)) = fun i => w i ^ 2 * (1 / s ^ 2) by
      funext i; field_simp, ← Finset.sum_mul, hq, hvj]
    field_simp
    ring
  have h2 : dotIco j m v w = s * v j := by
    unfold dotIco
    rw [hsplit, Finset.sum_congr rfl (fun i hi => by rw [hvi i hi]), show (fun i => w i / s * w i) = fun i => w i ^ 2 * (1 / s) by
      funext i; field_simp, ← Finset.sum_mul, hq, hvj]
    field_simp
    ring
  refine ⟨h1, fun hne => ⟨?_, fun i hi him => ?_⟩⟩
  · unfold hous
    rw [if_pos le_rfl, h2, mul_div_assoc, div_self hne, mul_one, hvj]
    field_simp
    ring
  · unfold hous
    rw [if_pos (by omega), h2, mul_div_assoc, div_self hne, mul_one, hvi i (Finset.mem_Ico.2 ⟨by omega, him⟩)]
    field_simp
    ring

/-! ### A sequence of transformations -/

/-- The transformations with the columns of `B` up to column `t`, in turn. -/
def houseSeq (m : ℕ) (B : ℕ → ℕ → ℝ) : ℕ → (ℕ → ℝ) → ℕ → ℝ
  | 0, w => w
  | t + 1, w => hous m t (fun i => B i t) (houseSeq m B t w)

theorem hous_congr {m j : ℕ} {v v' w w' : ℕ → ℝ} (hj : j < m) (hv : ∀ i, j ≤ i → i < m → v i = v' i) (hw : ∀ i, i < m → w i = w' i) :
    ∀ i, i < m → hous m j v w i = hous m j v' w' i := by
  intro i hi
  have hd : dotIco j m v w = dotIco j m v' w' := by
    unfold dotIco
    refine Finset.sum_congr rfl fun r hr => ?_
    have := Finset.mem_Ico.1 hr
    rw [hv r this.1 this.2, hw r this.2]
  unfold hous
  split
  · rename_i h
    rw [hd, hv j le_rfl hj, hv i h hi, hw i hi]
  · rw [hw i hi]

theorem houseSeq_congr {m : ℕ} {B B' : ℕ → ℕ → ℝ} {w w' : ℕ → ℝ} (t : ℕ) (ht : t ≤ m) (hB : ∀ k, k < t → ∀ i, k ≤ i → i < m → B i k = B' i k)
    (hw : ∀ i, i < m → w i = w' i) : ∀ i, i < m → houseSeq m B t w i = houseSeq m B' t w' i := by
  induction t with
  | zero => exact hw
  | succ t ih =>
    exact hous_congr (by omega) (fun i h1 h2 => hB t (by omega) i h1 h2) (ih (by omega) fun k hk => hB k (by omega))

theorem houseSeq_dot {m : ℕ} {B : ℕ → ℕ → ℝ} (t : ℕ) (ht : t ≤ m) (hB : ∀ k, k < t → HouseVec m k fun i => B i k) (w w' : ℕ → ℝ) :
    ∑ i ∈ range m, houseSeq m B t w i * houseSeq m B t w' i = ∑ i ∈ range m, w i * w' i := by
  induction t with
  | zero => rfl
  | succ t ih =>
    rw [← ih (by omega) fun k hk => hB k (by omega)]
    exact hous_dot (hB t (by omega)) (by omega) _ _

theorem dotIco_add (j m : ℕ) (v w w' : ℕ → ℝ) : dotIco j m v (fun i => w i + w' i) = dotIco j m v w + dotIco j m v w' := by
  unfold dotIco
  rw [← Finset.sum_add_distrib]
  exact Finset.sum_congr rfl fun i _ => by ring

theorem dotIco_smul (j m : ℕ) (v w : ℕ → ℝ) (c : ℝ) : dotIco j m v (fun i => c * w i) = c * dotIco j m v w := by
  unfold dotIco
  rw [Finset.mul_sum]
  exact Finset.sum_congr rfl fun i _ => by ring

theorem houseSeq_add (m : ℕ) (B : ℕ → ℕ → ℝ) (t : ℕ) (w w' : ℕ → ℝ) :
    houseSeq m B t (fun i => w i + w' i) = fun i => houseSeq m B t w i + houseSeq m B t w' i := by
  induction t with
  | zero => rfl
  | succ t ih =>
    funext i
    simp only [houseSeq]
    rw [ih]
    unfold hous
    rw [dotIco_add]
    split <;> ring

theorem houseSeq_smul (m : ℕ) (B : ℕ → ℕ → ℝ) (t : ℕ) (w : ℕ → ℝ) (c : ℝ) :
    houseSeq m B t (fun i => c * w i) = fun i => c * houseSeq m B t w i := by
  induction t with
  | zero => rfl
  | succ t ih =>
    funext i
    simp only [houseSeq]
    rw [ih]
    unfold hous
    rw [dotIco_smul]
    split <;> ring

theorem houseSeq_sum (m : ℕ) (B : ℕ → ℕ → ℝ) (t : ℕ) (s : ℕ) (c : ℕ → ℝ) (e : ℕ → ℕ → ℝ) :
    houseSeq m B t (fun i => ∑ r ∈ range s, c r * e r i) = fun i => ∑ r ∈ range s, c r * houseSeq m B t (e r) i := by
  induction s with
  | zero =>
    simp only [Finset.range_zero, Finset.sum_empty]
    have := houseSeq_smul m B t (fun _ => 0) 0
    simp only [zero_mul] at this
    exact this
  | succ s ih =>
    simp only [Finset.sum_range_succ]
    rw [houseSeq_add, ih, houseSeq_smul]

end

end Imfit
