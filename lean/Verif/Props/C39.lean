import Verif.Lemmas.Enorm
import Verif.Spec.Stat

/-!
# C39 — the Euclidean norm routine

The full claim (`√Σx²` for every vector) is false: when the vector has an entry of size at least `1.304e19/n`, entries of
size at most `3.834e-20` are left out. Everything else in the claim holds.
-/

namespace Imfit

open Spec XR

/-- Largest "small" size (see `core/mp_enorm.cpp:50`). -/
noncomputable def smallSize : ℝ := 3834 / 10 ^ 23
/-- Smallest "large" size times the length (see `core/mp_enorm.cpp:51`). -/
noncomputable def largeSize : ℝ := 1304 * 10 ^ 16

theorem dwarfR_eq : dwarfR = smallSize := by unfold dwarfR RDWARF smallSize; push_cast; ring
theorem giantR_eq : giantR = largeSize := by unfold giantR RGIANT largeSize; push_cast; ring

theorem sumSq_split (l : List ℝ) (a : ℝ) :
    sumSq l = (l.map (sqG a)).sum + (l.map (sqM a)).sum + (l.map sqD).sum := by
  rw [sum_split]
  unfold sumSq
  congr 1
  apply List.map_congr_left
  intro x _
  ring

theorem sqM_nonneg (a x : ℝ) : 0 ≤ sqM a x := by
  unfold sqM; split
  · exact mul_self_nonneg _
  · exact le_refl _

theorem sumSq_nonneg (l : List ℝ) : 0 ≤ sumSq l := sum_map_nonneg l _ (fun x => sq_nonneg x)

theorem sumSq_eq_zero (l : List ℝ) : sumSq l = 0 ↔ ∀ x ∈ l, x = 0 := by
  unfold sumSq
  induction l with
  | nil => simp
  | cons x t ih =>
    simp only [List.map_cons, List.sum_cons, List.mem_cons, forall_eq_or_imp]
    have h1 : 0 ≤ x ^ 2 := sq_nonneg x
    have h2 : 0 ≤ (t.map fun x => x ^ 2).sum := sum_map_nonneg t _ (fun x => sq_nonneg x)
    rw [← ih]
    constructor
    · intro h
      have h3 : x ^ 2 = 0 := by linarith
      have h4 : (t.map fun x => x ^ 2).sum = 0 := by linarith
      exact ⟨pow_eq_zero_iff (two_ne_zero) |>.mp h3, h4⟩
    · rintro ⟨rfl, h⟩
      rw [h]; simp

/-- Partial: the norm is exact when no entry is small-but-not-zero, or no entry is large.
Missing from the full claim: vectors with both (see `C39_false`). -/
theorem C39_exact_partial (l : List ℝ)
    (h : (∀ x ∈ l, x = 0 ∨ smallSize < |x|) ∨ (∀ x ∈ l, |x| ≤ smallSize ∨ |x| < largeSize / l.length)) :
    mpEnorm (l.map fin) = fin (Real.sqrt (sumSq l)) := by
  rw [mpEnorm_eq, sumSq_split l (giantR / l.length)]
  rcases h with h | h
  · have hd : (l.map sqD).sum = 0 := sum_sqD_eq_zero (by rw [dwarfR_eq]; exact h)
    rw [hd]
    split
    · rename_i hg; rw [hg]; simp
    · simp
  · have hg : (l.map (sqG (giantR / l.length))).sum = 0 :=
      sum_sqG_eq_zero (by rw [dwarfR_eq, giantR_eq]; exact h)
    rw [hg]; simp

/-- For every real vector the result is a non-negative number `r` with `r² ≤ Σx²`, short of it by at most
`n · (3.834e-20)²`, and `r = 0` exactly for the zero vector. -/
theorem C39_bounds_partial (l : List ℝ) :
    ∃ r : ℝ, mpEnorm (l.map fin) = fin r ∧ 0 ≤ r ∧ r ^ 2 ≤ sumSq l ∧
      sumSq l ≤ r ^ 2 + l.length * smallSize ^ 2 ∧ (r = 0 ↔ ∀ x ∈ l, x = 0) := by
  set a := giantR / (l.length : ℝ) with ha
  have hG := sum_map_nonneg l (sqG a) (sqG_nonneg a)
  have hM := sum_map_nonneg l (sqM a) (sqM_nonneg a)
  have hD := sum_map_nonneg l sqD sqD_nonneg
  have hDle := sum_sqD_le l
  have hs := sumSq_split l a
  refine ⟨_, mpEnorm_eq l, Real.sqrt_nonneg _, ?_, ?_, ?_⟩
  · rw [Real.sq_sqrt (by split <;> linarith), hs]
    split <;> linarith
  · rw [Real.sq_sqrt (by split <;> linarith), hs]
    have e : smallSize ^ 2 = dwarfR * dwarfR := by rw [dwarfR_eq]; ring
    rw [e]
    have : 0 ≤ (l.length : ℝ) * (dwarfR * dwarfR) := le_trans hD hDle
    split
    · rename_i h0; rw [h0]; linarith
    · linarith
  · rw [← sumSq_eq_zero, Real.sqrt_eq_zero (by split <;> linarith), hs]
    split
    · rename_i h0; rw [h0]; constructor <;> intro h <;> linarith
    · rename_i h0
      constructor
      · intro h; exact absurd (le_antisymm (by linarith) hG) h0
      · intro h; exact absurd (le_antisymm (by linarith) hG) h0

/-- The order of the entries does not matter. -/
theorem C39_order (l l' : List ℝ) (h : l.Perm l') : mpEnorm (l.map fin) = mpEnorm (l'.map fin) := by
  rw [mpEnorm_eq, mpEnorm_eq, h.length_eq, (h.map _).sum_eq, (h.map (sqM _)).sum_eq, (h.map sqD).sum_eq]

/-- The full claim is false: the vector `(2.608e19, 1.917e-20)`. -/
theorem C39_false : ¬ ∀ l : List ℝ, mpEnorm (l.map fin) = fin (Real.sqrt (sumSq l)) := by
  intro H
  have hx := H [2 * giantR, dwarfR / 2]
  have hd := dwarfR_pos
  have hg := giantR_pos
  have hdg : dwarfR < giantR := by
    unfold dwarfR giantR RDWARF RGIANT; norm_num
  have a1 : |2 * giantR| = 2 * giantR := abs_of_pos (by linarith)
  have a2 : |dwarfR / 2| = dwarfR / 2 := abs_of_pos (by linarith)
  rw [mpEnorm_eq] at hx
  have g1 : sqG (giantR / 2) (2 * giantR) = 2 * giantR * (2 * giantR) := by
    unfold sqG; rw [if_pos]; rw [a1]; constructor <;> linarith
  have m1 : sqM (giantR / 2) (2 * giantR) = 0 := by
    unfold sqM; rw [if_neg]; rw [a1]; intro h; linarith [h.2]
  have g2 : sqG (giantR / 2) (dwarfR / 2) = 0 := by
    unfold sqG; rw [if_neg]; rw [a2]; intro h; linarith [h.1]
  have m2 : sqM (giantR / 2) (dwarfR / 2) = 0 := by
    unfold sqM; rw [if_neg]; rw [a2]; intro h; linarith [h.1]
  have hgg : 0 < 2 * giantR * (2 * giantR) := by positivity
  simp only [List.map_cons, List.map_nil, List.sum_cons, List.sum_nil, List.length_cons, List.length_nil] at hx
  norm_num only [Nat.cast_ofNat] at hx
  simp only [g1, m1, g2, m2, add_zero] at hx
  rw [if_neg hgg.ne'] at hx
  have hx := XR.fin.inj hx
  rw [Real.sqrt_inj hgg.le (sumSq_nonneg _)] at hx
  unfold sumSq at hx
  simp at hx
  nlinarith

/-- Hypotheses of the exactness theorem for the vector `(3, -4, 0)`. -/
example : mpEnorm ([3, -4, 0].map fin) = fin 5 := by
  rw [C39_exact_partial [3, -4, 0] (Or.inl (by
    intro x hx
    simp only [List.mem_cons, List.not_mem_nil, or_false] at hx
    unfold smallSize
    rcases hx with rfl | rfl | rfl
    · right; norm_num
    · right; norm_num
    · left; rfl))]
  congr 1
  unfold sumSq
  norm_num
  rw [show (25 : ℝ) = 5 ^ 2 by norm_num]
  exact Real.sqrt_sq (by norm_num)

example : mpEnorm ([3, -4, 0].map fin) = mpEnorm ([0, 3, -4].map fin) :=
  C39_order _ _ (by
    have : [(3 : ℝ), -4, 0] = [3, -4] ++ [0] := rfl
    rw [this]
    exact List.perm_append_comm)

end Imfit
