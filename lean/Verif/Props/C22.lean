import Verif.Lemmas.Stats

/-!
# C22 — statistics helpers

Samples are arbitrary lists of finite reals; arithmetic is exact. The functions are given an array and a count `n` not larger than the array; only
the first `n` values form the sample. Two lengths are outside the property: for `n = 1` the standard deviation is `0/0` (`C22_single_value`), and
for `n = 0` the interval function reads in front of the array (`C22_empty`).
-/

namespace Imfit

open XR

/-- The mean: `mean · n` is the sum of the values, and the mean lies between any lower and any upper bound of them. -/
theorem C22_mean (l : List ℝ) (n : Nat) (h0 : 0 < n) (hn : n ≤ l.length) :
    ∃ m : ℝ, meanOf (finL l) n = .ok (fin m) ∧ m * n = (l.take n).sum ∧
      (∀ a, (∀ x ∈ l.take n, a ≤ x) → a ≤ m) ∧ (∀ b, (∀ x ∈ l.take n, x ≤ b) → m ≤ b) := by
  have hp : (0 : ℝ) < n := by exact_mod_cast h0
  have hlen : ((l.take n).length : ℝ) = n := by
    rw [List.length_take, min_eq_left hn]
  refine ⟨_, meanOf_prefix l n h0 hn, div_mul_cancel₀ _ hp.ne', fun a ha => ?_, fun b hb => ?_⟩
  · rw [le_div_iff₀ hp]
    have := List.card_nsmul_le_sum _ _ ha
    rw [nsmul_eq_mul, hlen] at this
    linarith
  · rw [div_le_iff₀ hp]
    have := List.sum_le_card_nsmul _ _ hb
    rw [nsmul_eq_mul, hlen] at this
    linarith

/-- The standard deviation of two or more values: non-negative, and its square times `n - 1` is the sum of the squared distances from the mean. -/
theorem C22_stddev (l : List ℝ) (n : Nat) (h1 : 1 < n) (hn : n ≤ l.length) :
    ∃ s m : ℝ, stdDev (finL l) n = .ok (fin s) ∧ 0 ≤ s ∧ m * n = (l.take n).sum ∧
      s ^ 2 * ((n : ℝ) - 1) = ((l.take n).map fun x => (x - m) ^ 2).sum := by
  have hp : (0 : ℝ) < n := by
    have : 0 < n := by omega
    exact_mod_cast this
  have hpos : (0 : ℝ) < (n : ℝ) - 1 := by
    have : (1 : ℝ) < n := by exact_mod_cast h1
    linarith
  refine ⟨_, (l.take n).sum / n, stdDev_prefix l n h1 hn, Real.sqrt_nonneg _, div_mul_cancel₀ _ hp.ne', ?_⟩
  rw [Real.sq_sqrt (div_nonneg (sq_sum_nonneg _ _) hpos.le), div_mul_cancel₀ _ hpos.ne']
  simp only [pow_two]

theorem sum_map_add_const (l : List ℝ) (c : ℝ) : (l.map (· + c)).sum = l.sum + l.length * c := by
  induction l with
  | nil => simp
  | cons a t ih => simp only [List.map_cons, List.sum_cons, ih, List.length_cons]; push_cast; ring

/-- Adding the same constant to all values leaves the standard deviation unchanged. -/
theorem C22_stddev_shift (l : List ℝ) (n : Nat) (h1 : 1 < n) (hn : n ≤ l.length) (c : ℝ) :
    stdDev (finL (l.map (· + c))) n = stdDev (finL l) n := by
  have hp : (n : ℝ) ≠ 0 := by
    have : n ≠ 0 := by omega
    exact_mod_cast this
  rw [stdDev_prefix l n h1 hn, stdDev_prefix _ n h1 (by simpa using hn)]
  rw [← List.map_take, sum_map_add_const, List.map_map, List.length_take, min_eq_left hn]
  congr 6
  funext x
  simp only [Function.comp]
  have : (List.take n l).sum / (n : ℝ) + c = ((List.take n l).sum + n * c) / n := by field_simp
  rw [← this]
  ring

/-- With a single value the function divides zero by zero: the result is a NaN, so "non-negative root" is false for `n = 1`. -/
theorem C22_single_value (x : ℝ) : stdDev (finL [x]) 1 = .ok nan := by
  have hs := sumVals_prefix [x] 1 (by simp)
  have hq := sumSqDiff_prefix [x] 1 (by simp) x
  simp only [List.take_succ_cons, List.take_zero, List.sum_cons, List.sum_nil, add_zero, List.map_cons, List.map_nil, sub_self, mul_zero] at hs hq
  have h2 : (fin x : XR) / lit ((1 : Nat) : ℚ) = fin x := by
    simp only [lit_def]
    rw [fin_div_of_ne (by norm_num)]; simp
  simp only [stdDev, hs, ok_bind]
  rw [h2, hq]
  simp only [ok_bind, zero_def, fle_fin, le_refl, decide_true, if_true, lit_def]
  norm_num
  rw [fin_div_zero]
  simp [infSign]

/-- The interval: the array is left sorted (ascending, a rearrangement of the same values, with everything after the first `n` untouched), both ends
are values of the sample, the lower end is not above the upper end. -/
theorem C22_interval (l : List ℝ) (n : Nat) (h0 : 0 < n) (hn : n ≤ l.length) :
    ∃ (s : List ℝ) (lo up : ℝ), confInterval (finL l) n = .ok (finL (s ++ l.drop n), fin lo, fin up) ∧
      s.Perm (l.take n) ∧ s.Pairwise (· ≤ ·) ∧ lo ∈ l.take n ∧ up ∈ l.take n ∧ lo ≤ up := by
  obtain ⟨hl, hu, h⟩ := confInterval_prefix l n h0 hn
  refine ⟨sortedR (l.take n), (sortedR (l.take n))[(ciLower n).toNat], (sortedR (l.take n))[(ciUpper n).toNat], ?_, sortedR_perm _, sortedR_sorted _, ?_, ?_, ?_⟩
  · rw [h]; simp [finL]
  · exact (sortedR_perm _).subset (List.getElem_mem hl)
  · exact (sortedR_perm _).subset (List.getElem_mem hu)
  · have h1 := ci_ordered h0
    have h2 := (ciLower_facts h0).1
    rcases Nat.lt_or_ge (ciLower n).toNat (ciUpper n).toNat with h3 | h3
    · exact List.pairwise_iff_getElem.1 (sortedR_sorted _) _ _ hl hu h3
    · have : (ciLower n).toNat = (ciUpper n).toNat := by omega
      simp only [this, le_refl]

/-- Sorted lists: all values at positions `i..j` lie between the values at `i` and `j`. -/
theorem sorted_cover (s : List ℝ) (hs : s.Pairwise (· ≤ ·)) (i j : Nat) (hij : i ≤ j) (hj : j < s.length) :
    j - i + 1 ≤ s.countP (fun x => decide (s[i] ≤ x) && decide (x ≤ s[j])) := by
  have hsub : ((s.drop i).take (j - i + 1)).Sublist s := (List.take_sublist _ _).trans (List.drop_sublist _ _)
  have hall : ∀ x ∈ (s.drop i).take (j - i + 1), (decide (s[i] ≤ x) && decide (x ≤ s[j])) = true := by
    intro x hx
    obtain ⟨k, hk, rfl⟩ := List.getElem_of_mem hx
    have hk' : k < j - i + 1 := by
      have := hk
      rw [List.length_take] at this
      omega
    simp only [List.getElem_take, List.getElem_drop, Bool.and_eq_true, decide_eq_true_eq]
    have mono : ∀ a b (ha : a < s.length) (hb : b < s.length), a ≤ b → s[a] ≤ s[b] := by
      intro a b ha hb hab
      rcases Nat.lt_or_ge a b with h | h
      · exact List.pairwise_iff_getElem.1 hs _ _ ha hb h
      · have : a = b := by omega
        subst this; exact le_refl _
    exact ⟨mono _ _ _ _ (by omega), mono _ _ _ _ (by omega)⟩
  calc j - i + 1 = ((s.drop i).take (j - i + 1)).length := by rw [List.length_take, List.length_drop]; omega
    _ = ((s.drop i).take (j - i + 1)).countP _ := (List.countP_eq_length.2 hall).symm
    _ ≤ _ := hsub.countP_le

/-- Sorted lists: only values at positions strictly between `i` and `j` lie strictly between the values there. -/
theorem sorted_inside (s : List ℝ) (hs : s.Pairwise (· ≤ ·)) (i j : Nat) (hij : i ≤ j) (hj : j < s.length) :
    s.countP (fun x => decide (s[i] < x) && decide (x < s[j])) ≤ j - i - 1 := by
  have mono : ∀ a b (ha : a < s.length) (hb : b < s.length), a ≤ b → s[a] ≤ s[b] := by
    intro a b ha hb hab
    rcases Nat.lt_or_ge a b with h | h
    · exact List.pairwise_iff_getElem.1 hs _ _ ha hb h
    · have : a = b := by omega
      subst this; exact le_refl _
  set p : ℝ → Bool := fun x => decide (s[i] < x) && decide (x < s[j]) with hp
  have e1 : s.countP p = (s.take (i + 1)).countP p + (s.drop (i + 1)).countP p := by
    rw [← List.countP_append, List.take_append_drop]
  have e2 : (s.drop (i + 1)).countP p = ((s.drop (i + 1)).take (j - (i + 1))).countP p + ((s.drop (i + 1)).drop (j - (i + 1))).countP p := by
    rw [← List.countP_append, List.take_append_drop]
  have z1 : (s.take (i + 1)).countP p = 0 := by
    rw [List.countP_eq_zero]
    intro x hx
    obtain ⟨k, hk, rfl⟩ := List.getElem_of_mem hx
    rw [List.length_take] at hk
    simp only [hp, List.getElem_take, Bool.and_eq_true, decide_eq_true_eq, not_and, not_lt]
    intro hlt
    exact absurd hlt (not_lt.2 (mono _ _ _ _ (by omega)))
  have z2 : ((s.drop (i + 1)).drop (j - (i + 1))).countP p = 0 := by
    rw [List.countP_eq_zero]
    intro x hx
    obtain ⟨k, hk, rfl⟩ := List.getElem_of_mem hx
    simp only [hp, List.getElem_drop, Bool.and_eq_true, decide_eq_true_eq, not_and, not_lt]
    intro _
    exact mono _ _ _ _ (by omega)
  have z3 : ((s.drop (i + 1)).take (j - (i + 1))).countP p ≤ j - i - 1 := by
    refine List.countP_le_length.trans ?_
    rw [List.length_take]; omega
  omega

/-- The interval holds at least 68.3 % of the sample, and it is not wider than that needs: at most 68.3 % plus one value lie strictly inside. -/
theorem C22_coverage (l : List ℝ) (n : Nat) (h0 : 0 < n) (hn : n ≤ l.length) :
    ∃ (s : List XR) (lo up : ℝ), confInterval (finL l) n = .ok (s, fin lo, fin up) ∧
      (683 : ℚ) / 1000 * n ≤ ((l.take n).countP fun x => decide (lo ≤ x) && decide (x ≤ up) : ℚ) ∧
      ((l.take n).countP fun x => decide (lo < x) && decide (x < up) : ℚ) ≤ (683 : ℚ) / 1000 * n + 1 := by
  obtain ⟨hl, hu, h⟩ := confInterval_prefix l n h0 hn
  refine ⟨_, _, _, h, ?_, ?_⟩
  · have h1 := ci_ordered h0
    have h2 := (ciLower_facts h0).1
    have hw := ci_width h0
    have hc := sorted_cover _ (sortedR_sorted (l.take n)) (ciLower n).toNat (ciUpper n).toNat (by omega) hu
    rw [(sortedR_perm (l.take n)).countP_eq] at hc
    refine hw.trans ?_
    have he : ciUpper n - ciLower n + 1 = (((ciUpper n).toNat - (ciLower n).toNat + 1 : Nat) : Int) := by omega
    rw [he]
    exact_mod_cast hc
  · have h1 := ci_ordered h0
    have h2 := (ciLower_facts h0).1
    have hw := ci_narrow h0
    have hc := sorted_inside _ (sortedR_sorted (l.take n)) (ciLower n).toNat (ciUpper n).toNat (by omega) hu
    rw [(sortedR_perm (l.take n)).countP_eq] at hc
    rcases Nat.lt_or_ge (ciLower n).toNat (ciUpper n).toNat with h3 | h3
    · refine le_trans ?_ hw
      have he : ciUpper n - ciLower n - 1 = (((ciUpper n).toNat - (ciLower n).toNat - 1 : Nat) : Int) := by omega
      rw [he]
      exact_mod_cast hc
    · rw [show (ciUpper n).toNat - (ciLower n).toNat - 1 = 0 by omega, Nat.le_zero] at hc
      rw [hc]
      have : (0 : ℚ) ≤ n := by positivity
      push_cast
      linarith

/-- For an empty sample the interval function reads element `-1`: undefined behaviour. -/
theorem C22_empty (v : List XR) : confInterval v 0 = .error .oob := by
  unfold confInterval
  have hu : ciUpper 0 = -1 := by
    unfold ciUpper roundHalfUp
    norm_num
  rw [hu]
  have hl : ciLower 0 = 0 := by
    unfold ciLower roundHalfUp
    norm_num
  rw [hl]
  have hneg : rdI (sortVals v 0) (-1) = .error .oob := by unfold rdI; simp
  have h0 : rdI (sortVals v 0) 0 = rd (sortVals v 0) 0 := rdI_nat _ _ (le_refl _)
  simp only [hneg, h0, rd]
  split <;> rfl

/-- Non-vacuous: three values in an array of four. -/
example : ∃ (s : List ℝ) (lo up : ℝ), confInterval (finL [5, 1, 3, 100]) 3 = .ok (finL (s ++ [100]), fin lo, fin up) ∧
    s.Perm [5, 1, 3] ∧ lo ≤ up := by
  obtain ⟨s, lo, up, h, hp, _, _, _, hle⟩ := C22_interval [5, 1, 3, 100] 3 (by norm_num) (by simp)
  exact ⟨s, lo, up, h, hp, hle⟩

example : ∃ m : ℝ, meanOf (finL [5, 1, 3, 100]) 3 = .ok (fin m) ∧ m = 3 := by
  obtain ⟨m, h, hm, _⟩ := C22_mean [5, 1, 3, 100] 3 (by norm_num) (by simp)
  refine ⟨m, h, ?_⟩
  norm_num at hm
  linarith

example : ∃ s : ℝ, stdDev (finL [5, 1, 3, 100]) 3 = .ok (fin s) ∧ s = 2 := by
  obtain ⟨s, m, h, h0, hm, hs⟩ := C22_stddev [5, 1, 3, 100] 3 (by norm_num) (by simp)
  refine ⟨s, h, ?_⟩
  norm_num at hm hs
  have : m = 3 := by linarith
  subst this
  nlinarith

end Imfit
