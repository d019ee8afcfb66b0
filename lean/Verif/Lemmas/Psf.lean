import Verif.Model.Psf
import Verif.Lemmas.Func
import Verif.Lemmas.Convolve
import Mathlib.Analysis.Real.Pi.Bounds

/-! Lemmas about PSF interpolation in exact arithmetic. -/

namespace Imfit

open XR

/-- The Lanczos function of the code on real numbers. -/
noncomputable def lz (k : ℕ) (x : ℝ) : ℝ :=
  if |x| < 1 / 10 ^ 6 then 1
  else if (k : ℝ) < |x| then 0
  else (k * Real.sin ((psfPI : ℝ) * |x|) * Real.sin ((psfPI : ℝ) * |x| / k)) / ((psfPI2 : ℝ) * |x| * |x|)

theorem lanczos_fin (k : ℕ) (hk : 0 < k) (x : ℝ) : lanczos (fin x) k = fin (lz k x) := by
  have hk0 : (k : ℝ) ≠ 0 := by exact_mod_cast hk.ne'
  unfold lanczos lz
  simp only [fabs_fin, lit_def, flt_fin, one_def, zero_def]
  by_cases h1 : |x| < 1 / 10 ^ 6
  · have h1' : |x| < ((1 / 10 ^ 6 : ℚ) : ℝ) := by push_cast; exact h1
    simp only [h1, h1', decide_true, if_true]
  · have h1' : ¬ |x| < ((1 / 10 ^ 6 : ℚ) : ℝ) := by push_cast; exact h1
    simp only [h1, h1', decide_false, if_false, Bool.false_eq_true, Rat.cast_natCast]
    by_cases h2 : (k : ℝ) < |x|
    · simp only [h2, decide_true, if_true]
    · simp only [h2, decide_false, if_false, Bool.false_eq_true]
      have hx : |x| ≠ 0 := by
        intro h; rw [h] at h1; norm_num at h1
      have hp : (psfPI2 : ℝ) ≠ 0 := by unfold psfPI2; norm_num
      simp only [fin_mul, fin_div_of_ne hk0, fsin_fin]
      rw [fin_div_of_ne (mul_ne_zero (mul_ne_zero hp hx) hx)]

theorem lz_zero (k : ℕ) : lz k 0 = 1 := by
  unfold lz; rw [if_pos (by norm_num)]

/-- `sin` at an integer multiple of the truncated constant. -/
theorem sin_psfPI (t : ℕ) : |Real.sin ((psfPI : ℝ) * t)| ≤ t * (4 / 10 ^ 15) := by
  have h1 := Real.pi_gt_d20
  have h2 := Real.pi_lt_d20
  have e : (psfPI : ℝ) * t = t * Real.pi - t * (Real.pi - psfPI) := by ring
  have hs : |Real.sin ((t : ℝ) * Real.pi - t * (Real.pi - psfPI))| = |Real.sin (t * (Real.pi - psfPI))| := by
    have e2 : (t : ℝ) * Real.pi - t * (Real.pi - psfPI) = -(t * (Real.pi - psfPI) - (t : ℝ) * Real.pi) := by ring
    rw [e2, Real.sin_neg, abs_neg, Real.sin_sub_nat_mul_pi, abs_mul, abs_pow, abs_neg, abs_one, one_pow, one_mul]
  rw [e, hs]
  have hd : 0 ≤ Real.pi - (psfPI : ℝ) := by unfold psfPI; push_cast; linarith
  have hd2 : Real.pi - (psfPI : ℝ) ≤ 4 / 10 ^ 15 := by unfold psfPI; push_cast; linarith
  calc |Real.sin (t * (Real.pi - psfPI))| ≤ |t * (Real.pi - psfPI)| := Real.abs_sin_le_abs
    _ = t * (Real.pi - psfPI) := abs_of_nonneg (mul_nonneg (Nat.cast_nonneg _) hd)
    _ ≤ _ := mul_le_mul_of_nonneg_left hd2 (Nat.cast_nonneg _)

theorem lz_int {k : ℕ} (hk : 0 < k) (hk3 : k ≤ 3) {t : ℤ} (ht : t ≠ 0) : |lz k t| ≤ 2 / 10 ^ 15 := by
  obtain ⟨m, hm⟩ : ∃ m : ℕ, |(t : ℝ)| = m := ⟨t.natAbs, by rw [Nat.cast_natAbs, Int.cast_abs]⟩
  have hm1 : (1 : ℝ) ≤ m := by
    rw [← hm, ← Int.cast_abs]; exact_mod_cast Int.one_le_abs ht
  unfold lz
  rw [hm, if_neg (by push Not; linarith [show (1 : ℝ) / 10 ^ 6 ≤ 1 by norm_num])]
  split
  · norm_num
  · have hs := sin_psfPI m
    have hk' : (k : ℝ) ≤ 3 := by exact_mod_cast hk3
    have hk0 : (0 : ℝ) < k := by exact_mod_cast hk
    have hp : (psfPI2 : ℝ) = 986960440108936 / 10 ^ 14 := by unfold psfPI2; push_cast; ring
    have hpos : (0 : ℝ) < (psfPI2 : ℝ) * m * m := by rw [hp]; positivity
    rw [abs_div, abs_of_pos hpos, div_le_iff₀ hpos, abs_mul, abs_mul, abs_of_pos hk0]
    calc k * |Real.sin ((psfPI : ℝ) * m)| * |Real.sin ((psfPI : ℝ) * m / k)| ≤ k * |Real.sin ((psfPI : ℝ) * m)| * 1 :=
          mul_le_mul_of_nonneg_left (Real.abs_sin_le_one _) (by positivity)
      _ ≤ 3 * (m * (4 / 10 ^ 15)) := by
          rw [mul_one]; exact mul_le_mul hk' hs (abs_nonneg _) (by norm_num)
      _ ≤ 2 / 10 ^ 15 * (psfPI2 * m * m) := by rw [hp]; nlinarith

theorem lz_int_le {k : ℕ} (hk : 0 < k) (hk3 : k ≤ 3) (t : ℤ) : |lz k t| ≤ 1 := by
  by_cases ht : t = 0
  · subst ht; rw [Int.cast_zero, lz_zero]; simp
  · exact (lz_int hk hk3 ht).trans (by norm_num)

/-- Half the number of pixels along an axis, less one half. -/
noncomputable def half (n : ℕ) : ℝ := ((n : ℝ) - 1) / 2

theorem psfInterp_fin (data : List XR) (C R : ℕ) : psfInterp data C R =
    ⟨C, R, data, fin (half C), fin (half R), (List.range C).map fun n : ℕ => fin ((n : ℝ) - half C),
      (List.range R).map fun n : ℕ => fin ((n : ℝ) - half R)⟩ := by
  unfold psfInterp half
  simp only [lit_def]
  rw [fin_div_of_ne (by norm_num), fin_div_of_ne (by norm_num)]
  push_cast
  simp only [fin_sub]

theorem outside_fin (data : List XR) (C R : ℕ) (x y : ℝ) : outsidePsf (psfInterp data C R) (fin x) (fin y) = true ↔
    x < -half C ∨ half C < x ∨ y < -half R ∨ half R < y := by
  rw [psfInterp_fin]
  simp only [outsidePsf, fin_neg, flt_fin, Bool.or_eq_true, decide_eq_true_eq, or_assoc]

theorem findIndex_fin {n : ℕ} (hn : 2 ≤ n) (hn2 : n < 2147483648) {x : ℝ} (h1 : -half n ≤ x) (h2 : x ≤ half n) :
    findIndex ((List.range n).map fun m : ℕ => fin ((m : ℝ) - half n)) (fin x) = .ok ⌊x + half n⌋ ∧ 0 ≤ ⌊x + half n⌋ ∧ ⌊x + half n⌋ < n := by
  have hr : ((n : ℝ)) < 2147483648 := by exact_mod_cast hn2
  have hb : x + half n ≤ n - 1 := by
    have : half n + half n = n - 1 := by unfold half; ring
    linarith
  have h0 : (0 : ℤ) ≤ ⌊x + half n⌋ := Int.floor_nonneg.2 (by linarith)
  refine ⟨?_, h0, ?_⟩
  · unfold findIndex
    rw [rd_range_map _ (by omega), rd_range_map _ (by omega)]
    simp only [ok_bind, fin_sub]
    have e : ((1 : ℕ) : ℝ) - half n - (((0 : ℕ) : ℝ) - half n) = 1 := by push_cast; ring
    rw [e, fin_div_of_ne one_ne_zero]
    have e2 : (x - (((0 : ℕ) : ℝ) - half n)) / 1 = x + half n := by push_cast; ring
    rw [e2]
    show ftoi (fin (⌊x + half n⌋ : ℝ)) = _
    rw [ftoi_fin (by exact_mod_cast h0), Int.floor_intCast]
    have := Int.floor_le (x + half n)
    linarith
  · rw [Int.floor_lt]; push_cast; linarith

/-- Contribution of one PSF pixel. -/
noncomputable def lzTerm (k C R : ℕ) (g : ℕ → ℝ) (x y : ℝ) (ix iy : ℤ) : ℝ :=
  if ix < 0 ∨ (C : ℤ) ≤ ix ∨ iy < 0 ∨ (R : ℤ) ≤ iy then 0
  else lz k (x - (ix - half C)) * lz k (y - (iy - half R)) * g (ix.toNat * C + iy.toNat)

theorem lanczosPixel_fin {k C R : ℕ} (hk : 0 < k) (g : ℕ → ℝ) (hCR : C ≤ R) (x y a : ℝ) {ix : ℕ} (hix : ix < C) (iy : ℤ) :
    lanczosPixel k (psfInterp ((List.range (R * C)).map fun i => fin (g i)) C R) (fin x) (fin y) ix (fin ((ix : ℝ) - half C)) iy (fin a) =
      .ok (fin (a + lzTerm k C R g x y ix iy)) := by
  rw [psfInterp_fin]
  unfold lanczosPixel lzTerm
  by_cases h : iy < 0 ∨ (R : ℤ) ≤ iy
  · simp only [h, if_true]
    rw [if_pos (by tauto)]
    simp only [pure_eq_ok, zero_def, fin_add]
  · rw [if_neg h]
    push Not at h
    obtain ⟨m, rfl⟩ := Int.eq_ofNat_of_zero_le h.1
    have hm : m < R := by exact_mod_cast h.2
    rw [if_neg (t := (0 : ℝ)) (by omega)]
    have hidx : ix * C + m < R * C := by
      have h1 : ix + 1 ≤ C := hix
      have h2 : (ix + 1) * (C - 1) ≤ C * (C - 1) := Nat.mul_le_mul_right _ h1
      obtain ⟨c, rfl⟩ : ∃ c, C = c + 1 := ⟨C - 1, by omega⟩
      obtain ⟨r, rfl⟩ : ∃ r, R = r + 1 := ⟨R - 1, by omega⟩
      have h3 : ix * (c + 1) ≤ c * (c + 1) := Nat.mul_le_mul_right _ (by omega)
      have h4 : c * c ≤ r * c := Nat.mul_le_mul_right _ (by omega)
      have : (r + 1) * (c + 1) = r * c + r + c + 1 := by ring
      have : c * (c + 1) = c * c + c := by ring
      omega
    have e1 : rdI ((List.range R).map fun n : ℕ => fin ((n : ℝ) - half R)) (m : ℤ) = .ok (fin ((m : ℝ) - half R)) := by
      unfold rdI
      rw [if_neg (by omega), Int.toNat_natCast, rd_range_map _ hm]
    have e2 : rdI ((List.range (R * C)).map fun i => fin (g i)) ((ix : ℤ) * C + m) = .ok (fin (g (ix * C + m))) := by
      unfold rdI
      have : ((ix : ℤ) * C + m) = ((ix * C + m : ℕ) : ℤ) := by push_cast; rfl
      rw [this, if_neg (by omega), Int.toNat_natCast, rd_range_map _ hidx]
    rw [e1, e2]
    simp only [ok_bind, fin_sub, lanczos_fin k hk, fin_mul, fin_add, pure_eq_ok, Int.toNat_natCast, Int.cast_natCast]

theorem lanczosColumn_fin {k C R : ℕ} (hk : 0 < k) (g : ℕ → ℝ) (hCR : C ≤ R) (x y a : ℝ) (midY ix : ℤ) :
    lanczosColumn k (psfInterp ((List.range (R * C)).map fun i => fin (g i)) C R) (fin x) (fin y) midY ix (fin a) =
      .ok (fin (a + ∑ j ∈ Finset.range (2 * k + 1), lzTerm k C R g x y ix (midY + ((j : ℤ) - k)))) := by
  unfold lanczosColumn
  have hc : (psfInterp ((List.range (R * C)).map fun i => fin (g i)) C R : PsfInterp XR).nColumns = C := rfl
  rw [hc]
  by_cases h : ix < 0 ∨ (C : ℤ) ≤ ix
  · rw [if_pos h, Finset.sum_eq_zero (fun j _ => by unfold lzTerm; rw [if_pos (by tauto)])]
    simp only [pure_eq_ok, zero_def, fin_add]
  · rw [if_neg h]
    push Not at h
    obtain ⟨m, rfl⟩ := Int.eq_ofNat_of_zero_le h.1
    have hm : m < C := by exact_mod_cast h.2
    have e1 : rdI (psfInterp ((List.range (R * C)).map fun i => fin (g i)) C R : PsfInterp XR).xArray (m : ℤ) = .ok (fin ((m : ℝ) - half C)) := by
      rw [psfInterp_fin]
      unfold rdI
      rw [if_neg (by omega), Int.toNat_natCast, rd_range_map _ hm]
    rw [e1]
    simp only [ok_bind, Int.toNat_natCast]
    rw [forN_ok _ _ _ fun z => fin (a + ∑ j ∈ Finset.range z, lzTerm k C R g x y m (midY + ((j : ℤ) - k)))]
    · simp
    · intro z _
      rw [lanczosPixel_fin hk g hCR x y _ hm, Finset.sum_range_succ, add_assoc]

/-- Inside the PSF image the interpolated value is the windowed sum over the array read with the column index first. -/
theorem lanczosValue_fin {k C R : ℕ} (hk : 0 < k) (g : ℕ → ℝ) (hC : 2 ≤ C) (hCR : C ≤ R) (hR : R < 2147483648) {x y : ℝ}
    (hx1 : -half C ≤ x) (hx2 : x ≤ half C) (hy1 : -half R ≤ y) (hy2 : y ≤ half R) :
    lanczosValue k (psfInterp ((List.range (R * C)).map fun i => fin (g i)) C R) (fin x) (fin y) =
      .ok (fin (∑ i ∈ Finset.range (2 * k + 1), ∑ j ∈ Finset.range (2 * k + 1),
        lzTerm k C R g x y (⌊x + half C⌋ + ((i : ℤ) - k)) (⌊y + half R⌋ + ((j : ℤ) - k)))) := by
  unfold lanczosValue
  rw [if_neg (by rw [outside_fin]; push Not; exact ⟨hx1, hx2, hy1, hy2⟩)]
  have ex : (psfInterp ((List.range (R * C)).map fun i => fin (g i)) C R : PsfInterp XR).xArray = (List.range C).map fun m : ℕ => fin ((m : ℝ) - half C) := by
    rw [psfInterp_fin]
  have ey : (psfInterp ((List.range (R * C)).map fun i => fin (g i)) C R : PsfInterp XR).yArray = (List.range R).map fun m : ℕ => fin ((m : ℝ) - half R) := by
    rw [psfInterp_fin]
  rw [ex, ey, (findIndex_fin hC (by omega) hx1 hx2).1, (findIndex_fin (by omega) hR hy1 hy2).1]
  simp only [ok_bind]
  rw [forN_ok _ _ _ fun z => fin (∑ i ∈ Finset.range z, ∑ j ∈ Finset.range (2 * k + 1),
        lzTerm k C R g x y (⌊x + half C⌋ + ((i : ℤ) - k)) (⌊y + half R⌋ + ((j : ℤ) - k)))]
  · simp [zero_def]
  · intro z _
    rw [lanczosColumn_fin hk g hCR, Finset.sum_range_succ _ z]

/-- A loop all of whose steps succeed or read out of bounds, one of them always the latter. -/
theorem forN_oob {σ : Type} (n : ℕ) (s : σ) (f : ℕ → σ → Res σ) (h : ∀ z t, z < n → (∃ t', f z t = .ok t') ∨ f z t = .error .oob)
    (hm : ∃ m, m < n ∧ ∀ t, f m t = .error .oob) : forN n s f = .error .oob := by
  induction n with
  | zero => obtain ⟨m, hm, _⟩ := hm; omega
  | succ n ih =>
    obtain ⟨m, hm1, hm2⟩ := hm
    by_cases e : m = n
    · subst e
      have : (∃ t, forN m s f = .ok t) ∨ forN m s f = .error .oob := by
        clear ih hm2
        induction m with
        | zero => exact Or.inl ⟨s, rfl⟩
        | succ m ih =>
          rcases ih (fun z t hz => h z t (by omega)) (by omega) with ⟨t, ht⟩ | ht
          · simp only [forN, ht, ok_bind]; exact h m t (by omega)
          · right; simp only [forN, ht, error_bind]
      rcases this with ⟨t, ht⟩ | ht
      · simp only [forN, ht, ok_bind]; exact hm2 t
      · simp only [forN, ht, error_bind]
    · simp only [forN, ih (fun z t hz => h z t (by omega)) ⟨m, by omega, hm2⟩, error_bind]

theorem forN_ok_or_oob {σ : Type} (n : ℕ) (s : σ) (f : ℕ → σ → Res σ) (h : ∀ z t, z < n → (∃ t', f z t = .ok t') ∨ f z t = .error .oob) :
    (∃ t, forN n s f = .ok t) ∨ forN n s f = .error .oob := by
  induction n with
  | zero => exact Or.inl ⟨s, rfl⟩
  | succ n ih =>
    rcases ih (fun z t hz => h z t (by omega)) with ⟨t, ht⟩ | ht
    · simp only [forN, ht, ok_bind]; exact h n t (by omega)
    · right; simp only [forN, ht, error_bind]

theorem rdI_ok_or_oob {β : Type} (l : List β) (i : ℤ) : (∃ v, rdI l i = .ok v) ∨ rdI l i = .error .oob := by
  unfold rdI
  split
  · exact Or.inr rfl
  · unfold rd; split
    · exact Or.inl ⟨_, rfl⟩
    · exact Or.inr rfl

variable {α : Type} [FP α] [FM α]

theorem lanczosPixel_ok_or_oob (k : ℕ) (p : PsfInterp α) (x y : α) (ix : ℕ) (xd : α) (iy : ℤ) (a : α) :
    (∃ v, lanczosPixel k p x y ix xd iy a = .ok v) ∨ lanczosPixel k p x y ix xd iy a = .error .oob := by
  unfold lanczosPixel
  split
  · exact Or.inl ⟨_, rfl⟩
  · rcases rdI_ok_or_oob p.yArray iy with ⟨v, h⟩ | h
    · rcases rdI_ok_or_oob p.data ((ix : ℤ) * p.nColumns + iy) with ⟨w, h'⟩ | h'
      · left; simp only [h, h', ok_bind, pure_eq_ok]; exact ⟨_, rfl⟩
      · right; simp only [h, h', ok_bind, error_bind]
    · right; simp only [h, error_bind]

theorem lanczosColumn_ok_or_oob (k : ℕ) (p : PsfInterp α) (x y : α) (my ix : ℤ) (a : α) :
    (∃ v, lanczosColumn k p x y my ix a = .ok v) ∨ lanczosColumn k p x y my ix a = .error .oob := by
  unfold lanczosColumn
  split
  · exact Or.inl ⟨_, rfl⟩
  · rcases rdI_ok_or_oob p.xArray ix with ⟨v, h⟩ | h
    · simp only [h, ok_bind]
      exact forN_ok_or_oob _ _ _ fun z t _ => lanczosPixel_ok_or_oob k p x y ix.toNat v _ t
    · right; simp only [h, error_bind]

end Imfit
