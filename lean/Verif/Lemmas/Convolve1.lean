import Verif.Model.Profile
import Verif.Lemmas.Convolve
import Verif.Lemmas.BootErr
import Verif.Spec.Profile1

/-!
# One-dimensional convolution
-/

namespace Imfit

open Finset Spec XR

theorem psfSum1_fin (p : Nat) (P : Nat → ℝ) : psfSum1 (tab p fun k => fin (P k)) = fin (∑ k ∈ range p, P k) := by
  unfold psfSum1 tab
  induction p with
  | zero => rfl
  | succ p ih => rw [List.range_succ, List.map_append, List.foldl_append, ih, sum_range_succ]; rfl

theorem normalize1_fin (p : Nat) (P : Nat → ℝ) (h : ∑ k ∈ range p, P k ≠ 0) :
    normalize1 (tab p fun k => fin (P k)) = tab p fun k => fin (P k / ∑ k ∈ range p, P k) := by
  unfold normalize1
  rw [psfSum1_fin]
  unfold tab
  rw [List.map_map]
  refine List.map_congr_left fun k _ => ?_
  show fin (P k) / fin _ = _
  rw [fin_div_of_ne h]

/-- The padded PSF. -/
theorem shiftWrap1_eq (p C : Nat) (P : Nat → ℝ) (hC : p ≤ C) :
    shiftWrap1 (tab p fun k => fin (P k)) C = .ok (tab C fun c => (fin (padP 1 C p 1 (fun _ => P) 0 c), fin 0)) := by
  unfold shiftWrap1
  rw [tab_length]
  rw [forN_ok p _ _ (fun j => tab C fun c => (fin (if (c + p / 2) % C < j then P ((c + p / 2) % C) else 0), fin 0))]
  · congr 1
    refine tab_congr fun c _ => ?_
    simp [padP]
  · rw [replicate_eq_tab]
    refine tab_congr fun c _ => ?_
    simp
  · intro j hj
    have hC0 : 0 < C := by omega
    rw [rd_tab _ hj, ok_bind, wr_tab _ _ (Nat.mod_lt _ hC0)]
    congr 1
    refine tab_congr fun c hc => ?_
    have h2 := dest_iff (k := p / 2) (i := j) (by omega : p / 2 ≤ C) (by omega) hc
    simp only [h2, zero_def]
    by_cases a : (c + p / 2) % C = j
    · rw [if_pos a, if_pos (by omega), a]
    · rw [if_neg a]
      have e : (c + p / 2) % C < j ↔ (c + p / 2) % C < j + 1 := by omega
      simp only [e]

/-- The padded profile. -/
theorem padProfile_eq (n C : Nat) (I : Nat → ℝ) (hC : n ≤ C) :
    padProfile n C (tab n fun i => fin (I i)) = .ok (tab C fun c => (fin (padI n 1 (fun _ => I) 0 c), fin 0)) := by
  unfold padProfile
  rw [forN_ok n _ _ (fun j => tab C fun c => (fin (if c < j then I c else 0), fin 0))]
  · congr 1
    refine tab_congr fun c _ => ?_
    simp [padI]
  · rw [replicate_eq_tab]
    refine tab_congr fun c _ => ?_
    simp
  · intro j hj
    rw [rd_tab _ hj, ok_bind, wr_tab _ _ (by omega)]
    congr 1
    refine tab_congr fun c hc => ?_
    simp only [zero_def]
    by_cases a : c = j
    · rw [if_pos a, if_pos (by omega), a]
    · rw [if_neg a]
      have e : c < j ↔ c < j + 1 := by omega
      simp only [e]

theorem tab_getD {β : Type} {n x : Nat} (g : Nat → β) (d : β) (h : x < n) : (tab n g).getD x d = g x := by
  simp [tab, h]

theorem fft1_tab (n : Nat) (sign : ℤ) (S : Nat → ℂ) :
    fft1 n sign (tab n fun c => toPair (S c)) = tab n fun j => toPair (∑ x ∈ range n, S x * twiddle n (sign * ((j : ℤ) * x))) := by
  unfold fft1
  have hall : (tab n fun c => toPair (S c)).all (fun p => isfin p.1 && isfin p.2) = true := by
    simp only [tab, List.all_map, List.all_eq_true]
    intro x _
    rfl
  rw [hall]
  simp only [if_true]
  refine tab_congr fun j _ => ?_
  congr 1
  refine sum_congr rfl fun x hx => ?_
  rw [tab_getD _ _ (mem_range.1 hx)]
  rfl

theorem dft2_one (C : Nat) (g : Nat → ℝ) (j : ℤ) : dft2 1 C (fun _ => g) 0 j = ∑ x ∈ range C, (g x : ℂ) * twiddle C (-1 * (j * x)) := by
  unfold dft2
  rw [sum_range_one]
  refine sum_congr rfl fun x _ => ?_
  rw [zero_mul, neg_zero, twiddle_zero, one_mul, neg_one_mul]

theorem fft1_real (C : Nat) (g : Nat → ℝ) :
    fft1 C (-1) (tab C fun c => (fin (g c), fin 0)) = tab C fun j => toPair (dft2 1 C (fun _ => g) 0 j) := by
  have h := fft1_tab C (-1) fun c => (g c : ℂ)
  have e : (tab C fun c => toPair ((g c : ℝ) : ℂ)) = tab C fun c => (fin (g c), fin 0) := by
    refine tab_congr fun c _ => ?_
    simp [toPair]
  rw [e] at h
  rw [h]
  refine tab_congr fun j _ => ?_
  rw [dft2_one]

/-- Set-up of the convolver, then one convolution: the sum with the normalised PSF, nothing outside. -/
theorem convolve1_eq (n p : Nat) (P I : Nat → ℝ) (hn : 0 < n) (hp : 0 < p) (hs : ∑ k ∈ range p, P k ≠ 0) :
    ∃ f, convSetup1 (tab p fun k => fin (P k)) n = .ok f ∧
      convolveProfile n p f (tab n fun i => fin (I i)) = .ok (tab n fun i => fin (∑ k ∈ range p, P k / (∑ k ∈ range p, P k) * zeroBeyond n I ((i : ℤ) - ((k : ℤ) - (p / 2 : Nat))))) := by
  set S := ∑ k ∈ range p, P k with hS
  have hC : padded1 n p = n + p - 1 := rfl
  unfold convSetup1
  rw [normalize1_fin p P hs, tab_length, hC, shiftWrap1_eq p (n + p - 1) _ (by omega), ok_bind, fft1_real]
  refine ⟨_, rfl, ?_⟩
  unfold convolveProfile
  rw [hC, padProfile_eq n (n + p - 1) I (by omega), ok_bind, fft1_real]
  have hm := multSpectra_eq (n + p - 1) (fun j => dft2 1 (n + p - 1) (fun _ => padI n 1 (fun _ => I) 0) 0 j)
    (fun j => dft2 1 (n + p - 1) (fun _ => padP 1 (n + p - 1) p 1 (fun _ k => P k / S) 0) 0 j)
  unfold tab
  rw [hm, ok_bind]
  have hf := fft1_tab (n + p - 1) 1 fun j => dft2 1 (n + p - 1) (fun _ => padI n 1 (fun _ => I) 0) 0 j *
    dft2 1 (n + p - 1) (fun _ => padP 1 (n + p - 1) p 1 (fun _ k => P k / S) 0) 0 j
  unfold tab at hf
  rw [hf]
  clear hm hf
  have hC0 : 0 < n + p - 1 := by omega
  have key : ∀ i, i < n → (∑ x ∈ range (n + p - 1), dft2 1 (n + p - 1) (fun _ => padI n 1 (fun _ => I) 0) 0 x *
      dft2 1 (n + p - 1) (fun _ => padP 1 (n + p - 1) p 1 (fun _ k => P k / S) 0) 0 x * twiddle (n + p - 1) (1 * ((i : ℤ) * x))) =
      ((n + p - 1 : Nat) : ℂ) * ((∑ k ∈ range p, P k / S * zeroBeyond n I ((i : ℤ) - ((k : ℤ) - (p / 2 : Nat))) : ℝ) : ℂ) := by
    intro i hi
    have h := inverse_product (R := 1) Nat.one_pos hC0 (fun _ => padI n 1 (fun _ => I) 0) (fun _ => padP 1 (n + p - 1) p 1 (fun _ k => P k / S) 0) 0 i
    rw [sum_range_one, one_mul] at h
    have hl := cyc_eq_linear (colsI := n) (rowsI := 1) (colsP := p) (rowsP := 1) hp Nat.one_pos (fun _ => I) (fun _ k => P k / S) (y := 0) Nat.one_pos hi
    have hcyc : cyc (1 + 1 - 1) (n + p - 1) (padI n 1 fun _ => I) (padP (1 + 1 - 1) (n + p - 1) p 1 fun _ k => P k / S) 0 i =
        cyc 1 (n + p - 1) (fun _ => padI n 1 (fun _ => I) 0) (fun _ => padP 1 (n + p - 1) p 1 (fun _ k => P k / S) 0) 0 i := by
      unfold cyc
      simp only [sum_range_one, show 1 + 1 - 1 = 1 from rfl]
    rw [hcyc] at hl
    rw [hl] at h
    have hlin : linearConvolution n 1 p 1 (fun _ => I) (fun _ k => P k / S) 0 i = ∑ k ∈ range p, P k / S * zeroBeyond n I ((i : ℤ) - ((k : ℤ) - (p / 2 : Nat))) := by
      unfold linearConvolution
      rw [sum_range_one]
      refine sum_congr rfl fun k _ => ?_
      congr 1
      unfold zeroOutside zeroBeyond
      simp
    rw [hlin] at h
    rw [← h]
    refine sum_congr rfl fun j _ => ?_
    rw [Nat.cast_zero, zero_mul, twiddle_zero, one_mul, one_mul, mul_comm (i : ℤ)]
  have l : (1 / lit (((n + p - 1 : Nat) : ℚ)) : XR) = fin (1 / ((n + p - 1 : Nat) : ℝ)) := by
    rw [lit_def, one_def, fin_div_of_ne (by exact_mod_cast hC0.ne')]
    push_cast
    rfl
  have hloop := forN_ok n (tab n fun i => fin (I i)) (fun i d => do
      let r ← rd ((List.range (n + p - 1)).map fun j : Nat => toPair (∑ x ∈ range (n + p - 1), dft2 1 (n + p - 1) (fun _ => padI n 1 (fun _ => I) 0) 0 x *
        dft2 1 (n + p - 1) (fun _ => padP 1 (n + p - 1) p 1 (fun _ k => P k / S) 0) 0 x * twiddle (n + p - 1) (1 * ((j : ℤ) * x)))) i
      wr d i (1 / lit (((n + p - 1 : Nat) : ℚ)) * r.1))
    (fun j => tab n fun i => fin (if i < j then ∑ k ∈ range p, P k / S * zeroBeyond n I ((i : ℤ) - ((k : ℤ) - (p / 2 : Nat))) else I i)) (by
      refine tab_congr fun i _ => ?_
      simp) (by
      intro j hj
      rw [rd_range_map _ (by omega : j < n + p - 1), ok_bind, wr_tab _ _ hj]
      congr 1
      refine tab_congr fun i hi => ?_
      by_cases a : i = j
      · rw [if_pos a, if_pos (by omega), l, a, key j hj]
        have hne : ((n + p - 1 : Nat) : ℝ) ≠ 0 := by exact_mod_cast hC0.ne'
        simp only [toPair, fin_mul]
        congr 1
        rw [Complex.mul_re, Complex.natCast_re, Complex.natCast_im, Complex.ofReal_re, zero_mul, sub_zero, ← mul_assoc, one_div_mul_cancel hne, one_mul]
      · rw [if_neg a]
        have e : i < j ↔ i < j + 1 := by omega
        simp only [e])
  refine Eq.trans hloop ?_
  congr 1
  refine tab_congr fun i hi => ?_
  rw [if_pos hi]

end Imfit
