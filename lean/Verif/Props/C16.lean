import Verif.Props.C15
import Mathlib.Algebra.BigOperators.Field

/-!
# C16: PSF normalisation and flux conservation
-/

namespace Imfit

open XR Finset

theorem total_div (cols rows : Nat) (P : Nat → Nat → ℝ) (s : ℝ) :
    Spec.total cols rows (fun y x => P y x / s) = Spec.total cols rows P / s := by
  unfold Spec.total
  simp only [← sum_div]

/-- After `NormalizePSF` the pixels sum to 1, for every PSF with a non-zero sum. -/
theorem C16_normalize (cols rows : Nat) (P : Nat → Nat → ℝ) (h : Spec.total cols rows P ≠ 0) :
    ∃ Q, normalizePsf (Spec.image cols rows P) = Spec.image cols rows Q ∧ Spec.total cols rows Q = 1 ∧
      ∀ y x, Q y x * Spec.total cols rows P = P y x := by
  refine ⟨_, normalizePsf_image cols rows P h, ?_, ?_⟩
  · rw [total_div, div_self h]
  · intro y x
    exact div_mul_cancel₀ _ h

theorem copyPsf_fin (l : List XR) (f : Nat → ℝ) (n : Nat) (h : ∀ k, k < n → rd l k = .ok (fin (f k))) :
    copyPsf l n = .ok (some (((List.range n).map f).map fin, fin ((List.range n).map f).sum)) := by
  induction n with
  | zero => simp [copyPsf]
  | succ n ih =>
    simp only [copyPsf, ih (fun k hk => h k (by omega)), h n (by omega), ok_bind]
    simp [List.range_succ, List.sum_append]

theorem copyPsf_bad (l : List XR) (n : Nat) (hl : n ≤ l.length) (h : ∃ k, k < n ∧ ∃ v, rd l k = .ok v ∧ isfin v = false) :
    copyPsf l n = .ok none := by
  induction n with
  | zero => obtain ⟨k, hk, _⟩ := h; omega
  | succ n ih =>
    obtain ⟨k, hk, v, hv, hb⟩ := h
    rcases Nat.lt_succ_iff_lt_or_eq.1 hk with h1 | h1
    · simp [copyPsf, ih (by omega) ⟨k, h1, v, hv, hb⟩]
    · subst h1
      have : ∀ m, m ≤ k → ∃ r, copyPsf l m = .ok r := by
        intro m hm
        induction m with
        | zero => exact ⟨_, rfl⟩
        | succ m ihm =>
          obtain ⟨r, hr⟩ := ihm (by omega)
          simp only [copyPsf, hr, ok_bind]
          cases r with
          | none => exact ⟨_, rfl⟩
          | some q =>
            simp only [rd_ok (by omega : m < l.length), ok_bind]
            split
            · exact ⟨_, rfl⟩
            · exact ⟨_, rfl⟩
      obtain ⟨r, hr⟩ := this k (le_refl _)
      simp only [copyPsf, hr, ok_bind]
      cases r with
      | none => rfl
      | some q => simp [hv, hb]

/-- `AddPSFVector` with normalisation: refused (status -1) exactly when the sum is not positive, otherwise the stored PSF is
proportional to the input and sums to 1. -/
theorem C16_add (cols rows : Nat) (P : Nat → Nat → ℝ) (hc : 0 < cols) (hr : 0 < rows) :
    (Spec.total cols rows P ≤ 0 → addPsfVector (Spec.image cols rows P) (rows * cols) cols rows true = .ok none) ∧
    (0 < Spec.total cols rows P → ∃ Q, addPsfVector (Spec.image cols rows P) (rows * cols) cols rows true = .ok (some (Spec.image cols rows Q)) ∧
      Spec.total cols rows Q = 1 ∧ ∀ y x, Q y x * Spec.total cols rows P = P y x) := by
  have hcopy : copyPsf (Spec.image cols rows P) (rows * cols) = .ok (some (Spec.image cols rows P, fin (Spec.total cols rows P))) := by
    rw [copyPsf_fin _ (fun k => P (k / cols) (k % cols)), image_sum, ← image_eq_map]
    intro k hk
    rw [rd_ok (by rw [image_length]; exact hk), image_getElem]
  have hn : 1 ≤ rows * cols := Nat.mul_pos hr hc
  have hadd : addPsfVector (Spec.image cols rows P) (rows * cols) cols rows true =
      .ok (finishPsf true (Spec.image cols rows P, fin (Spec.total cols rows P))) := by
    unfold addPsfVector
    rw [if_neg (by simp only [not_not]; exact ⟨hn, hc, hr⟩)]
    simp only [hcopy, ok_bind, pure_eq_ok]
  constructor
  · intro h
    rw [hadd]
    simp [finishPsf, h]
  · intro h
    obtain ⟨Q, h1, h2, h3⟩ := C16_normalize cols rows P h.ne'
    refine ⟨Q, ?_, h2, h3⟩
    rw [hadd]
    simp only [finishPsf, zero_def, fle_fin, not_le.2 h, decide_false, if_true, Bool.false_eq_true, if_false, h1]

/-- A PSF with a NaN or infinite pixel is refused. -/
theorem C16_bad_pixel (psf : List XR) (cols rows : Nat) (normalize : Bool) (hc : 0 < cols) (hr : 0 < rows) (hl : psf.length = rows * cols)
    (hb : ∃ v ∈ psf, isfin v = false) : addPsfVector psf (rows * cols) cols rows normalize = .ok none := by
  obtain ⟨v, hv, hbad⟩ := hb
  obtain ⟨k, hk, e⟩ := List.getElem_of_mem hv
  unfold addPsfVector
  have hn : 1 ≤ rows * cols := Nat.mul_pos hr hc
  rw [if_neg (by simp only [not_not]; exact ⟨hn, hc, hr⟩)]
  rw [copyPsf_bad psf _ (by omega) ⟨k, by omega, v, by rw [rd_ok hk, e], hbad⟩]
  rfl

/-- The convolver normalises its own PSF in the same way. -/
theorem C16_convolver (c : Cv) (P : Nat → Nat → ℝ) (hcI : 0 < c.colsI) (hrI : 0 < c.rowsI)
    (hp : c.psf = Spec.image c.colsP c.rowsP P) (hn : Spec.total c.colsP c.rowsP P ≠ 0) :
    ∃ r Q, cvSetup c true = .ok r ∧ r.1.psf = Spec.image c.colsP c.rowsP Q ∧ Spec.total c.colsP c.rowsP Q = 1 := by
  obtain ⟨colsI, rowsI, colsP, rowsP, psf⟩ := c
  simp only at hcI hrI hp hn
  subst hp
  obtain ⟨Q, h1, h2, _⟩ := C16_normalize colsP rowsP P hn
  unfold cvSetup
  simp only [Cv.normalized, if_true, h1]
  rw [shiftAndWrap_eq ⟨colsI, rowsI, colsP, rowsP, Spec.image colsP rowsP Q⟩ Q hcI hrI rfl]
  simp only [ok_bind, pure_eq_ok]
  exact ⟨_, Q, rfl, rfl, h2⟩

/-! ## Flux -/

/-- Shifting a function that vanishes wherever the shift would leave 0..n-1. -/
theorem sum_shift_int (n : Nat) (d : ℤ) (h : ℤ → ℝ) (hz : ∀ t, h t ≠ 0 → 0 ≤ t ∧ t < n ∧ 0 ≤ t + d ∧ t + d < n) :
    ∑ y ∈ range n, h ((y : ℤ) - d) = ∑ y ∈ range n, h (y : ℤ) := by
  apply sum_bij_ne_zero (fun (y : Nat) _ _ => ((y : ℤ) - d).toNat)
  · intro y _ hne
    have := hz _ hne
    exact mem_range.2 (by omega)
  · intro a _ ha b _ hb e
    have := hz _ ha
    have := hz _ hb
    omega
  · intro t ht hne
    have := hz _ hne
    refine ⟨((t : ℤ) + d).toNat, mem_range.2 (by omega), ?_, by omega⟩
    have : (((t : ℤ) + d).toNat : ℤ) - d = t := by omega
    rw [this]; exact hne
  · intro y _ hne
    have := hz _ hne
    congr 1
    omega

/-- The light of the image stays clear of the border: the shifted PSF around each bright pixel lies inside the image. -/
def ClearOfBorder (colsI rowsI colsP rowsP : Nat) (I : Nat → Nat → ℝ) : Prop :=
  ∀ y x, y < rowsI → x < colsI → I y x ≠ 0 →
    rowsP / 2 ≤ y ∧ y + (rowsP - 1 - rowsP / 2) < rowsI ∧ colsP / 2 ≤ x ∧ x + (colsP - 1 - colsP / 2) < colsI

theorem total_linearConvolution (colsI rowsI colsP rowsP : Nat) (I P : Nat → Nat → ℝ) (hclear : ClearOfBorder colsI rowsI colsP rowsP I) :
    Spec.total colsI rowsI (Spec.linearConvolution colsI rowsI colsP rowsP I P) = Spec.total colsP rowsP P * Spec.total colsI rowsI I := by
  have hz : ∀ y x : ℤ, Spec.zeroOutside colsI rowsI I y x ≠ 0 → (0 ≤ y ∧ y < rowsI ∧ 0 ≤ x ∧ x < colsI) ∧
      ((rowsP / 2 : Nat) : ℤ) ≤ y ∧ y + ((rowsP - 1 - rowsP / 2 : Nat) : ℤ) < rowsI ∧ ((colsP / 2 : Nat) : ℤ) ≤ x ∧
        x + ((colsP - 1 - colsP / 2 : Nat) : ℤ) < colsI := by
    intro y x hne
    unfold Spec.zeroOutside at hne
    split at hne
    · rename_i hin
      obtain ⟨a1, a2, a3, a4⟩ := hin
      have := hclear y.toNat x.toNat (by omega) (by omega) hne
      refine ⟨⟨a1, a2, a3, a4⟩, by omega, by omega, by omega, by omega⟩
    · exact absurd rfl hne
  have one : ∀ i, i < rowsP → ∀ j, j < colsP → ∑ y ∈ range rowsI, ∑ x ∈ range colsI,
      Spec.zeroOutside colsI rowsI I ((y : ℤ) - ((i : ℤ) - (rowsP / 2 : Nat))) ((x : ℤ) - ((j : ℤ) - (colsP / 2 : Nat))) =
      Spec.total colsI rowsI I := by
    intro i hi j hj
    rw [sum_shift_int rowsI ((i : ℤ) - (rowsP / 2 : Nat))
      (fun t => ∑ x ∈ range colsI, Spec.zeroOutside colsI rowsI I t ((x : ℤ) - ((j : ℤ) - (colsP / 2 : Nat))))]
    · unfold Spec.total
      refine sum_congr rfl fun y hy => ?_
      have hy := mem_range.1 hy
      rw [sum_shift_int colsI ((j : ℤ) - (colsP / 2 : Nat)) (fun t => Spec.zeroOutside colsI rowsI I y t)]
      · refine sum_congr rfl fun x hx => ?_
        have hx := mem_range.1 hx
        unfold Spec.zeroOutside
        rw [if_pos (by omega)]
        rfl
      · intro t ht
        have := hz _ _ ht
        omega
    · intro t ht
      obtain ⟨x, _, hx⟩ := exists_ne_zero_of_sum_ne_zero ht
      have := hz _ _ hx
      omega
  unfold Spec.total Spec.linearConvolution
  have a : ∀ (s t u v : Finset Nat) (G : Nat → Nat → Nat → Nat → ℝ),
      ∑ y ∈ s, ∑ x ∈ t, ∑ i ∈ u, ∑ j ∈ v, G y x i j = ∑ i ∈ u, ∑ j ∈ v, ∑ y ∈ s, ∑ x ∈ t, G y x i j := by
    intro s t u v G
    have b : ∀ (s t u : Finset Nat) (G : Nat → Nat → Nat → ℝ),
        ∑ i ∈ s, ∑ j ∈ t, ∑ k ∈ u, G i j k = ∑ k ∈ u, ∑ i ∈ s, ∑ j ∈ t, G i j k := by
      intro s t u G
      have : ∀ i ∈ s, ∑ j ∈ t, ∑ k ∈ u, G i j k = ∑ k ∈ u, ∑ j ∈ t, G i j k := fun i _ => sum_comm
      rw [sum_congr rfl this, sum_comm]
    rw [b]
    refine sum_congr rfl fun i _ => ?_
    rw [b]
  rw [a, sum_mul]
  refine sum_congr rfl fun i hi => ?_
  rw [sum_mul]
  refine sum_congr rfl fun j hj => ?_
  simp only [← mul_sum]
  rw [one i (mem_range.1 hi) j (mem_range.1 hj)]
  rfl

/-- Convolution with a normalised PSF keeps the total flux of every image whose light stays clear of the border. -/
theorem C16_flux (c : Cv) (P I : Nat → Nat → ℝ) (hcI : 0 < c.colsI) (hrI : 0 < c.rowsI) (hcP : 0 < c.colsP) (hrP : 0 < c.rowsP)
    (hp : c.psf = Spec.image c.colsP c.rowsP P) (hn : Spec.total c.colsP c.rowsP P ≠ 0)
    (hclear : ClearOfBorder c.colsI c.rowsI c.colsP c.rowsP I) :
    ∃ r O, cvSetup c true = .ok r ∧ convolveImage r.1 r.2 (Spec.image c.colsI c.rowsI I) = .ok (Spec.image c.colsI c.rowsI O) ∧
      Spec.total c.colsI c.rowsI O = Spec.total c.colsI c.rowsI I := by
  obtain ⟨r, h1, h2⟩ := C15_convolution c P I true hcI hrI hcP hrP hp (fun _ => hn)
  refine ⟨r, _, h1, h2, ?_⟩
  rw [total_linearConvolution _ _ _ _ _ _ hclear]
  have : Spec.total c.colsP c.rowsP (usedPsf c.colsP c.rowsP P true) = 1 := by
    have e : usedPsf c.colsP c.rowsP P true = fun y x => P y x / Spec.total c.colsP c.rowsP P := rfl
    rw [e, total_div, div_self hn]
  rw [this, one_mul]

/-- Non-trivial case: a 3 x 1 image with its light in the middle, PSF 1, 2, 3. -/
example : ClearOfBorder 3 1 3 1 (fun _ x => if x = 1 then 7 else 0) ∧ Spec.total 3 1 (fun _ j => (j : ℝ) + 1) ≠ 0 := by
  constructor
  · intro y x hy hx h
    by_cases h1 : x = 1
    · subst h1; omega
    · simp [h1] at h
  · simp [Spec.total, sum_range_succ]
    norm_num

end Imfit
