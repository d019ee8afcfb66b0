import Verif.Lemmas.Convolve

/-!
# C15: convolution is the true linear convolution with the centred PSF

The result of set-up and convolution is compared with `Spec.linearConvolution`, a plain double sum over the PSF in which light
outside the image is zero. Trusted: FFTW computes the exact discrete Fourier sums (`fftR2C`, `fftC2R`).
-/

namespace Imfit

open XR Finset

/-- The PSF that is used: divided by its total if normalisation was requested. -/
noncomputable def usedPsf (cols rows : Nat) (P : Nat → Nat → ℝ) (normalize : Bool) (y x : Nat) : ℝ :=
  if normalize then P y x / Spec.total cols rows P else P y x

/-- For every image size, PSF size (odd, even, larger than the image) and contents: set-up and convolution succeed (no access outside the arrays) and
every pixel of the result is the linear convolution with the (normalised) PSF centred at (rows/2, columns/2). -/
theorem C15_convolution (c : Cv) (P I : Nat → Nat → ℝ) (normalize : Bool)
    (hcI : 0 < c.colsI) (hrI : 0 < c.rowsI) (hcP : 0 < c.colsP) (hrP : 0 < c.rowsP)
    (hp : c.psf = Spec.image c.colsP c.rowsP P) (hn : normalize = true → Spec.total c.colsP c.rowsP P ≠ 0) :
    ∃ r, cvSetup c normalize = .ok r ∧ convolveImage r.1 r.2 (Spec.image c.colsI c.rowsI I) =
      .ok (Spec.image c.colsI c.rowsI (Spec.linearConvolution c.colsI c.rowsI c.colsP c.rowsP I (usedPsf c.colsP c.rowsP P normalize))) := by
  cases normalize with
  | false =>
    obtain ⟨r, h1, _, h3⟩ := convolve_eq c P I hcI hrI hcP hrP hp
    exact ⟨r, h1, h3⟩
  | true =>
    obtain ⟨colsI, rowsI, colsP, rowsP, psf⟩ := c
    simp only at hcI hrI hcP hrP hp hn
    subst hp
    obtain ⟨r, h1, h2, h3⟩ := convolve_eq ⟨colsI, rowsI, colsP, rowsP, Spec.image colsP rowsP (fun y x => P y x / Spec.total colsP rowsP P)⟩
      (fun y x => P y x / Spec.total colsP rowsP P) I hcI hrI hcP hrP rfl
    refine ⟨r, ?_, h3⟩
    rw [← h1]
    unfold cvSetup
    simp only [Cv.normalized, if_true, normalizePsf_image _ _ P (hn trivial), Bool.false_eq_true, if_false]

theorem image_rtab (cols rows : Nat) (v : Nat → ℝ) :
    rtab (rows * cols) v = Spec.image cols rows fun y x => v (y * cols + x) := by
  unfold rtab tab Spec.image
  apply List.map_congr_left
  intro k _
  beta_reduce
  rw [mul_comm (k / cols), Nat.div_add_mod]

/-- The convolver satisfies the hypothesis that the image theorems (C10, C12) put on a convolution. -/
theorem C15_linear (c : Cv) (P : Nat → Nat → ℝ) (normalize : Bool)
    (hcI : 0 < c.colsI) (hrI : 0 < c.rowsI) (hcP : 0 < c.colsP) (hrP : 0 < c.rowsP)
    (hp : c.psf = Spec.image c.colsP c.rowsP P) (hn : normalize = true → Spec.total c.colsP c.rowsP P ≠ 0) :
    LinConv (c.rowsI * c.colsI) (c.fn normalize) := by
  refine ⟨fun v k => Spec.linearConvolution c.colsI c.rowsI c.colsP c.rowsP (fun y x => v (y * c.colsI + x))
    (usedPsf c.colsP c.rowsP P normalize) (k / c.colsI) (k % c.colsI), ?_, ?_⟩
  · intro v w
    funext k
    unfold Spec.linearConvolution
    rw [← sum_add_distrib]
    refine sum_congr rfl fun i _ => ?_
    rw [← sum_add_distrib]
    refine sum_congr rfl fun j _ => ?_
    rw [← mul_add]
    congr 1
    unfold Spec.zeroOutside
    split
    · rfl
    · simp
  · intro v
    obtain ⟨r, h1, h2⟩ := C15_convolution c P (fun y x => v (y * c.colsI + x)) normalize hcI hrI hcP hrP hp hn
    rw [image_rtab]
    simp only [Cv.fn, h1, h2]
    rfl

/-- A 2 x 1 image with light in its first pixel and the PSF 1, 2, 3 (origin at the 2). -/
def exCv : Cv := ⟨2, 1, 3, 1, Spec.image 3 1 fun _ j => (j : ℝ) + 1⟩

example : ∃ r, cvSetup exCv false = .ok r ∧ convolveImage r.1 r.2 [fin 1, fin 0] = .ok [fin 2, fin 3] := by
  obtain ⟨r, h1, h2⟩ := C15_convolution exCv (fun _ j => (j : ℝ) + 1) (fun _ x => if x = 0 then 1 else 0) false (by decide) (by decide)
    (by decide) (by decide) rfl (by intro h; cases h)
  refine ⟨r, h1, ?_⟩
  have e : Spec.image exCv.colsI exCv.rowsI (fun _ x => if x = 0 then (1 : ℝ) else 0) = [fin 1, fin 0] := by
    simp [exCv, Spec.image, List.range_succ]
  rw [e] at h2
  rw [h2]
  simp [exCv, Spec.image, List.range_succ, Spec.linearConvolution, Spec.zeroOutside, usedPsf, sum_range_succ]
  norm_num

end Imfit
