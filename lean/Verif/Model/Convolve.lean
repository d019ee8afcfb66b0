import Verif.Model.Image
import Mathlib.Analysis.SpecialFunctions.Complex.Log
import Mathlib.Algebra.BigOperators.Group.Finset.Basic

/-!
# PSF normalisation and FFT convolution

Source: `core/convolver.cpp`, `core/model_object.cpp:827-876, 2581-2594`.

FFTW is outside the model. Its contract (FFTW manual, "What FFTW Really Computes", sections on `r2c` and `c2r` transforms) is written
down as `fftR2C` and `fftC2R`: the exact discrete Fourier sums for finite input (no rounding). For input with a
non-finite value the contract is left empty; NaN everywhere is used. The buffers of the `Convolver` are overwritten completely by each call, so
they are not part of the state. Dimensions are taken as positive (asserted by the callers).
-/

namespace Imfit

open XR

variable {α : Type}

/-- Kahan sum of a list. `core/model_object.cpp:2584-2591`, `core/convolver.cpp:291-298`. -/
def kahanSum [FP α] (l : List α) : α := (l.foldl kahanAdd ⟨0, 0⟩).sum

/-- `NormalizePSF`, `core/model_object.cpp:2581-2594`; the same code is in `core/convolver.cpp:290-300`. -/
def normalizePsf [FP α] (l : List α) : List α := l.map fun p => p / kahanSum l

/-- Copying loop of `AddPSFVector` with the running sum; `none` is the early `return -1`. `core/model_object.cpp:839-849`. -/
def copyPsf [FP α] (psf : List α) : Nat → Res (Option (List α × α))
  | 0 => .ok (some ([], 0))
  | n + 1 => do
    match ← copyPsf psf n with
    | none => pure none
    | some (l, s) => do
      let v ← rd psf n
      if isfin v then pure (some (l ++ [v], s + v)) else pure none

/-- The stored PSF. `core/model_object.cpp:850-858`. -/
def finishPsf [FP α] (normalize : Bool) (r : List α × α) : Option (List α) :=
  if normalize then
    if fle r.2 0 then none else some (normalizePsf r.1)
  else some r.1

/-- `ModelObject::AddPSFVector`, `core/model_object.cpp:827-876`: the local copy of the PSF (used for point sources), or `none` for
the status -1. The test for a call after `SetupModelImage` is left out. -/
def addPsfVector [FP α] (psf : List α) (nPix cols rows : Nat) (normalize : Bool) : Res (Option (List α)) :=
  if ¬ (1 ≤ nPix ∧ 1 ≤ cols ∧ 1 ≤ rows) then .error .assert
  else do
    match ← copyPsf psf nPix with
    | none => pure none
    | some r => pure (finishPsf normalize r)

/-! ## FFTW contract -/

/-- The root of unity power `exp(2 π i k / n)`. -/
noncomputable def twiddle (n : Nat) (k : ℤ) : ℂ := Complex.exp (2 * Real.pi * Complex.I * ((k : ℂ) / (n : ℂ)))

/-- The finite value of a pixel (0 if not finite). -/
noncomputable def toR : XR → ℝ
  | fin r => r
  | _ => 0

/-- Forward two-dimensional DFT of an `R x C` real array. -/
noncomputable def dft2 (R C : Nat) (f : Nat → Nat → ℝ) (i j : ℤ) : ℂ :=
  ∑ y ∈ Finset.range R, ∑ x ∈ Finset.range C, (f y x : ℂ) * (twiddle R (-(i * y)) * twiddle C (-(j * x)))

/-- A complex number as stored in `fftw_complex`. -/
noncomputable def toPair (z : ℂ) : XR × XR := (fin z.re, fin z.im)

/-- `fftw_plan_dft_r2c_2d(R, C, ...)`: only columns 0..C/2 of the spectrum are stored. -/
noncomputable def fftR2C (R C : Nat) (l : List XR) : List (XR × XR) :=
  (List.range (R * (C / 2 + 1))).map fun z =>
    if l.all (fun v => isfin v) then
      toPair (dft2 R C (fun y x => toR (l.getD (y * C + x) nan)) ((z / (C / 2 + 1) : Nat) : ℤ) ((z % (C / 2 + 1) : Nat) : ℤ))
    else (nan, nan)

/-- Entry of the half spectrum. -/
noncomputable def halfAt (C : Nat) (l : List (XR × XR)) (i j : Nat) : ℂ :=
  let p := l.getD (i * (C / 2 + 1) + j) (nan, nan)
  ⟨toR p.1, toR p.2⟩

/-- The full Hermitian spectrum represented by the half spectrum. -/
noncomputable def fullAt (R C : Nat) (l : List (XR × XR)) (i j : Nat) : ℂ :=
  if j ≤ C / 2 then halfAt C l i j else (starRingEnd ℂ) (halfAt C l ((R - i) % R) (C - j))

/-- `fftw_plan_dft_c2r_2d(R, C, ...)`: unnormalised inverse transform of a Hermitian spectrum. -/
noncomputable def fftC2R (R C : Nat) (l : List (XR × XR)) : List XR :=
  (List.range (R * C)).map fun k =>
    if l.all (fun p => isfin p.1 && isfin p.2) then
      fin (∑ i ∈ Finset.range R, ∑ j ∈ Finset.range C,
        fullAt R C l i j * (twiddle R ((i : ℤ) * (k / C : Nat)) * twiddle C ((j : ℤ) * (k % C : Nat)))).re
    else nan

/-! ## The convolver -/

/-- Data members of `Convolver`: image size, PSF size, PSF pixels. `core/convolver.cpp:175-198`. -/
structure Cv where
  colsI : Nat
  rowsI : Nat
  colsP : Nat
  rowsP : Nat
  psf : List XR

/-- `nColumns_padded`, `core/convolver.cpp:217`. -/
def Cv.padCols (c : Cv) : Nat := c.colsI + c.colsP - 1
/-- `nRows_padded`, `core/convolver.cpp:218`. -/
def Cv.padRows (c : Cv) : Nat := c.rowsI + c.rowsP - 1

/-- `Convolver::ShiftAndWrapPSF`, `core/convolver.cpp:421-441`. -/
noncomputable def shiftAndWrap (c : Cv) (dest : List XR) : Res (List XR) :=
  forN c.rowsP dest fun i d1 => forN c.colsP d1 fun j d2 => do
    let v ← rd c.psf (i * c.colsP + j)
    wr d2 ((c.padRows - c.rowsP / 2 + i) % c.padRows * c.padCols + (c.padCols - c.colsP / 2 + j) % c.padCols) v

/-- PSF normalisation in place. `core/convolver.cpp:290-300`. -/
noncomputable def Cv.normalized (c : Cv) (normalize : Bool) : Cv :=
  if normalize then { c with psf := normalizePsf c.psf } else c

/-- `Convolver::DoFullSetup`, `core/convolver.cpp:204-331`: normalise, shift and wrap, transform. Returns the convolver and the PSF spectrum. -/
noncomputable def cvSetup (c : Cv) (normalize : Bool) : Res (Cv × List (XR × XR)) := do
  let c1 := c.normalized normalize
  let p ← shiftAndWrap c1 (List.replicate (c1.padRows * c1.padCols) 0)
  pure (c1, fftR2C c1.padRows c1.padCols p)

/-- Copy of the image into the zeroed padded array. `core/convolver.cpp:347-356`. -/
noncomputable def padImage (c : Cv) (pix : List XR) : Res (List XR) :=
  forN c.rowsI (List.replicate (c.padRows * c.padCols) 0) fun ii d1 => forN c.colsI d1 fun jj d2 => do
    let v ← rd pix (ii * c.colsI + jj)
    wr d2 (ii * c.padCols + jj) v

/-- Complex product. `core/convolver.cpp:372-379`. -/
noncomputable def cmul (p q : XR × XR) : XR × XR := (p.1 * q.1 - p.2 * q.2, p.2 * q.1 + p.1 * q.2)

/-- Product of the spectra. `core/convolver.cpp:372-379`. -/
noncomputable def multSpectra (n : Nat) (a b : List (XR × XR)) : Res (List (XR × XR)) :=
  loopMap n fun z => do
    let p ← rd a z
    let q ← rd b z
    pure (cmul p q)

/-- Extraction and rescaling into the input vector. `core/convolver.cpp:407-413`. -/
noncomputable def extractImage (c : Cv) (out pix : List XR) : Res (List XR) :=
  forN c.rowsI pix fun ii d1 => forN c.colsI d1 fun jj d2 => do
    let v ← rd out (ii * c.padCols + jj)
    wr d2 (ii * c.colsI + jj) (1 / lit ((c.padCols * c.padRows : Nat) : ℚ) * v)

/-- `Convolver::ConvolveImage`, `core/convolver.cpp:340-414`. -/
noncomputable def convolveImage (c : Cv) (psfFft : List (XR × XR)) (pix : List XR) : Res (List XR) := do
  let a ← padImage c pix
  let m ← multSpectra (c.padRows * (c.padCols / 2 + 1)) (fftR2C c.padRows c.padCols a) psfFft
  extractImage c (fftC2R c.padRows c.padCols m) pix

/-- The convolution used by `CreateModelImage` (`conv` in `Model/Image.lean`): set up once, then applied to an image. A fault leaves the image
alone here; `C15_convolution` shows that there is none. -/
noncomputable def Cv.fn (c : Cv) (normalize : Bool) (pix : List XR) : List XR :=
  match cvSetup c normalize with
  | .ok r => match convolveImage r.1 r.2 pix with
    | .ok o => o
    | .error _ => pix
  | .error _ => pix

end Imfit
