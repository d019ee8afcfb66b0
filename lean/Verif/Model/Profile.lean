import Verif.Model.Funcs1d
import Verif.Model.Bootstrap
import Verif.Model.Convolve

/-!
# Profile fitting: `ModelObject1d` and `Convolver1D`

Source: `profile_fitting/model_object_1d.cpp`, `profile_fitting/convolver1d.cpp`, the set-up part of `profile_fitting/profilefit_main.cpp`, and the methods that
`ModelObject1d` inherits from `core/model_object.cpp` (`ApplyMask`, `CheckWeightVector`, `VetDataVector`, `MakeBootstrapSample`, `ChiSquared`), whose models in
`Model/Fit.lean` and `Model/Bootstrap.lean` are used here.

An integer division by zero (undefined behaviour; a signal on most machines) is `Fault.overflow`. The complex transforms of FFTW are given by their contract (FFTW manual, "The 1d
Discrete Fourier Transform"), as in `Model/Convolve.lean`. Memory allocation is assumed to succeed and the order of the additions in a parallel loop does not matter here (each value
of the model is computed by one thread). Console output is dropped.
-/

namespace Imfit

open XR

variable {α : Type}

/-- `log10`, by natural logarithms. -/
def flog10 [FP α] (x : α) : α := flog x / flog (lit 10)

/-! ## `Convolver1D` -/

/-- The sum of the PSF, a plain sum. `profile_fitting/convolver1d.cpp:151-153`. -/
def psfSum1 [FP α] (psf : List α) : α := psf.foldl (fun a v => a + v) 0

/-- Normalisation in place. `profile_fitting/convolver1d.cpp:154-155`. -/
def normalize1 [FP α] (psf : List α) : List α := psf.map fun v => v / psfSum1 psf

/-- `nPixels_padded`. `profile_fitting/convolver1d.cpp:99`. -/
def padded1 (nData nPsf : Nat) : Nat := nData + nPsf - 1

/-- `Convolver1D::ShiftAndWrapPSF`, into the zeroed array. `profile_fitting/convolver1d.cpp:163-169, 269-279`. -/
noncomputable def shiftWrap1 (psf : List XR) (P : Nat) : Res (List (XR × XR)) :=
  forN psf.length (List.replicate P ((0 : XR), (0 : XR))) fun k d => do
    let v ← rd psf k
    wr d ((P - psf.length / 2 + k) % P) (v, 0)

/-- A pair as a complex number. -/
noncomputable def pairC (p : XR × XR) : ℂ := ⟨toR p.1, toR p.2⟩

/-- `fftw_plan_dft_1d(n, ..., FFTW_FORWARD)` (sign −1) and `FFTW_BACKWARD` (sign 1): the unnormalised sums. -/
noncomputable def fft1 (n : Nat) (sign : ℤ) (l : List (XR × XR)) : List (XR × XR) :=
  (List.range n).map fun j : Nat =>
    if l.all (fun p => isfin p.1 && isfin p.2) then
      toPair (∑ x ∈ Finset.range n, pairC (l.getD x (nan, nan)) * twiddle n (sign * ((j : ℤ) * x)))
    else (nan, nan)

/-- The PSF part of `Convolver1D::DoFullSetup`: the transform of the normalised, shifted PSF. `profile_fitting/convolver1d.cpp:142-180`. -/
noncomputable def convSetup1 (psf : List XR) (nData : Nat) : Res (List (XR × XR)) := do
  let p ← shiftWrap1 (normalize1 psf) (padded1 nData psf.length)
  pure (fft1 (padded1 nData psf.length) (-1) p)

/-- Copy of the profile into the zeroed array. `profile_fitting/convolver1d.cpp:202-209`. -/
noncomputable def padProfile (nData P : Nat) (v : List XR) : Res (List (XR × XR)) :=
  forN nData (List.replicate P ((0 : XR), (0 : XR))) fun i d => do
    let x ← rd v i
    wr d i (x, 0)

/-- `Convolver1D::ConvolveProfile`. `profile_fitting/convolver1d.cpp:189-263`. -/
noncomputable def convolveProfile (nData nPsf : Nat) (psfFft : List (XR × XR)) (v : List XR) : Res (List XR) := do
  let a ← padProfile nData (padded1 nData nPsf) v
  let m ← multSpectra (padded1 nData nPsf) (fft1 (padded1 nData nPsf) (-1) a) psfFft
  let out := fft1 (padded1 nData nPsf) 1 m
  forN nData v fun i d => do
    let r ← rd out i
    wr d i (1 / lit ((padded1 nData nPsf : Nat) : ℚ) * r.1)

/-! ## `ModelObject1d` -/

/-- Data members: those of the base class (`nDataColumns`, `nPSFColumns`, ... keep the value 0 of its constructor) and those of `ModelObject1d`. `conv` is
`psfConvolver->ConvolveProfile`. `profile_fitting/model_object_1d.h:80-90`. -/
structure P1 (α : Type) where
  base : MO α
  fns : List (Fun1 × Bool)
  zp : α
  mags : Bool
  dataX : List α
  modelX : List α
  off : Nat
  conv : List α → Res (List α)

/-- Number of parameters. `profile_fitting/model_object_1d.cpp:82-99` and `AddFunction` of the base class. -/
def nParams1 (fns : List (Fun1 × Bool)) : Nat := (fns.map fun f => f.1.nPars + (if f.2 then 1 else 0)).sum

/-- The constructor, the functions and `SetZeroPoint`. `profile_fitting/model_object_1d.cpp:50-118`. -/
def p1Init [FP α] (fns : List (Fun1 × Bool)) (zp : α) : P1 α where
  base := { moInit with dataErrors := false }
  fns := fns
  zp := zp
  mags := true
  dataX := []
  modelX := []
  off := 0
  conv := .ok

/-- `ModelObject1d::AddDataVectors`. `profile_fitting/model_object_1d.cpp:123-134`. -/
def addData1 [FP α] (s : P1 α) (n : Nat) (xs ys : List α) (mags : Bool) : P1 α :=
  { s with
    base := { s.base with nDataVals := n, nModelVals := n, nValid := some n, dataVec := some ys, dataValsSet := true, modelVec := some (List.replicate n 0) }
    mags := mags
    dataX := xs
    modelX := xs }

/-- Conversion of one error value. `profile_fitting/model_object_1d.cpp:153-167`. -/
def errWeight1 [FP α] (code : Int) (v : α) : α :=
  if code = WEIGHTS_ARE_SIGMAS then 1 / v else if code = WEIGHTS_ARE_VARIANCES then 1 / fsqrt v else v

/-- `ModelObject1d::AddErrorVector1D`. `profile_fitting/model_object_1d.cpp:142-176`. -/
def addError1 [FP α] (s : P1 α) (n : Nat) (errs : List α) (code : Int) : Res (P1 α) :=
  if n ≠ s.base.nDataVals then .error .assert
  else do
    let w ← loopMap s.base.nDataVals fun z => do
      let v ← rd errs z
      pure (errWeight1 code v)
    let b := { s.base with weightVec := some w }
    let ok ← checkWeights b
    if ok then pure { s with base := { b with weightValsSet := true } } else .error .exit

/-- `ModelObject1d::AddMaskVector1D`. `profile_fitting/model_object_1d.cpp:184-231`. -/
def addMask1 [FP α] (s : P1 α) (n : Nat) (mask : List α) (code : Int) : Res (P1 α × Int) :=
  if n ≠ s.base.nDataVals then .error .assert
  else if code = MASK_ZERO_IS_GOOD then do
    let r ← maskLoop s.base.nDataVals mask fun m => flt 0 m
    pure ({ s with base := { s.base with maskVec := some r.1, nValid := some r.2, maskExists := true } }, 0)
  else if code = MASK_ZERO_IS_BAD then do
    let r ← maskLoop s.base.nDataVals mask fun m => flt m 1
    pure ({ s with base := { s.base with maskVec := some r.1, nValid := some r.2, maskExists := true } }, 0)
  else pure ({ s with base := { s.base with maskVec := some mask, nValid := some 0 } }, -1)

/-- The positions of the values of the enlarged model. `profile_fitting/model_object_1d.cpp:253-261`. -/
def modelX1 [FP α] (n nPsf : Nat) (xs : List α) : Res (List α) := do
  let x1 ← rd xs 1
  let x0 ← rd xs 0
  let dx := x1 - x0
  let start := x0 - lit (nPsf : ℚ) * dx
  let mid ← loopMap n fun i => rd xs i
  let last ← rdI xs ((n : Int) - 1)
  pure ((List.range nPsf).map (fun i : Nat => start + dx * lit (i : ℚ)) ++ mid ++ (List.range nPsf).map fun i : Nat => last + dx * lit ((i : ℚ) + 1))

/-- `ModelObject1d::AddPSFVector1D`, with the prepared convolver. `profile_fitting/model_object_1d.cpp:238-270`. -/
def addPsf1 [FP α] (s : P1 α) (nPsf : Nat) (conv : List α → Res (List α)) : Res (P1 α) := do
  let mx ← modelX1 s.base.nDataVals nPsf s.dataX
  pure { s with
    base := { s.base with nModelVals := s.base.nDataVals + 2 * nPsf, modelVec := some (List.replicate (s.base.nDataVals + 2 * nPsf) 0), doConvolution := true }
    off := nPsf
    modelX := mx
    conv := conv }

/-- Weights of ones if there are none; `weightValsSet` is not changed. `profile_fitting/model_object_1d.cpp:318-329`. -/
def defaultWeights1 [FP α] (b : MO α) : MO α :=
  if b.weightValsSet then b else { b with weightVec := some (List.replicate b.nDataVals 1), weightAllocated := true }

/-- `ModelObject1d::FinalSetupForFitting`. `profile_fitting/model_object_1d.cpp:277-355`. The status is `none` when the local variable is returned without having been given
a value. -/
def finalSetup1 [FP α] (s : P1 α) : Res (P1 α × Option Int) := do
  let b := finalDefaultMask s.base
  let b ← finalMaskBadData b
  let b ← finalGenErrors b
  let b := defaultWeights1 b
  let ok ← checkWeights b
  let b ← if ok then applyMask b else pure b
  let p ← if b.dataValsSet then vetData b else pure (b, true)
  let st : Option Int := if p.2 then (if ok then none else some (-1)) else some (-2)
  pure ({ s with base := p.1 }, st)

/-- The set-up loop of `CreateModelImage`. `profile_fitting/model_object_1d.cpp:384-393`. A function before any function set would use `x0` without a value. -/
def setupFns1 [FP α] [FM α] [FH α] (zp : α) (params : List α) : List (Fun1 × Bool) → Nat → Option α → Res (List (α → α))
  | [], _, _ => pure []
  | (F, true) :: t, o, _ => do
    let x ← rd params o
    let g ← F.setup zp params (o + 1) x
    let r ← setupFns1 zp params t (o + 1 + F.nPars) (some x)
    pure (g :: r)
  | (F, false) :: t, o, some x => do
    let g ← F.setup zp params o x
    let r ← setupFns1 zp params t (o + F.nPars) (some x)
    pure (g :: r)
  | (_, false) :: _, _, none => .error .uninit

/-- The sum of the functions at one place. `profile_fitting/model_object_1d.cpp:404-409`. -/
def sumAt1 [FP α] (gs : List (α → α)) (x : α) : α := gs.foldl (fun a g => a + g x) 0

/-- `zeroPoint - 2.5 * log10(v)`. `profile_fitting/model_object_1d.cpp:432`. -/
def toMag1 [FP α] (zp v : α) : α := zp - lit (25 / 10) * flog10 v

/-- `ModelObject1d::CreateModelImage`: the model vector. `profile_fitting/model_object_1d.cpp:361-437`. -/
def modelVec1 [FP α] [FM α] [FH α] (s : P1 α) (params : List α) : Res (List α) :=
  if params.length < nParams1 s.fns then .error .oob
  else if ¬ checkParams (params.take (nParams1 s.fns)) then .error .exit
  else do
    let gs ← setupFns1 s.zp params s.fns 0 none
    let v ← loopMap s.base.nModelVals fun i => do
      let x ← rd s.modelX i
      pure (sumAt1 gs x)
    let v ← if s.base.doConvolution then s.conv v else pure v
    pure (if s.mags then v.map (toMag1 s.zp) else v)

/-- `CreateModelImage`: the new state. -/
def createModel1 [FP α] [FM α] [FH α] (s : P1 α) (params : List α) : Res (P1 α) := do
  let v ← modelVec1 s params
  pure { s with base := withModel s.base v }

/-- `ModelObject1d::ComputeDeviates`. `profile_fitting/model_object_1d.cpp:442-474`. -/
def deviates1 [FP α] [FM α] [FH α] (s : P1 α) (params : List α) : Res (List α) := do
  let s ← createModel1 s params
  loopMap s.base.nDataVals fun z => do
    let i ← if s.base.doBootstrap then rdp s.base.bootIdx z else pure z
    let w ← rdp s.base.weightVec i
    let d ← rdp s.base.dataVec i
    let m ← rdp s.base.modelVec (s.off + i)
    pure (w * (d - m))

/-- The index of the model value that `ModelObject::ChiSquared`, which `ModelObject1d` does not redefine, compares with data value `b`: with a PSF `b / nDataColumns` is computed
first. `core/model_object.cpp:1650-1668`. -/
def chiIndex1 (b : MO α) (i : Nat) : Res Nat :=
  if b.doConvolution ∧ b.nDataCols = 0 then .error .overflow else pure (modelIndex b i)

/-- `ModelObject::GetFitStatistic` of a `ModelObject1d` (χ²: `profilefit` never asks for another statistic). `core/model_object.cpp:1620-1689`. -/
def fitStat1 [FP α] [FM α] [FH α] (s : P1 α) (params : List α) : Res α := do
  let s ← createModel1 s params
  let b ← maybeUpdateWeights s.base
  let y ← loopMap (nTerms b) fun z => do
    let i ← termPixel b z
    let k ← chiIndex1 b i
    chiDeviate b i k
  pure (mpEnorm y * mpEnorm y)

/-- `ModelObject1d::GetModelVector`. `profile_fitting/model_object_1d.cpp:752-763`. -/
def getModelVector1 (s : P1 α) : Res (Option (List α)) :=
  if s.base.modelImageComputed then do
    let l ← loopMap s.base.nDataVals fun z => rdp s.base.modelVec (s.off + z)
    pure (some l)
  else pure none

/-! ## The set-up by `profilefit` -/

/-- What the main program has read: the functions, the rows of the data file, the errors and the mask (columns 3 and 4) and the PSF. -/
structure ProfIn where
  fns : List (Fun1 × Bool)
  zp : XR
  mags : Bool
  n : Nat
  xs : List XR
  ys : List XR
  errs : Option (List XR)
  mask : Option (List XR × Int)
  psf : Option (List XR)

/-- Mask step. `profile_fitting/profilefit_main.cpp:342-348`. -/
noncomputable def setupMask1 (i : ProfIn) (s : P1 XR) : Res (P1 XR) :=
  match i.mask with
  | none => pure s
  | some (m, code) => do
    let r ← addMask1 s i.n m code
    if r.2 < 0 then .error .exit else pure r.1

/-- PSF step. `profile_fitting/profilefit_main.cpp:350-356`. -/
noncomputable def setupPsf1 (i : ProfIn) (s : P1 XR) : Res (P1 XR) :=
  match i.psf with
  | none => pure s
  | some psf => do
    let f ← convSetup1 psf (s.base.nDataVals + 2 * psf.length)
    addPsf1 s psf.length (convolveProfile (s.base.nDataVals + 2 * psf.length) psf.length f)

/-- Errors, data, mask, PSF, `FinalSetupForFitting` (its status is not used). `profile_fitting/profilefit_main.cpp:273-280, 338-358`. -/
noncomputable def setupProfile (i : ProfIn) : Res (P1 XR) := do
  let s := addData1 (p1Init i.fns i.zp) i.n i.xs i.ys i.mags
  let errs := i.errs.getD (List.replicate i.n 1)
  let s ← addError1 s i.n errs WEIGHTS_ARE_SIGMAS
  let s ← setupMask1 i s
  let s ← setupPsf1 i s
  let r ← finalSetup1 s
  pure r.1

end Imfit
