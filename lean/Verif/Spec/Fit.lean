import Verif.Model.Fit
import Mathlib.Data.Finset.Card

/-!
# Specification of fit setup

Written from the user's documentation of masks and noise images; uses only the input record `FitInput`
and the number type `XR` of the model.
-/

namespace Imfit.Spec

open Imfit

/-- The pixel value at index `z` of an image. -/
noncomputable def pix (l : List XR) (z : Nat) : XR := l.getD z (XR.fin 0)

/-- A mask value that the format code calls good. -/
def MaskGood (code : Int) (v : XR) : Prop :=
  if code = 10 then ∃ r : ℝ, v = XR.fin r ∧ r ≤ 0
  else if code = 20 then ∃ r : ℝ, v = XR.fin r ∧ 1 ≤ r
  else False

/-- Is pixel `z` good in the mask (every pixel is, without a mask)? -/
def Good (i : FitInput XR) (z : Nat) : Prop :=
  match i.mask with
  | none => True
  | some (m, code) => MaskGood code (pix m z)

/-- A user noise/weight value that gives a finite weight: code 100 = sigma, 110 = variance, 120 = weight. -/
def ErrUsable (code : Int) (v : XR) : Prop :=
  if code = 100 then (∃ r : ℝ, v = XR.fin r ∧ r ≠ 0) ∨ v = XR.pinf ∨ v = XR.ninf
  else if code = 110 then (∃ r : ℝ, v = XR.fin r ∧ 0 < r) ∨ v = XR.pinf
  else if code = 120 then ∃ r : ℝ, v = XR.fin r ∧ 0 ≤ r
  else False

/-- Pixels that take part in the fit. -/
def Used (i : FitInput XR) (z : Nat) : Prop :=
  Good i z ∧ (∃ r : ℝ, pix i.data z = XR.fin r) ∧
    (match i.stat with
     | .chi2User code => ErrUsable code (pix i.errors z)
     | _ => True)

/-- Number of pixels below `n` with a property. -/
noncomputable def count (n : Nat) (P : Nat → Prop) : Nat :=
  by classical exact ((Finset.range n).filter P).card

/-- Image characteristics as real numbers. -/
structure Chars (i : FitInput XR) where
  gain : ℝ
  readNoise : ℝ
  expTime : ℝ
  sky : ℝ
  hgain : i.gain = XR.fin gain
  hrn : i.readNoise = XR.fin readNoise
  hexp : i.expTime = XR.fin expTime
  hsky : i.sky = XR.fin sky
  pgain : 0 < gain
  prn : 0 ≤ readNoise
  pexp : 0 < expTime
  psky : 0 ≤ sky
  pn : 1 ≤ i.nCombined

/-- Effective gain. -/
noncomputable def Chars.effGain {i : FitInput XR} (c : Chars i) : ℝ :=
  c.gain * c.expTime * (i.nCombined : ℝ)

/-- Noise variance (in ADU²) of a pixel with data value `d`: Poisson noise of object plus sky
(not below zero) and `nCombined` read-outs. -/
noncomputable def Chars.variance {i : FitInput XR} (c : Chars i) (d : ℝ) : ℝ :=
  max (d + c.sky) 0 / c.effGain + (i.nCombined : ℝ) * (c.readNoise / c.effGain) ^ 2

/-- Images have the advertised sizes and the codes are the documented ones. -/
structure Shapes (i : FitInput XR) : Prop where
  cols : 1 ≤ i.nCols
  rows : 1 ≤ i.nRows
  data : i.data.length = i.nCols * i.nRows
  mask : ∀ m code, i.mask = some (m, code) → m.length = i.nCols * i.nRows ∧ (code = 10 ∨ code = 20)
  errs : ∀ code, i.stat = .chi2User code →
    i.errors.length = i.nCols * i.nRows ∧ (code = 100 ∨ code = 110 ∨ code = 120)

/-- `w` is the internal weight (1/sigma) that the input prescribes for pixel `z`. -/
def WeightIs {i : FitInput XR} (c : Chars i) (z : Nat) (w : ℝ) : Prop :=
  match i.stat with
  | .cash => w = 1
  | .poissonMLR => w = 1
  | .chi2Model => w = 1
  | .chi2Data => ∃ d : ℝ, pix i.data z = XR.fin d ∧ 0 < c.variance d ∧ w = 1 / Real.sqrt (c.variance d)
  | .chi2User code =>
      if code = 100 then
        (∃ r : ℝ, pix i.errors z = XR.fin r ∧ 0 < r ∧ w = 1 / r) ∨
          ((pix i.errors z = XR.pinf ∨ pix i.errors z = XR.ninf) ∧ w = 0)
      else if code = 110 then
        (∃ r : ℝ, pix i.errors z = XR.fin r ∧ 0 < r ∧ w = 1 / Real.sqrt r) ∨
          (pix i.errors z = XR.pinf ∧ w = 0)
      else ∃ r : ℝ, pix i.errors z = XR.fin r ∧ 0 ≤ r ∧ w = Real.sqrt r

end Imfit.Spec

namespace Imfit.Spec

open Imfit

/-- Number of pixels of the (padded) model image: the data image enlarged on each side by the PSF size. -/
def padLen (i : FitInput XR) : Nat :=
  match i.psf with
  | some (a, b) => (i.nCols + 2 * a) * (i.nRows + 2 * b)
  | none => i.nCols * i.nRows

/-- Two inputs that are the same except for data and noise values at pixels the mask calls bad. -/
structure SameOnGood (i j : FitInput XR) : Prop where
  cols : i.nCols = j.nCols
  rows : i.nRows = j.nRows
  psf : i.psf = j.psf
  mask : i.mask = j.mask
  stat : i.stat = j.stat
  gain : i.gain = j.gain
  rn : i.readNoise = j.readNoise
  exp : i.expTime = j.expTime
  ncomb : i.nCombined = j.nCombined
  sky : i.sky = j.sky
  data : ∀ z, z < i.nCols * i.nRows → Good i z → pix i.data z = pix j.data z
  errs : ∀ z, z < i.nCols * i.nRows → Good i z → pix i.errors z = pix j.errors z

/-! ### A concrete input for examples -/

/-- 2 x 2 image with a NaN pixel and a masked pixel. -/
noncomputable def exInput : FitInput XR where
  nCols := 2
  nRows := 2
  data := [.fin 1, .nan, .fin 3, .fin 4]
  psf := some (3, 3)
  mask := some ([.fin 0, .fin 0, .fin 1, .fin 0], 10)
  errors := [.fin 1, .fin 1, .fin 0, .fin 2]
  stat := .chi2User 100
  gain := .fin 2
  readNoise := .fin 1
  expTime := .fin 1
  nCombined := 1
  sky := .fin 0

theorem exShapes : Shapes exInput where
  cols := by decide
  rows := by decide
  data := rfl
  mask := by
    intro m code h
    simp only [exInput, Option.some.injEq, Prod.mk.injEq] at h
    obtain ⟨rfl, rfl⟩ := h
    exact ⟨rfl, Or.inl rfl⟩
  errs := by
    intro code h
    simp only [exInput, StatChoice.chi2User.injEq] at h
    subst h
    exact ⟨rfl, Or.inl rfl⟩

/-- Characteristics of the concrete input. -/
noncomputable def exChars : Chars exInput where
  gain := 2
  readNoise := 1
  expTime := 1
  sky := 0
  hgain := rfl
  hrn := rfl
  hexp := rfl
  hsky := rfl
  pgain := by norm_num
  prn := by norm_num
  pexp := by norm_num
  psky := le_refl _
  pn := by decide

/-- Same input with other values at the masked pixel. -/
noncomputable def exInput' : FitInput XR :=
  { exInput with data := [.fin 1, .nan, .pinf, .fin 4], errors := [.fin 1, .fin 1, .nan, .fin 2] }

theorem exGood2 : ¬ Good exInput 2 := by
  simp [Good, exInput, MaskGood, pix]

theorem exUsed0 : Used exInput 0 := by
  refine ⟨?_, ⟨1, rfl⟩, ?_⟩
  · simp [Good, exInput, MaskGood, pix]
  · simp [exInput, ErrUsable, pix]

theorem exSame : SameOnGood exInput exInput' where
  cols := rfl
  rows := rfl
  psf := rfl
  mask := rfl
  stat := rfl
  gain := rfl
  rn := rfl
  exp := rfl
  ncomb := rfl
  sky := rfl
  data := by
    intro z hz hg
    have hz : z < 4 := hz
    match z, hz with
    | 0, _ => rfl
    | 1, _ => rfl
    | 2, _ => exact absurd hg exGood2
    | 3, _ => rfl
  errs := by
    intro z hz hg
    have hz : z < 4 := hz
    match z, hz with
    | 0, _ => rfl
    | 1, _ => rfl
    | 2, _ => exact absurd hg exGood2
    | 3, _ => rfl

end Imfit.Spec
