import Verif.Model.Func

/-!
# PSF interpolation and point sources

Source: `function_objects/psf_interpolators.cpp`, `func_pointsource.cpp`, `core/model_object.cpp` (`AddFunction`, `SetupPsfInterpolation`).
The GSL spline is a parameter: a function of the two abscissa arrays, the pixel array and the point. The constants `PI` and `PI_SQUARED` are the
decimal numbers of the source. The `abs` of `Lanczos` is the `double` overload.
-/

namespace Imfit

variable {α : Type}

/-- `floor`. -/
class FL (α : Type) where
  ffloor : α → α

export FL (ffloor)

/-- `floor` in exact arithmetic. -/
noncomputable def XR.floor' : XR → XR
  | .fin r => .fin (⌊r⌋ : ℝ)
  | v => v

noncomputable instance : FL XR := ⟨XR.floor'⟩

/-- Members of a `PsfInterpolator`. `function_objects/psf_interpolators.h:30-70`. -/
structure PsfInterp (α : Type) where
  nColumns : Nat
  nRows : Nat
  data : List α
  xBound : α
  yBound : α
  xArray : List α
  yArray : List α

/-- The constructors, `function_objects/psf_interpolators.cpp:44-70, 111-133, 201-223`. -/
def psfInterp [FP α] (data : List α) (nColumns nRows : Nat) : PsfInterp α :=
  let xb := lit (((nColumns : ℤ) - 1 : ℤ) : ℚ) / lit 2
  let yb := lit (((nRows : ℤ) - 1 : ℤ) : ℚ) / lit 2
  ⟨nColumns, nRows, data, xb, yb, (List.range nColumns).map fun (n : Nat) => lit (n : ℚ) - xb, (List.range nRows).map fun (n : Nat) => lit (n : ℚ) - yb⟩

/-- The test at the start of each `GetValue`, `function_objects/psf_interpolators.cpp:97, 161, 251`. -/
def outsidePsf [FP α] (p : PsfInterp α) (x y : α) : Bool :=
  flt x (-p.xBound) || flt p.xBound x || flt y (-p.yBound) || flt p.yBound y

/-- `PsfInterpolator_bicubic::GetValue`, `function_objects/psf_interpolators.cpp:94-102`; `spline` is the GSL interpolation. -/
def bicubicValue [FP α] (spline : List α → List α → List α → α → α → Res α) (p : PsfInterp α) (x y : α) : Res α :=
  if outsidePsf p x y then pure 0 else spline p.xArray p.yArray p.data x y

/-- `FindIndex`, `function_objects/psf_interpolators.cpp:290-296`. -/
def findIndex [FP α] [FI α] [FL α] (xs : List α) (v : α) : Res Int := do
  let a1 ← rd xs 1
  let a0 ← rd xs 0
  ftoi (ffloor ((v - a0) / (a1 - a0)))

/-- `PI` of `function_objects/psf_interpolators.cpp:30`. -/
def psfPI : ℚ := 314159265358979 / 10 ^ 14

/-- `PI_SQUARED` of `function_objects/psf_interpolators.cpp:31`. -/
def psfPI2 : ℚ := 986960440108936 / 10 ^ 14

/-- `Lanczos`, `function_objects/psf_interpolators.cpp:300-309`. -/
def lanczos [FP α] [FM α] (x : α) (n : Nat) : α :=
  let a := fabs x
  if flt a (lit (1 / 10 ^ 6)) then 1
  else if flt (lit (n : ℚ)) a then 0
  else (lit (n : ℚ) * fsin (lit psfPI * a) * fsin (lit psfPI * a / lit (n : ℚ))) / (lit psfPI2 * a * a)

/-- One turn of the inner loop; `iy` is `i_data_y`. `function_objects/psf_interpolators.cpp:177-184, 267-274`. -/
def lanczosPixel [FP α] [FM α] (k : Nat) (p : PsfInterp α) (x y : α) (ix : Nat) (xDat : α) (iy : Int) (acc : α) : Res α :=
  if iy < 0 ∨ (p.nRows : Int) ≤ iy then pure (acc + 0)
  else do
    let yDat ← rdI p.yArray iy
    let v ← rdI p.data ((ix : Int) * p.nColumns + iy)
    pure (acc + lanczos (x - xDat) k * lanczos (y - yDat) k * v)

/-- One turn of the outer loop; `ix` is `i_data_x`. `function_objects/psf_interpolators.cpp:170-188, 260-278`. -/
def lanczosColumn [FP α] [FM α] (k : Nat) (p : PsfInterp α) (x y : α) (midY : Int) (ix : Int) (acc : α) : Res α :=
  if ix < 0 ∨ (p.nColumns : Int) ≤ ix then pure (acc + 0)
  else do
    let xDat ← rdI p.xArray ix
    forN (2 * k + 1) acc fun j acc => lanczosPixel k p x y ix.toNat xDat (midY + ((j : Int) - k)) acc

/-- `GetValue` of `PsfInterpolator_lanczos2` (`k` = 2) and `PsfInterpolator_lanczos3` (`k` = 3), `function_objects/psf_interpolators.cpp:153-192, 243-282`. -/
def lanczosValue [FP α] [FM α] [FI α] [FL α] (k : Nat) (p : PsfInterp α) (x y : α) : Res α :=
  if outsidePsf p x y then pure 0
  else do
    let mx ← findIndex p.xArray x
    let my ← findIndex p.yArray y
    forN (2 * k + 1) 0 fun i acc => lanczosColumn k p x y my (mx + ((i : Int) - k)) acc

/-- `PointSource::GetValue` after `Setup(params, offset, x0, y0)`, `function_objects/func_pointsource.cpp:206-211, 220-229`. -/
def pointSource [FP α] (interp : α → α → Res α) (oversampling : Nat) (intensityScale itot x0 y0 x y : α) : Res α := do
  let v ← interp (lit (oversampling : ℚ) * (x - x0)) (lit (oversampling : ℚ) * (y - y0))
  pure (itot * intensityScale * v)

/-- Interpolation methods. `function_objects/psf_interpolators.h:8-10`. -/
inductive PsfMethod
  | bicubic
  | lanczos2
  | lanczos3
  deriving DecidableEq, Repr

/-- `PointSource::SetExtraParams` for an optional-parameter map, in key order: return value and the method of the object afterwards.
`function_objects/func_pointsource.cpp:151-190`; messages are not modelled. -/
def setMethod (cur : PsfMethod) (m : List (List Char × List Char)) : Int × PsfMethod :=
  match m with
  | [] => (-1, cur)
  | (k, v) :: _ =>
    if k = ['m', 'e', 't', 'h', 'o', 'd'] then
      if v = ['b', 'i', 'c', 'u', 'b', 'i', 'c'] ∨ v = ['B', 'i', 'c', 'u', 'b', 'i', 'c'] then (1, .bicubic)
      else if v = ['l', 'a', 'n', 'c', 'z', 'o', 's', '2'] ∨ v = ['L', 'a', 'n', 'c', 'z', 'o', 's', '2'] then (1, .lanczos2)
      else if v = ['l', 'a', 'n', 'c', 'z', 'o', 's', '3'] ∨ v = ['L', 'a', 'n', 'c', 'z', 'o', 's', '3'] then (1, .lanczos3)
      else (-3, cur)
    else (0, cur)

/-- The interpolator of the model (`psfInterpolator`), the methods of the interpolators handed to the point sources so far. -/
structure PsfState where
  interp : Option PsfMethod
  given : List PsfMethod

/-- `ModelObject::SetupPsfInterpolation`, `core/model_object.cpp:346-381`: `none` for a negative return value. -/
def setupPsfInterp (hasPsf : Bool) (nColumns nRows : Nat) (m : PsfMethod) : Option PsfMethod :=
  if !hasPsf then none else if nColumns < 4 ∨ nRows < 4 then none else some m

/-- The part of `ModelObject::AddFunction` for point sources, `core/model_object.cpp:295-305`. -/
def addPointSource (hasPsf : Bool) (nColumns nRows : Nat) (s : PsfState) (m : PsfMethod) : Option PsfState :=
  match s.interp with
  | some u => some { s with given := s.given ++ [u] }
  | none =>
    match setupPsfInterp hasPsf nColumns nRows m with
    | none => none
    | some u => some ⟨some u, s.given ++ [u]⟩

/-- All calls of `AddFunction` with point sources, in order. -/
def addPointSources (hasPsf : Bool) (nColumns nRows : Nat) : PsfState → List PsfMethod → Option PsfState
  | s, [] => some s
  | s, m :: ms =>
    match addPointSource hasPsf nColumns nRows s m with
    | none => none
    | some s' => addPointSources hasPsf nColumns nRows s' ms

end Imfit
