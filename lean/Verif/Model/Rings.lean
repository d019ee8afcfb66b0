import Verif.Model.Spiral
import Verif.Model.Psf
import Verif.Model.Config
import Verif.Model.Flux

/-!
# The remaining image functions

Source: `function_objects/func_gaussian-ring-az.cpp`, `func_n4608disk.cpp`, `func_gen-exp2.cpp`, `func_gauss_extraparams.cpp`, `func_pointsource-rot.cpp`,
`helper_funcs.cpp` (`LinearInterp`). The functions that are not registered (`func_edge-on-disk_n4762.cpp`, `func_edge-on-disk_n4762v2.cpp`) are not modelled.
Messages are not modelled.
-/

namespace Imfit

variable {α : Type}

/-! ## Ring with azimuthal variation -/

/-- `GaussianRingAz` after `Setup`, `function_objects/func_gaussian-ring-az.cpp:103-125`. -/
structure RingAz (α : Type) where
  x0 : α
  y0 : α
  q : α
  paRad : α
  cosPA : α
  sinPA : α
  aMid : α
  deltaA : α
  rRing : α
  twoSigma2 : α

/-- `GaussianRingAz::Setup` with the values read, `function_objects/func_gaussian-ring-az.cpp:103-125`. -/
def ringAzBuild [FP α] [FM α] (d : ImgDesc α) (x0 y0 pa ell amaj amin rr sr : α) : RingAz α :=
  let a := amaj * d.intensityScale
  let r := rr * d.pixelScaling
  let s := sr * d.pixelScaling
  let b := amin * a
  let t := (pa - d.imageRotation + lit 90) * lit DEG2RAD
  ⟨x0, y0, 1 - ell, t, fcos t, fsin t, lit (1 / 2) * (a + b), lit (1 / 2) * (a - b), r, lit 2 * s * s⟩

/-- `GaussianRingAz::Setup`, `function_objects/func_gaussian-ring-az.cpp:103-125`. -/
def ringAzSetup [FP α] [FM α] (d : ImgDesc α) (params : List α) (offset : Nat) (x0 y0 : α) : Res (RingAz α) := do
  let pa ← rd params (0 + offset)
  let ell ← rd params (1 + offset)
  let amaj ← rd params (2 + offset)
  let amin ← rd params (3 + offset)
  let rr ← rd params (4 + offset)
  let sr ← rd params (5 + offset)
  pure (ringAzBuild d x0 y0 pa ell amaj amin rr sr)

/-- `GaussianRingAz::CalculateIntensity`, `function_objects/func_gaussian-ring-az.cpp:131-139`. -/
def ringAzIntensity [FP α] [FM α] (f : RingAz α) (r theta : α) : α :=
  let d := fabs (r - f.rRing)
  (f.aMid + f.deltaA * fcos (lit 2 * theta)) * fexp (-(d * d) / f.twoSigma2)

/-- `GaussianRingAz::GetValue`, `function_objects/func_gaussian-ring-az.cpp:145-188`. `CalculateSubsamples` (195-199) returns 1, so the loop over sub-pixels is
dead code. -/
def ringAzValue [FP α] [FM α] [FT α] (f : RingAz α) (x y : α) : α :=
  let dx := x - f.x0
  let dy := y - f.y0
  let xp := dx * f.cosPA + dy * f.sinPA
  let ys := (-dx * f.sinPA + dy * f.cosPA) / f.q
  ringAzIntensity f (fsqrt (xp * xp + ys * ys)) (f.paRad - fatan2 dy dx)

/-! ## Disk of NGC 4608 -/

/-- `N4608Disk`: `Setup`, then `GetValue`; `function_objects/func_n4608disk.cpp:91-146`. The two parts are members whose image description is never set, so
they keep the default one. `doSub` is the flag given to `SetSubsampling` (80-86); the ring ignores it. -/
def n4608Value [FP α] [FM α] [FI α] [FH α] [FT α] (doSub : Bool) (params : List α) (offset : Nat) (x0 y0 x y : α) : Res α := do
  let i0 ← rd params (2 + offset)
  let paR ← rd params (7 + offset)
  let ellR ← rd params (8 + offset)
  let majRel ← rd params (9 + offset)
  let minRel ← rd params (10 + offset)
  let rr ← rd params (11 + offset)
  let sr ← rd params (12 + offset)
  let f ← (PFun.brokenExp : PFun α).setup doSub defaultDesc params offset x0 y0
  let g ← ringAzSetup defaultDesc [paR, ellR, majRel * i0, minRel * i0, rr, sr] 0 x0 y0
  let v ← planeValue f x y
  pure (v + ringAzValue g x y)

/-! ## Generalised exponential with a shape that changes with the radius -/

/-- `LinearInterp`, `function_objects/helper_funcs.cpp:65-73`. -/
def linearInterp [FP α] (r r1 r2 c1 c2 : α) : α :=
  if flt r r1 then c1 else if flt r2 r then c2
  else
    let m := (c2 - c1) / (r2 - r1)
    c1 + m * (r - r1)

/-- `GenExponential2::CalculateRadius` as a function of the coordinates along and across the major axis, `function_objects/func_gen-exp2.cpp:122-139`. -/
def genR2 [FP α] [FM α] (q c1 c2 r1 r2 xp yp : α) : α :=
  let a := fabs xp
  let b := fabs (yp / q)
  let c0 := linearInterp (fsqrt (a * a + b * b)) r1 r2 c1 c2
  let e := c0 + lit 2
  let ie := 1 / e
  fpow (fpow a e + fpow b e) ie

/-- `GenExponential2`, `function_objects/func_gen-exp2.cpp:87-220`, with the parameter values read. The image description is ignored. -/
def genExp2Build [FP α] [FM α] [FI α] (doSub : Bool) (x0 y0 pa ell c1 c2 r1 r2 i0 h : α) : PlaneFn α :=
  let q := 1 - ell
  planeFn pa x0 y0 (fun u v => galfitSub doSub 20 3 h (genR2 q c1 c2 r1 r2 u v)) (fun u v => i0 * fexp (-genR2 q c1 c2 r1 r2 u v / h))

/-- `GenExponential2::Setup` followed by `GetValue`. -/
def genExp2Value [FP α] [FM α] [FI α] (doSub : Bool) (params : List α) (offset : Nat) (x0 y0 x y : α) : Res α := do
  let pa ← rd params (0 + offset)
  let ell ← rd params (1 + offset)
  let c1 ← rd params (2 + offset)
  let c2 ← rd params (3 + offset)
  let r1 ← rd params (4 + offset)
  let r2 ← rd params (5 + offset)
  let i0 ← rd params (6 + offset)
  let h ← rd params (7 + offset)
  planeValue (genExp2Build doSub x0 y0 pa ell c1 c2 r1 r2 i0 h) x y

/-! ## Gaussian with a floor -/

/-- `GaussianExtraParams::SetExtraParams` for an optional-parameter map in key order: return value and `floorValue` afterwards.
`function_objects/func_gauss_extraparams.cpp:94-115`. -/
def setFloor (nl : Strtod α) (cur : α) (m : List (Str × Str)) : Int × α :=
  match m with
  | [] => (-1, cur)
  | _ => match m.find? (fun p => p.1 == ['f', 'l', 'o', 'o', 'r']) with
    | some p => if isNumeric nl p.2 then (1, nl.val p.2) else (-3, cur)
    | none => (0, cur)

/-- `GaussianExtraParams`, `function_objects/func_gauss_extraparams.cpp:134-233`, with the parameter values read and `floorValue`. The image description is
ignored. -/
def gaussFloorBuild [FP α] [FM α] [FI α] (doSub : Bool) (floor x0 y0 pa ell i0 sigma : α) : PlaneFn α :=
  let q := 1 - ell
  let two := lit 2 * sigma * sigma
  planeFn pa x0 y0 (fun u v => galfitSub doSub 40 3 sigma (ellR q u v)) (fun u v => i0 * fexp (-(ellR q u v * ellR q u v) / two) + floor)

/-- `GaussianExtraParams::Setup` followed by `GetValue`. -/
def gaussFloorValue [FP α] [FM α] [FI α] (doSub : Bool) (floor : α) (params : List α) (offset : Nat) (x0 y0 x y : α) : Res α := do
  let pa ← rd params (0 + offset)
  let ell ← rd params (1 + offset)
  let i0 ← rd params (2 + offset)
  let sigma ← rd params (3 + offset)
  planeValue (gaussFloorBuild doSub floor x0 y0 pa ell i0 sigma) x y

/-- `GaussianExtraParams::TotalFlux` after `Setup`, `function_objects/func_gauss_extraparams.cpp:246-249`. -/
def gaussFloorFlux [FP α] (params : List α) (offset : Nat) : Res α := do
  let ell ← rd params (1 + offset)
  let i0 ← rd params (2 + offset)
  let s ← rd params (3 + offset)
  pure ((1 - ell) * lit 2 * lit PI_FUNC * i0 * s * s)

/-! ## Turned point source -/

/-- `PointSourceRot::GetValue` after `Setup`, `function_objects/func_pointsource-rot.cpp:203-237`; the interpolator may be a null pointer. -/
def pointSourceRot [FP α] [FM α] (interp : Option (α → α → Res α)) (oversampling : Nat) (d : ImgDesc α) (pa itot x0 y0 x y : α) : Res α :=
  let t := (pa - d.imageRotation + lit 90) * lit DEG2RAD
  let dx := lit (oversampling : ℚ) * (x - x0)
  let dy := lit (oversampling : ℚ) * (y - y0)
  match interp with
  | none => .error .null
  | some f => do
    let v ← f (dx * fcos t + dy * fsin t) (-dx * fsin t + dy * fcos t)
    pure (itot * d.intensityScale * v)

/-- `PointSourceRot::SetExtraParams` for an optional-parameter map in key order: return value and `interpolationType` afterwards. The word itself is stored, not
its lower-case form. `function_objects/func_pointsource-rot.cpp:151-186`. -/
def setMethodRot (cur : Str) (m : List (Str × Str)) : Int × Str :=
  match m with
  | [] => (-1, cur)
  | (k, v) :: _ =>
    if k = ['m', 'e', 't', 'h', 'o', 'd'] then
      if v = ['b', 'i', 'c', 'u', 'b', 'i', 'c'] ∨ v = ['B', 'i', 'c', 'u', 'b', 'i', 'c'] then (1, v)
      else if v = ['l', 'a', 'n', 'c', 'z', 'o', 's', '2'] ∨ v = ['L', 'a', 'n', 'c', 'z', 'o', 's', '2'] then (1, v)
      else (-3, cur)
    else (0, cur)

/-- `interpolationMap`, `core/model_object.cpp:94-96`: `none` for the number 0 that `operator[]` inserts for other words. -/
def interpolationMap : Str → Option PsfMethod
  | ['b', 'i', 'c', 'u', 'b', 'i', 'c'] => some .bicubic
  | ['l', 'a', 'n', 'c', 'z', 'o', 's', '2'] => some .lanczos2
  | ['l', 'a', 'n', 'c', 'z', 'o', 's', '3'] => some .lanczos3
  | _ => none

/-- `AddFunction` for a point source whose method is the given word, while the model has no interpolator: `none` for a negative status, otherwise the
interpolator handed to the function, which is a null pointer if no case of the `switch` applies. `core/model_object.cpp:295-305, 346-381`. -/
def firstInterpolator (hasPsf : Bool) (nColumns nRows : Nat) (word : Str) : Option (Option PsfMethod) :=
  if !hasPsf then none else if nColumns < 4 ∨ nRows < 4 then none else some (interpolationMap word)

/-- `OversampledRegion::AddPSFVector` and the loop over the point sources in `ComputeRegionAndDownsample`: the interpolator handed to every point source whatever
its method. `core/oversampled_region.cpp:180-197, 370-375`. -/
def regionInterpolator (nColumns nRows : Nat) : Option PsfMethod := if 4 ≤ nColumns ∧ 4 ≤ nRows then some .bicubic else none

end Imfit
