import Verif.Model.Plane
import Mathlib.Analysis.SpecialFunctions.Complex.Arg

/-!
# Spirals

Source: `function_objects/func_logspiral.cpp`, `func_logspiral2.cpp`, `func_logspiral3.cpp`, `func_logspiral_exp.cpp`, `func_logspiral_gauss.cpp`,
`func_logspiral_arc.cpp`. None of these functions divides pixels (`CalculateSubsamples` returns 1), so the loops over sub-pixels in their `GetValue` are
dead code and are not modelled. None of them uses the image description.
-/

namespace Imfit

variable {α : Type}

/-- More functions of `<math.h>`, and the constant `M_PI`. No laws are assumed. -/
class FT (α : Type) where
  /-- `tan` -/
  ftan : α → α
  /-- `atan2(y, x)` -/
  fatan2 : α → α → α
  /-- `fmod` -/
  ffmod : α → α → α
  /-- `M_PI` -/
  fpi : α

export FT (ftan fatan2 ffmod fpi)

namespace XR
noncomputable section

/-- `tan`: `nan` at the poles (no `double` is a pole of the tangent). -/
def tan' : XR → XR
  | fin a => if Real.cos a = 0 then nan else fin (Real.tan a)
  | _ => nan

/-- `atan2`, with the values of C Annex F for infinite arguments. -/
def atan2' : XR → XR → XR
  | fin y, fin x => fin (Complex.arg ⟨x, y⟩)
  | fin _, pinf => fin 0
  | fin y, ninf => if y < 0 then fin (-Real.pi) else fin Real.pi
  | pinf, fin _ => fin (Real.pi / 2)
  | ninf, fin _ => fin (-(Real.pi / 2))
  | pinf, pinf => fin (Real.pi / 4)
  | pinf, ninf => fin (3 * Real.pi / 4)
  | ninf, pinf => fin (-(Real.pi / 4))
  | ninf, ninf => fin (-(3 * Real.pi / 4))
  | _, _ => nan

/-- A real number rounded towards zero. -/
def truncZ (a : ℝ) : ℤ := if 0 ≤ a then ⌊a⌋ else ⌈a⌉

/-- `fmod`: the remainder of the division rounded towards zero. -/
def fmod' : XR → XR → XR
  | fin a, fin b => if b = 0 then nan else fin (a - b * truncZ (a / b))
  | fin a, pinf => fin a
  | fin a, ninf => fin a
  | _, _ => nan

/-- The constant `M_PI` is taken as π itself. -/
instance : FT XR := ⟨tan', atan2', fmod', fin Real.pi⟩

end
end XR

/-- The parameters of the pattern after `Setup`: `m`, `m_over_tani`, `gamma_true`, `R_i`, `sigma_squared`,
e.g. `function_objects/func_logspiral.cpp:97-119`. -/
structure SpiralPattern (α : Type) where
  m : α
  mOverTan : α
  gammaTrue : α
  ri : α
  sigma2 : α

/-- The part of `Setup` that prepares the pattern, `function_objects/func_logspiral.cpp:115-118`, `func_logspiral2.cpp:124-127`, `func_logspiral3.cpp:132-136`,
`func_logspiral_exp.cpp:128-131`, `func_logspiral_gauss.cpp:127-130`. -/
def spiralPattern [FP α] [FT α] (m iPitch ri sigma gamma : α) : SpiralPattern α :=
  ⟨m, m / ftan (iPitch * lit DEG2RAD), m * gamma * lit DEG2RAD, ri, sigma * sigma⟩

/-- The replacement of a radius that is not positive, `function_objects/func_logspiral.cpp:131-133` and the same lines of the others. -/
def spiralRadius [FP α] (r : α) : α := if fle r 0 then lit (1 / 1000) else r

/-- The azimuthal term, `function_objects/func_logspiral.cpp:134-136` and the same lines of the others. -/
def spiralTerm [FP α] [FM α] (s : SpiralPattern α) (r phi : α) : α :=
  let f := s.mOverTan * flog (r / s.ri) + s.gammaTrue
  let t := 1 - fcos (s.m * phi - f)
  fexp ((-r * r / s.sigma2) * t)

/-- Radial amplitude of `LogSpiral2`, `function_objects/func_logspiral2.cpp:128,152-159`. -/
def amp2 [FP α] [FM α] (i0 h rmax st r : α) : α :=
  let d := rmax - r
  let scaling := if flt r rmax then (r / rmax) * fexp (-(d * d) / (lit 2 * st * st)) else 1
  scaling * i0 * fexp (-r / h)

/-- Radial amplitude of `LogSpiral3`, `function_objects/func_logspiral3.cpp:137-144,164-179`. -/
def amp3 [FP α] [FM α] (i0 h1 h2 rb a rmax st r : α) : α :=
  if flt r rmax then
    let d := rmax - r
    let scaling := (r / rmax) * fexp (-(d * d) / (lit 2 * st * st))
    scaling * i0 * fexp (-r / h1)
  else brokenProfile i0 h1 h2 rb a r

/-- Radial amplitude of `LogSpiralExp`, `function_objects/func_logspiral_exp.cpp:132-133,163-168`. -/
def ampExp [FP α] [FM α] (imax h rmax st r : α) : α :=
  let i0 := imax / fexp (-rmax / h)
  if flt r rmax then
    let d := rmax - r
    imax * fexp (-(d * d) / (lit 2 * st * st))
  else i0 * fexp (-r / h)

/-- Radial amplitude of `LogSpiralGauss`, `function_objects/func_logspiral_gauss.cpp:131-132,142,152-160`: `rd` is the radius before the replacement of
`spiralRadius`, `r` the radius after it. -/
def ampGauss [FP α] [FM α] (i0 rmax si so rd r : α) : α :=
  let d := fabs (rd - rmax)
  let ts := if flt r rmax then lit 2 * si * si else lit 2 * so * so
  i0 * fexp (-(d * d) / ts)

/-- The spirals with `m` arms. -/
inductive SpiralFun
  | plain
  | trunc
  | broken
  | expo
  | gauss
  deriving DecidableEq, Repr

/-- `N_PARAMS`. `function_objects/func_logspiral.cpp:64`, `func_logspiral2.cpp:71`, `func_logspiral3.cpp:71`, `func_logspiral_exp.cpp:70`,
`func_logspiral_gauss.cpp:69`. -/
def SpiralFun.nPars : SpiralFun → Nat
  | .plain => 8
  | .trunc => 11
  | .broken => 14
  | .expo => 11
  | .gauss => 11

/-- A prepared spiral: `GetValue` computes the radius and the angle in the plane of the component and multiplies the radial amplitude and the azimuthal term,
e.g. `function_objects/func_logspiral2.cpp:172-187`. The amplitude is given the radius before and after `spiralRadius`. -/
def spiralFn [FP α] [FM α] [FT α] (pa ell x0 y0 : α) (s : SpiralPattern α) (amp : α → α → α) : PlaneFn α :=
  let q := 1 - ell
  planeFn pa x0 y0 (fun _ _ => pure 1) fun u v =>
    let r0 := ellR q u v
    let r := spiralRadius r0
    amp r0 r * spiralTerm s r (fatan2 (v / q) u)

/-- `Setup` with the values read from the parameter vector: `function_objects/func_logspiral.cpp:94-120`, `func_logspiral2.cpp:101-129`,
`func_logspiral3.cpp:104-145`, `func_logspiral_exp.cpp:103-134`, `func_logspiral_gauss.cpp:102-133`. -/
def SpiralFun.build [FP α] [FM α] [FT α] (x0 y0 : α) : SpiralFun → List α → Res (PlaneFn α)
  | .plain, [pa, ell, m, i, i0, ri, sigma, gamma] =>
    .ok (spiralFn pa ell x0 y0 (spiralPattern m i ri sigma gamma) fun _ _ => i0)
  | .trunc, [pa, ell, m, i, ri, sigma, gamma, i0, h, rmax, st] =>
    .ok (spiralFn pa ell x0 y0 (spiralPattern m i ri sigma gamma) fun _ r => amp2 i0 h rmax st r)
  | .broken, [pa, ell, m, i, ri, sigma, gamma, i0, h1, h2, rb, a, rmax, st] =>
    .ok (spiralFn pa ell x0 y0 (spiralPattern m i ri sigma gamma) fun _ r => amp3 i0 h1 h2 rb a rmax st r)
  | .expo, [pa, ell, m, i, ri, sigma, gamma, imax, h, rmax, st] =>
    .ok (spiralFn pa ell x0 y0 (spiralPattern m i ri sigma gamma) fun _ r => ampExp imax h rmax st r)
  | .gauss, [pa, ell, m, i, i0, ri, sigma, gamma, rmax, si, so] =>
    .ok (spiralFn pa ell x0 y0 (spiralPattern m i ri sigma gamma) fun rd r => ampGauss i0 rmax si so rd r)
  | _, _ => .error .oob

/-- `Setup` followed by `GetValue`. -/
def SpiralFun.value [FP α] [FM α] [FT α] (F : SpiralFun) (params : List α) (offset : Nat) (x0 y0 x y : α) : Res α := do
  let p ← loopMap F.nPars fun i => rd params (offset + i)
  let f ← F.build x0 y0 p
  planeValue f x y

/-- `LogSpiralArc` after `Setup`. `function_objects/func_logspiral_arc.cpp:76-124`. -/
structure ArcState (α : Type) where
  x0 : α
  y0 : α
  q : α
  cosPA : α
  sinPA : α
  tanPitch : α
  twoSigmaR2 : α
  thetaMax : α
  thetaRef : α
  imax : α
  ccw2 : α
  cw2 : α
  r0 : α

/-- `LogSpiralArc::GetThetaRel`, `function_objects/func_logspiral_arc.cpp:223-229`, given `theta_sp_ref`. -/
def arcThetaRel [FP α] [FT α] (thetaRef thetaStd : α) : α :=
  let t := thetaStd - (fpi - thetaRef)
  if flt t 0 then t + lit 2 * fpi else t

/-- `LogSpiralArc::GetThetaDiff`, `function_objects/func_logspiral_arc.cpp:246-257`. -/
def arcThetaDiff [FP α] [FT α] (thetaMax thetaStd : α) : α :=
  let t := if flt thetaStd thetaMax then thetaStd + lit 2 * fpi else thetaStd
  let d := t - thetaMax
  if flt fpi d then -(lit 2 * fpi - d) else d

/-- `LogSpiralArc::GetStdAngle`, `function_objects/func_logspiral_arc.cpp:214-219`. -/
def arcStdAngle [FP α] [FT α] (dx dy : α) : α := ffmod (lit 2 * fpi + fatan2 dy dx) (lit 2 * fpi)

/-- The choice of `theta_sp_ref` in `Setup`, `function_objects/func_logspiral_arc.cpp:106-109`. -/
def arcThetaRef [FP α] [FT α] (thetaMax : α) : α :=
  if fle 0 thetaMax && fle thetaMax fpi then -thetaMax else lit 2 * fpi - thetaMax

/-- `LogSpiralArc::Setup`, `function_objects/func_logspiral_arc.cpp:76-124`. -/
def arcSetup [FP α] [FM α] [FT α] (params : List α) (offset : Nat) (x0 y0 : α) : Res (ArcState α) := do
  let pa ← rd params offset
  let ell ← rd params (offset + 1)
  let rScale ← rd params (offset + 2)
  let iPitch ← rd params (offset + 3)
  let tMax ← rd params (offset + 4)
  let imax ← rd params (offset + 5)
  let sr ← rd params (offset + 6)
  let sccw ← rd params (offset + 7)
  let scw ← rd params (offset + 8)
  let rad := (pa + lit 90) * lit DEG2RAD
  let tan := ftan (iPitch * lit DEG2RAD)
  let tm := tMax * lit DEG2RAD
  let ref := arcThetaRef tm
  let a := sccw * lit DEG2RAD
  let b := scw * lit DEG2RAD
  pure ⟨x0, y0, 1 - ell, fcos rad, fsin rad, tan, lit 2 * sr * sr, tm, ref, imax, lit 2 * a * a, lit 2 * b * b, rScale / fexp (tan * arcThetaRel ref tm)⟩

/-- `LogSpiralArc::CalculateIntensity`, `function_objects/func_logspiral_arc.cpp:130-145`. -/
def arcIntensity [FP α] [FM α] [FT α] (s : ArcState α) (r thetaRel thetaStd : α) : α :=
  let d := r - s.r0 * fexp (s.tanPitch * thetaRel)
  let td := arcThetaDiff s.thetaMax thetaStd
  let it := if fle 0 td then s.imax * fexp (-(td * td) / s.ccw2) else s.imax * fexp (-(td * td) / s.cw2)
  it * fexp (-(d * d) / s.twoSigmaR2)

/-- `LogSpiralArc::GetValue`, `function_objects/func_logspiral_arc.cpp:151-195`: the radius is taken in the plane of the component, the angle in the image. -/
def arcValue [FP α] [FM α] [FT α] (s : ArcState α) (x y : α) : α :=
  let dx := x - s.x0
  let dy := y - s.y0
  let r := ellR s.q (dx * s.cosPA + dy * s.sinPA) (-dx * s.sinPA + dy * s.cosPA)
  let t := arcStdAngle dx dy
  arcIntensity s r (arcThetaRel s.thetaRef t) t

end Imfit
