import Verif.Model.Multi
import Verif.Model.DE

/-!
# Image functions with elliptical isophotes

Source: `function_objects/func_exp.cpp`, `func_gaussian.cpp`, `func_sersic.cpp`, `func_moffat.cpp`, `func_flatsky.cpp`, `function_object.cpp`,
`helper_funcs.cpp`. The constants `A0_M03` … and the decimal constants of `Calculate_bn` are the exact decimal numbers of the source.
-/

namespace Imfit

variable {α : Type}

/-- Conversion `(int)` of a floating-point value; undefined outside the range of `int`. -/
class FI (α : Type) where
  ftoi : α → Res Int

export FI (ftoi)

noncomputable instance : FI XR := ⟨XR.toInt⟩

/-- The image-description members of a function object. `function_objects/function_object.h:131-135`. -/
structure ImgDesc (α : Type) where
  pixelScaling : α
  imageRotation : α
  intensityScale : α

/-- Values set by the constructor. `function_objects/function_object.cpp:66-69`. -/
def defaultDesc [FP α] : ImgDesc α := ⟨1, 0, 1⟩

/-- `FunctionObject::SetImageParameters`, `function_objects/function_object.cpp:105-110`. -/
def setImageParameters [FP α] (pixScale rot intens : α) : ImgDesc α := ⟨1 / pixScale, rot, intens⟩

/-- Centre, axis ratio and orientation as prepared by `Setup`. -/
structure EllGeo (α : Type) where
  x0 : α
  y0 : α
  q : α
  cosPA : α
  sinPA : α

/-- The common part of `Setup`: `function_objects/func_exp.cpp:106-119`. -/
def setupGeo [FP α] [FM α] (d : ImgDesc α) (pa ell x0 y0 : α) : EllGeo α :=
  let rad := ((pa - d.imageRotation) + lit 90) * lit DEG2RAD
  ⟨x0, y0, 1 - ell, fcos rad, fsin rad⟩

/-- Elliptical radius of an offset from the centre: `function_objects/func_exp.cpp:146-148`. -/
def EllGeo.radius [FP α] (g : EllGeo α) (dx dy : α) : α :=
  let xp := dx * g.cosPA + dy * g.sinPA
  let yp := (-dx * g.sinPA + dy * g.cosPA) / g.q
  fsqrt (xp * xp + yp * yp)

/-- A function object after `Setup`: geometry, `CalculateSubsamples` and `CalculateIntensity`. -/
structure EllFn (α : Type) where
  geo : EllGeo α
  nsub : α → Res Int
  profile : α → α

/-- `min(100, (int)v)`. -/
def capped [FI α] (v : α) : Res Int := do
  let n ← ftoi v
  pure (min 100 n)

/-- `CalculateSubsamples` of `Exponential` (`num` = 20, `thresh` = 3; `function_objects/func_exp.cpp:188-205`), `Gaussian` (40, 3;
`func_gaussian.cpp:188-204`), `Sersic` (20, 4; `func_sersic.cpp:196-213`), `Moffat` (40, 3; `func_moffat.cpp:193-210`). -/
def galfitSub [FP α] [FI α] (doSub : Bool) (num thresh : ℚ) (scale r : α) : Res Int :=
  if doSub && flt r (lit 10) then
    if fle scale 1 && fle r 1 then capped (lit num / scale)
    else if fle r (lit thresh) then pure 20 else capped (lit 20 / r)
  else pure 1

/-- The double loop over sub-pixels. `function_objects/func_exp.cpp:152-172`. -/
def subMean [FP α] (f : EllFn α) (n : Nat) (x y : α) : α :=
  let d := 1 / lit (n : ℚ)
  let xs := x - lit (1 / 2) + lit (1 / 2) * d
  let ys := y - lit (1 / 2) + lit (1 / 2) * d
  let sum := (List.range n).foldl (fun acc (ii : Nat) =>
    (List.range n).foldl (fun acc (jj : Nat) =>
      acc + f.profile (f.geo.radius ((xs + lit (ii : ℚ) * d) - f.geo.x0) ((ys + lit (jj : ℚ) * d) - f.geo.y0))) acc) 0
  sum / lit ((n * n : Nat) : ℚ)

/-- `GetValue`, `function_objects/func_exp.cpp:137-180` (the same text in `func_gaussian.cpp`, `func_sersic.cpp`, `func_moffat.cpp`). -/
def ellValue [FP α] (f : EllFn α) (x y : α) : Res α := do
  let r := f.geo.radius (x - f.geo.x0) (y - f.geo.y0)
  let n ← f.nsub r
  pure (if 1 < n then subMean f n.toNat x y else f.profile r)

/-- `Calculate_bn`, `function_objects/helper_funcs.cpp:14-30`. -/
def calculateBn [FP α] (n : α) : α :=
  let n2 := n * n
  if flt (lit (36 / 100)) n then
    lit 2 * n - lit (333333333333333 / 10 ^ 15) + lit (9876543209876543 / 10 ^ 18) / n + lit (18028610621203215 / 10 ^ 19) / n2
      + lit (11409410586365319 / 10 ^ 20) / (n2 * n) - lit (71510122958919723 / 10 ^ 21) / (n2 * n2)
  else
    lit (1945 / 10 ^ 5) + lit (-8902 / 10 ^ 4) * n + lit (1095 / 10 ^ 2) * n2 + lit (-1967 / 10 ^ 2) * n2 * n + lit (1343 / 10 ^ 2) * n2 * n2

/-- The elliptical functions of this file. -/
inductive EFun
  | exponential
  | gaussian
  | sersic
  | moffat

/-- `Exponential::Setup` and `CalculateIntensity`, `function_objects/func_exp.cpp:104-132`. -/
def exponentialSetup [FP α] [FM α] [FI α] (doSub : Bool) (d : ImgDesc α) (pa ell i0 h x0 y0 : α) : EllFn α :=
  let h' := h * d.pixelScaling
  let i' := i0 * d.intensityScale
  ⟨setupGeo d pa ell x0 y0, galfitSub doSub 20 3 h', fun r => i' * fexp (-r / h')⟩

/-- `Gaussian::Setup` and `CalculateIntensity`, `function_objects/func_gaussian.cpp:105-133`. -/
def gaussianSetup [FP α] [FM α] [FI α] (doSub : Bool) (d : ImgDesc α) (pa ell i0 sigma x0 y0 : α) : EllFn α :=
  let s := sigma * d.pixelScaling
  let i' := i0 * d.intensityScale
  let two := lit 2 * s * s
  ⟨setupGeo d pa ell x0 y0, galfitSub doSub 40 3 s, fun r => i' * fexp (-(r * r) / two)⟩

/-- `Sersic::Setup` and `CalculateIntensity`, `function_objects/func_sersic.cpp:110-144`. -/
def sersicSetup [FP α] [FM α] [FI α] (doSub : Bool) (d : ImgDesc α) (pa ell n ie re x0 y0 : α) : EllFn α :=
  let i' := ie * d.intensityScale
  let re' := re * d.pixelScaling
  let bn := calculateBn n
  let invn := 1 / n
  ⟨setupGeo d pa ell x0 y0, galfitSub doSub 20 4 re', fun r => i' * fexp (-bn * (fpow (r / re') invn - 1))⟩

/-- `Moffat::Setup` and `CalculateIntensity`, `function_objects/func_moffat.cpp:112-147`. -/
def moffatSetup [FP α] [FM α] [FI α] (doSub : Bool) (d : ImgDesc α) (pa ell i0 fwhm beta x0 y0 : α) : EllFn α :=
  let i' := i0 * d.intensityScale
  let f' := fwhm * d.pixelScaling
  let alpha := lit (1 / 2) * f' / fsqrt (fpow (lit 2) (1 / beta) - 1)
  ⟨setupGeo d pa ell x0 y0, galfitSub doSub 40 3 alpha, fun r => i' / fpow (1 + (r / alpha) * (r / alpha)) beta⟩

/-- `Setup` of a function object: reads its parameters from `params[offset …]`. -/
def EFun.setup [FP α] [FM α] [FI α] (doSub : Bool) (d : ImgDesc α) (params : List α) (offset : Nat) (x0 y0 : α) : EFun → Res (EllFn α)
  | .exponential => do
    let pa ← rd params offset
    let ell ← rd params (offset + 1)
    let i0 ← rd params (offset + 2)
    let h ← rd params (offset + 3)
    pure (exponentialSetup doSub d pa ell i0 h x0 y0)
  | .gaussian => do
    let pa ← rd params offset
    let ell ← rd params (offset + 1)
    let i0 ← rd params (offset + 2)
    let s ← rd params (offset + 3)
    pure (gaussianSetup doSub d pa ell i0 s x0 y0)
  | .sersic => do
    let pa ← rd params offset
    let ell ← rd params (offset + 1)
    let n ← rd params (offset + 2)
    let ie ← rd params (offset + 3)
    let re ← rd params (offset + 4)
    pure (sersicSetup doSub d pa ell n ie re x0 y0)
  | .moffat => do
    let pa ← rd params offset
    let ell ← rd params (offset + 1)
    let i0 ← rd params (offset + 2)
    let fw ← rd params (offset + 3)
    let b ← rd params (offset + 4)
    pure (moffatSetup doSub d pa ell i0 fw b x0 y0)

/-- `Setup` followed by `GetValue`. -/
def EFun.value [FP α] [FM α] [FI α] (F : EFun) (doSub : Bool) (d : ImgDesc α) (params : List α) (offset : Nat) (x0 y0 x y : α) : Res α := do
  let f ← F.setup doSub d params offset x0 y0
  ellValue f x y

/-- `FlatSky::Setup` and `GetValue`, `function_objects/func_flatsky.cpp:85-100`. -/
def flatSkyValue [FP α] (d : ImgDesc α) (params : List α) (offset : Nat) (_x0 _y0 _x _y : α) : Res α := do
  let i ← rd params offset
  pure (i * d.intensityScale)

end Imfit
