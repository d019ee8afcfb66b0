import Verif.Model.Func
import Mathlib.Analysis.SpecialFunctions.Trigonometric.Arctan
import Mathlib.Analysis.SpecialFunctions.Trigonometric.DerivHyp

/-!
# Further two-dimensional image functions

Source: `function_objects/func_broken-exp.cpp`, `func_double-broken-exp.cpp`, `func_flat-exp.cpp`, `func_king.cpp`, `func_king2.cpp`, `func_gaussian-ring.cpp`,
`func_gaussian-ring2side.cpp`, `func_nuker.cpp`, `func_core-sersic.cpp`, `func_gen-exp.cpp`, `func_gen-sersic.cpp`, `func_ferrersbar2d.cpp`,
`func_edge-on-ring.cpp`, `func_edge-on-ring2side.cpp`, `func_broken-exp2d.cpp`, `func_broken-exp-bar.cpp`, `func_edge-on-disk.cpp`, `func_flatbar.cpp`,
`helper_funcs.cpp`.

All of them turn the offset from the centre into coordinates along and across the major axis; the value is then a function of those two coordinates, and
so is the number of sub-pixels. The Bessel function of `func_edge-on-disk.cpp` (`gsl_sf_bessel_K1`) is a parameter.
-/

namespace Imfit

variable {α : Type}

/-- More functions of `<math.h>`. No laws are assumed. -/
class FH (α : Type) where
  /-- `cosh` -/
  fcosh : α → α
  /-- `atan` -/
  fatan : α → α

export FH (fcosh fatan)

/-- `cosh` in exact arithmetic. -/
noncomputable def XR.cosh' : XR → XR
  | .fin a => .fin (Real.cosh a)
  | .nan => .nan
  | _ => .pinf

/-- `atan` in exact arithmetic. -/
noncomputable def XR.atan' : XR → XR
  | .fin a => .fin (Real.arctan a)
  | .pinf => .fin (Real.pi / 2)
  | .ninf => .fin (-(Real.pi / 2))
  | .nan => .nan

noncomputable instance : FH XR := ⟨XR.cosh', XR.atan'⟩

/-- A function object after `Setup`: centre, orientation, and the number of sub-pixels and the intensity as functions of the coordinates along and across the
major axis. -/
structure PlaneFn (α : Type) where
  x0 : α
  y0 : α
  cosPA : α
  sinPA : α
  nsub : α → α → Res Int
  intensity : α → α → α

/-- `xp = x_diff*cosPA + y_diff*sinPA`, e.g. `function_objects/func_broken-exp.cpp:162`. -/
def PlaneFn.along [FP α] (f : PlaneFn α) (dx dy : α) : α := dx * f.cosPA + dy * f.sinPA

/-- `-x_diff*sinPA + y_diff*cosPA`, e.g. `function_objects/func_broken-exp.cpp:163`. -/
def PlaneFn.across [FP α] (f : PlaneFn α) (dx dy : α) : α := -dx * f.sinPA + dy * f.cosPA

/-- The intensity at an offset from the centre. -/
def PlaneFn.at' [FP α] (f : PlaneFn α) (dx dy : α) : α := f.intensity (f.along dx dy) (f.across dx dy)

/-- The double loop over sub-pixels; the same text in every file, e.g. `function_objects/func_broken-exp.cpp:167-187`. -/
def planeMean [FP α] (f : PlaneFn α) (n : Nat) (x y : α) : α :=
  let d := 1 / lit (n : ℚ)
  let xs := x - lit (1 / 2) + lit (1 / 2) * d
  let ys := y - lit (1 / 2) + lit (1 / 2) * d
  let sum := (List.range n).foldl (fun acc (ii : Nat) =>
    (List.range n).foldl (fun acc (jj : Nat) =>
      acc + f.at' ((xs + lit (ii : ℚ) * d) - f.x0) ((ys + lit (jj : ℚ) * d) - f.y0)) acc) 0
  sum / lit ((n * n : Nat) : ℚ)

/-- `GetValue`, e.g. `function_objects/func_broken-exp.cpp:154-192`. -/
def planeValue [FP α] (f : PlaneFn α) (x y : α) : Res α := do
  let n ← f.nsub (f.along (x - f.x0) (y - f.y0)) (f.across (x - f.x0) (y - f.y0))
  pure (if 1 < n then planeMean f n.toNat x y else f.at' (x - f.x0) (y - f.y0))

/-- Radius on ellipses of axis ratio `q`, e.g. `function_objects/func_broken-exp.cpp:162-164`. -/
def ellR [FP α] (q xp yp : α) : α :=
  let ys := yp / q
  fsqrt (xp * xp + ys * ys)

/-- Radius without flattening, `function_objects/func_broken-exp2d.cpp:168`, `func_broken-exp-bar.cpp:150`. -/
def circR [FP α] (xp yp : α) : α := fsqrt (xp * xp + yp * yp)

/-- `CalculateRadius` for generalised ellipses, `function_objects/func_gen-exp.cpp:139-149`, `func_gen-sersic.cpp:151-161`, `func_ferrersbar2d.cpp:155-165`.
`c0` is the shape parameter. -/
def genR [FP α] [FM α] (q c0 xp yp : α) : α :=
  let e := c0 + lit 2
  let ie := 1 / e
  fpow (fpow (fabs xp) e + fpow (fabs (yp / q)) e) ie

/-- The broken-exponential profile: the second half of `BrokenExponential::Setup` and `CalculateIntensity`, `function_objects/func_broken-exp.cpp:121-149`.
The same text in `func_broken-exp2d.cpp:126-151`, `func_broken-exp-bar.cpp:103-131`, and in `func_flatbar.cpp:140-159`. -/
def brokenProfile [FP α] [FM α] (i0 h1 h2 rb a r : α) : α :=
  let ex := (1 / a) * (1 / h1 - 1 / h2)
  let s := fpow (1 + fexp (-a * rb)) (-ex)
  let i0s := i0 * s
  let delta := rb / h2 - rb / h1
  if flt (lit 100) (a * (r - rb)) then i0s * fexp (delta - r / h2)
  else i0s * fexp (-r / h1) * fpow (1 + fexp (a * (r - rb))) ex

/-- `CalculateDBEScalingFactor`, `function_objects/helper_funcs.cpp:33-47`. -/
def dbeScaling [FP α] [FM α] (h1 h2 h3 rb1 rb2 a1 a2 : α) : α :=
  let p2 := fpow (1 + fexp (-a1 * rb1)) ((1 / a1) * (1 / h1 - 1 / h2))
  let p3 := fpow (1 + fexp (-a2 * rb2)) ((1 / a2) * (1 / h2 - 1 / h3))
  1 / (p2 * p3)

/-- One break of the double-broken exponential, `function_objects/func_double-broken-exp.cpp:136-151`. -/
def dbePiece [FP α] [FM α] (ha hb rb a r : α) : α :=
  let sr := a * (r - rb)
  if flt (lit 100) sr then fexp (r / ha - r / hb + (rb / hb - rb / ha)) else fpow (1 + fexp sr) ((1 / a) * (1 / ha - 1 / hb))

/-- The second half of `DoubleBrokenExponential::Setup` and `CalculateIntensity`, `function_objects/func_double-broken-exp.cpp:111-154`. -/
def doubleBrokenProfile [FP α] [FM α] (i0 h1 h2 h3 rb1 rb2 a1 a2 r : α) : α :=
  i0 * dbeScaling h1 h2 h3 rb1 rb2 a1 a2 * fexp (-r / h1) * dbePiece h1 h2 rb1 a1 r * dbePiece h2 h3 rb2 a2 r

/-- The second half of `FlatExponential::Setup` and `CalculateIntensity`, `function_objects/func_flat-exp.cpp:93-119`. -/
def flatExpProfile [FP α] [FM α] (i0 h rb a r : α) : α :=
  let ex := 1 / (a * h)
  let s := fpow (1 + fexp (-a * rb)) ex
  let i0s := i0 * s
  if flt (lit 100) (a * (r - rb)) then i0s * fexp (-r / h) else i0s * fpow (1 + fexp (a * (r - rb))) (-ex)

/-- The second half of `ModifiedKing::Setup` and `CalculateIntensity`, `function_objects/func_king.cpp:121-141` (`func_king2.cpp:128-148`). -/
def kingProfile [FP α] [FM α] (i0 rc rt a r : α) : α :=
  let ia := 1 / a
  let irc := 1 / rc
  let const := 1 / fpow (1 + (rt / rc) * (rt / rc)) ia
  let i1 := i0 * fpow (1 - const) (-a)
  if flt r rt then
    let rr := r * irc
    let var := 1 / fpow (1 + rr * rr) ia
    i1 * fpow (var - const) a
  else 0

/-- `GaussianRing::CalculateIntensity`, `function_objects/func_gaussian-ring.cpp:119-133`. -/
def gaussRingProfile [FP α] [FM α] (amp rr sigma r : α) : α :=
  let d := fabs (r - rr)
  amp * fexp (-(d * d) / (lit 2 * sigma * sigma))

/-- `GaussianRing2Side::CalculateIntensity`, `function_objects/func_gaussian-ring2side.cpp:122-149`. -/
def gaussRing2Profile [FP α] [FM α] (amp rr sin' sout r : α) : α :=
  let d := fabs (r - rr)
  let two := if flt r rr then lit 2 * sin' * sin' else lit 2 * sout * sout
  amp * fexp (-(d * d) / two)

/-- The clamp of the radius, `function_objects/func_nuker.cpp:70,144-146`, `func_core-sersic.cpp:70,147-149`. -/
def clampR [FP α] (r : α) : α := if flt r (lit (1 / 1000)) then lit (1 / 1000) else r

/-- The second half of `NukerLaw::Setup` and `CalculateIntensity`, `function_objects/func_nuker.cpp:131-151`. -/
def nukerProfile [FP α] [FM α] (ib rb a b g r : α) : α :=
  let ex := (b - g) / a
  let i' := ib * fpow (lit 2) ex
  let r := clampR r
  i' * fpow (rb / r) g * fpow (1 + fpow (r / rb) a) (-ex)

/-- `NukerLaw::CalculateSubsamples`, `function_objects/func_nuker.cpp:208-219`. -/
def nukerSub [FP α] [FI α] (doSub : Bool) (r : α) : Res Int :=
  if doSub && flt r (lit 10) then (if fle r (lit 4) then pure 20 else capped (lit 20 / r)) else pure 1

/-- The second half of `CoreSersic::Setup` and `CalculateIntensity`, `function_objects/func_core-sersic.cpp:132-154`. -/
def coreSersicProfile [FP α] [FM α] (n ib re rb a g r : α) : α :=
  let bn := calculateBn n
  let i' := ib * fpow (lit 2) (-g / a) * fexp (bn * fpow (fpow (lit 2) (1 / a) * rb / re) (1 / n))
  let r := clampR r
  i' * fpow (1 + fpow (rb / r) a) (g / a) * fexp (-bn * fpow ((fpow r a + fpow rb a) / fpow re a) (1 / (a * n)))

/-- `FerrersBar2D::CalculateIntensity`, `function_objects/func_ferrersbar2d.cpp:126,135-148`. -/
def ferrersProfile [FP α] [FM α] (n i0 abar r : α) : α :=
  let m2 := r * r / (abar * abar)
  if flt 1 m2 then 0 else i0 * fpow (1 - m2) n

/-- `EdgeOnRing::CalculateIntensity`, `function_objects/func_edge-on-ring.cpp:111-112,122-142,162`. -/
def edgeRingIntensity [FP α] [FM α] (amp r1 sr sz xp yp : α) : α :=
  let z := fabs yp
  let r2 := -r1
  let twor := lit 2 * sr * sr
  let zr := z * z / (lit 2 * sz * sz)
  amp * fexp (-((r1 - xp) * (r1 - xp)) / twor - zr) + amp * fexp (-((r2 - xp) * (r2 - xp)) / twor - zr)

/-- `EdgeOnRing2Side::CalculateIntensity`, `function_objects/func_edge-on-ring2side.cpp:122-161`; `r1` is the negative radius. -/
def edgeRing2Intensity [FP α] [FM α] (amp r1 srin srout sz xp yp : α) : α :=
  let z := fabs yp
  let r2 := -r1
  let tin := lit 2 * srin * srin
  let tout := lit 2 * srout * srout
  let zr := z * z / (lit 2 * sz * sz)
  let t1 := if flt xp r1 then tout else tin
  let t2 := if flt xp r1 then tin else if flt xp r2 then tin else tout
  amp * fexp (-((xp - r1) * (xp - r1)) / t1 - zr) + amp * fexp (-((xp - r2) * (xp - r2)) / t2 - zr)

/-- The vertical profile of the edge-on disk, `function_objects/func_edge-on-disk.cpp:94,152-155,176-183`. -/
def verticalSech [FP α] [FM α] [FH α] (n z0 z : α) : α :=
  let a := lit 2 / n
  let sz := a * z0
  if flt (lit 100) (z / sz) then fpow (lit 2) a * fexp (-z / z0) else fpow (1 / fcosh (z / sz)) a

/-- `EdgeOnDisk::CalculateIntensity`, `function_objects/func_edge-on-disk.cpp:154,164-185,203-204`; `k1` is `gsl_sf_bessel_K1`. -/
def edgeDiskIntensity [FP α] [FM α] [FH α] (k1 : α → α) (l0 h n z0 xp yp : α) : α :=
  let r := fabs xp
  let z := fabs yp
  let s00 := lit 2 * h * l0
  let radial := if fle r 0 && fle 0 r then s00 else s00 * (r / h) * k1 (r / h)
  radial * verticalSech n z0 z

/-- `EdgeOnDisk::CalculateSubsamples`, `function_objects/func_edge-on-disk.cpp:239-264`. -/
def edgeDiskSub [FP α] [FI α] (doSub : Bool) (h z0 xp yp : α) : Res Int :=
  let r := fabs (fabs xp)
  let z := fabs (fabs yp)
  if doSub && (flt r (lit 10) || flt z (lit 10)) then
    if (fle h 1 && fle r 1) || (fle z0 1 && fle z 1) then do
      let a ← capped (lit 20 / h)
      let b ← capped (lit 20 / z0)
      pure (max a b)
    else if fle r (lit 3) || fle z (lit 3) then pure 20
    else do
      let a ← capped (lit 20 / r)
      let b ← capped (lit 20 / z)
      pure (max a b)
  else pure 1

/-- `FlatBar::ParabolicInterpolation`, `function_objects/func_flatbar.cpp:258-268`. -/
def parabolic [FP α] (x x1 x2 y1 y2 : α) : α :=
  if flt x x1 then y1
  else if flt x2 x then y2
  else
    let w := x2 - x1
    let b := (y2 - y1) / (w * w)
    let d := x - x1
    y1 + b * d * d

/-- `FlatBar::GetAdjustedRbh2`, `function_objects/func_flatbar.cpp:272-287`. -/
def adjustedRbh2 [FP α] [FH α] (dpa h1 h2 rb xp yp r rc : α) : α × α :=
  if flt 0 rc && flt 0 r then ((r / rc) * rb, parabolic (fabs (fatan (yp / xp))) 0 dpa h2 h1) else (rb, h2)

/-- The intensity of `FlatBar` at a point, as in the branch without sub-pixels of `FlatBar::GetValue`, `function_objects/func_flatbar.cpp:164-225`. Simplified: the branch
with sub-pixels does not repeat the comparison with `deltaPA_max`, which `ParabolicInterpolation` has already made (theorem `flatBar_branches_agree`). -/
def flatBarIntensity [FP α] [FM α] [FH α] (q dpa i0 h1 h2 rb a xp yp : α) : α :=
  let r := ellR q xp yp
  let p := adjustedRbh2 dpa h1 h2 rb xp yp r (circR xp yp)
  let h2' := if flt dpa (fabs (fatan (yp / xp))) then h1 else p.2
  brokenProfile i0 h1 h2' p.1 a r

/-- The functions of this file. -/
inductive PFun (α : Type)
  | brokenExp
  | doubleBroken
  | flatExp
  | king
  | king2
  | gaussRing
  | gaussRing2
  | nuker
  | coreSersic
  | genExp
  | genSersic
  | ferrers
  | edgeRing
  | edgeRing2
  | brokenExp2d
  | brokenBar
  | edgeDisk (k1 : α → α)
  | flatBar

/-- `N_PARAMS` of each function: `function_objects/func_broken-exp.cpp:53`, `func_double-broken-exp.cpp:54`, `func_flat-exp.cpp:43`, `func_king.cpp:53`,
`func_king2.cpp:57`, `func_gaussian-ring.cpp:54`, `func_gaussian-ring2side.cpp:55`, `func_nuker.cpp:57`, `func_core-sersic.cpp:57`, `func_gen-exp.cpp:56`,
`func_gen-sersic.cpp:58`, `func_ferrersbar2d.cpp:59`, `func_edge-on-ring.cpp:57`, `func_edge-on-ring2side.cpp:55`, `func_broken-exp2d.cpp:58`,
`func_broken-exp-bar.cpp:54`, `func_edge-on-disk.cpp:86`, `func_flatbar.cpp:55`. -/
def PFun.nPars : PFun α → Nat
  | .brokenExp => 7
  | .doubleBroken => 10
  | .flatExp => 6
  | .king => 6
  | .king2 => 6
  | .gaussRing => 5
  | .gaussRing2 => 6
  | .nuker => 7
  | .coreSersic => 8
  | .genExp => 5
  | .genSersic => 6
  | .ferrers => 6
  | .edgeRing => 5
  | .edgeRing2 => 6
  | .brokenExp2d => 7
  | .brokenBar => 7
  | .edgeDisk _ => 5
  | .flatBar => 8

/-- A prepared function with the given position angle (degrees): the trigonometric part of every `Setup`, e.g. `function_objects/func_broken-exp.cpp:116-119`. -/
def planeFn [FP α] [FM α] (pa x0 y0 : α) (nsub : α → α → Res Int) (intensity : α → α → α) : PlaneFn α :=
  let rad := (pa + lit 90) * lit DEG2RAD
  ⟨x0, y0, fcos rad, fsin rad, nsub, intensity⟩

/-- `Setup` with the values read from the parameter vector:
`func_broken-exp.cpp:103-127`, `func_double-broken-exp.cpp:90-119`, `func_flat-exp.cpp:75-97`, `func_king.cpp:103-125`, `func_king2.cpp:107-132`,
`func_gaussian-ring.cpp:102-120`, `func_gaussian-ring2side.cpp:104-124`, `func_nuker.cpp:112-133`, `func_core-sersic.cpp:113-135`, `func_gen-exp.cpp:103-121`,
`func_gen-sersic.cpp:107-130`, `func_ferrersbar2d.cpp:105-127`, `func_edge-on-ring.cpp:105-124`, `func_edge-on-ring2side.cpp:104-125`,
`func_broken-exp2d.cpp:108-131`, `func_broken-exp-bar.cpp:86-110`, `func_edge-on-disk.cpp:136-156`, `func_flatbar.cpp:110-130` (all in `function_objects/`).
`FlatExponential`, `DoubleBrokenExponential` and `BrokenExponentialBar` do not use the image description; `FlatBar` multiplies the intensity by
`pixelScaling`. -/
def PFun.build [FP α] [FM α] [FI α] [FH α] (doSub : Bool) (d : ImgDesc α) (x0 y0 : α) : PFun α → List α → Res (PlaneFn α)
  | .brokenExp, [pa, ell, i0, h1, h2, rb, a] =>
    let q := 1 - ell
    let h1' := h1 * d.pixelScaling
    .ok (planeFn (pa - d.imageRotation) x0 y0 (fun u v => galfitSub doSub 20 3 h1' (ellR q u v))
      (fun u v => brokenProfile (i0 * d.intensityScale) h1' (h2 * d.pixelScaling) (rb * d.pixelScaling) (a / d.pixelScaling) (ellR q u v)))
  | .doubleBroken, [pa, ell, i0, h1, h2, h3, rb1, rb2, a1, a2] =>
    let q := 1 - ell
    .ok (planeFn pa x0 y0 (fun u v => galfitSub doSub 20 3 h1 (ellR q u v))
      (fun u v => doubleBrokenProfile i0 h1 h2 h3 rb1 rb2 a1 a2 (ellR q u v)))
  | .flatExp, [pa, ell, i0, h, rb, a] =>
    let q := 1 - ell
    .ok (planeFn pa x0 y0 (fun u v => galfitSub (doSub && flt (lit (1 / 2) * rb) (ellR q u v)) 20 3 h (ellR q u v))
      (fun u v => flatExpProfile i0 h rb a (ellR q u v)))
  | .king, [pa, ell, i0, rc, rt, a] =>
    let q := 1 - ell
    let rc' := rc * d.pixelScaling
    .ok (planeFn (pa - d.imageRotation) x0 y0 (fun u v => galfitSub doSub 20 3 rc' (ellR q u v))
      (fun u v => kingProfile (i0 * d.intensityScale) rc' (rt * d.pixelScaling) a (ellR q u v)))
  | .king2, [pa, ell, i0, rc, c, a] =>
    let q := 1 - ell
    let rc' := rc * d.pixelScaling
    .ok (planeFn (pa - d.imageRotation) x0 y0 (fun u v => galfitSub doSub 20 3 rc' (ellR q u v))
      (fun u v => kingProfile (i0 * d.intensityScale) rc' (c * rc') a (ellR q u v)))
  | .gaussRing, [pa, ell, amp, rr, s] =>
    let q := 1 - ell
    .ok (planeFn (pa - d.imageRotation) x0 y0 (fun _ _ => pure 1)
      (fun u v => gaussRingProfile (amp * d.intensityScale) (rr * d.pixelScaling) (s * d.pixelScaling) (ellR q u v)))
  | .gaussRing2, [pa, ell, amp, rr, si, so] =>
    let q := 1 - ell
    .ok (planeFn (pa - d.imageRotation) x0 y0 (fun _ _ => pure 1)
      (fun u v => gaussRing2Profile (amp * d.intensityScale) (rr * d.pixelScaling) (si * d.pixelScaling) (so * d.pixelScaling) (ellR q u v)))
  | .nuker, [pa, ell, ib, rb, a, b, g] =>
    let q := 1 - ell
    .ok (planeFn (pa - d.imageRotation) x0 y0 (fun u v => nukerSub doSub (ellR q u v))
      (fun u v => nukerProfile (ib * d.intensityScale) (rb * d.pixelScaling) a b g (ellR q u v)))
  | .coreSersic, [pa, ell, n, ib, re, rb, a, g] =>
    let q := 1 - ell
    let re' := re * d.pixelScaling
    .ok (planeFn (pa - d.imageRotation) x0 y0 (fun u v => galfitSub doSub 20 4 re' (ellR q u v))
      (fun u v => coreSersicProfile n (ib * d.intensityScale) re' (rb * d.pixelScaling) a g (ellR q u v)))
  | .genExp, [pa, ell, c0, i0, h] =>
    let q := 1 - ell
    let h' := h * d.pixelScaling
    .ok (planeFn (pa - d.imageRotation) x0 y0 (fun u v => galfitSub doSub 20 3 h' (genR q c0 u v))
      (fun u v => (i0 * d.intensityScale) * fexp (-genR q c0 u v / h')))
  | .genSersic, [pa, ell, c0, n, ie, re] =>
    let q := 1 - ell
    let re' := re * d.pixelScaling
    .ok (planeFn (pa - d.imageRotation) x0 y0 (fun u v => galfitSub doSub 20 4 re' (genR q c0 u v))
      (fun u v => (ie * d.intensityScale) * fexp (-calculateBn n * (fpow (genR q c0 u v / re') (1 / n) - 1))))
  | .ferrers, [pa, ell, c0, n, i0, abar] =>
    let q := 1 - ell
    let ab := abar * d.pixelScaling
    .ok (planeFn (pa - d.imageRotation) x0 y0 (fun u v => galfitSub doSub 20 4 ab (genR q c0 u v))
      (fun u v => ferrersProfile n (i0 * d.intensityScale) ab (genR q c0 u v)))
  | .edgeRing, [pa, amp, r, sr, sz] =>
    .ok (planeFn (pa - d.imageRotation) x0 y0 (fun _ _ => pure 1)
      (edgeRingIntensity (amp * d.intensityScale) (r * d.pixelScaling) (sr * d.pixelScaling) (sz * d.pixelScaling)))
  | .edgeRing2, [pa, amp, r, si, so, sz] =>
    .ok (planeFn (pa - d.imageRotation) x0 y0 (fun _ _ => pure 1)
      (edgeRing2Intensity (amp * d.intensityScale) (-r * d.pixelScaling) (si * d.pixelScaling) (so * d.pixelScaling) (sz * d.pixelScaling)))
  | .brokenExp2d, [pa, i0, h1, h2, rb, a, hz] =>
    let h1' := h1 * d.pixelScaling
    .ok (planeFn (pa - d.imageRotation) x0 y0 (fun u v => galfitSub doSub 20 3 h1' (circR u v))
      (fun u v => brokenProfile (i0 * d.intensityScale) h1' (h2 * d.pixelScaling) (rb * d.pixelScaling) (a / d.pixelScaling) (fabs u)
        * fexp (-fabs v / (hz * d.pixelScaling))))
  | .brokenBar, [pa, i0, h1, h2, rb, a, s] =>
    .ok (planeFn pa x0 y0 (fun u v => galfitSub doSub 20 3 h1 (circR u v))
      (fun u v => brokenProfile i0 h1 h2 rb a (fabs u) * fexp (-(v * v) / (lit 2 * s * s))))
  | .edgeDisk k1, [pa, l0, h, n, z0] =>
    let h' := h * d.pixelScaling
    let z' := z0 * d.pixelScaling
    .ok (planeFn (pa - d.imageRotation) x0 y0 (edgeDiskSub doSub h' z') (edgeDiskIntensity k1 (l0 * d.intensityScale) h' n z'))
  | .flatBar, [pa, ell, dpa, i0, h1, h2, rb, a] =>
    let q := 1 - ell
    let h1' := h1 * d.pixelScaling
    .ok (planeFn (pa - d.imageRotation) x0 y0 (fun u v => galfitSub doSub 20 3 h1' (ellR q u v))
      (flatBarIntensity q (dpa * lit DEG2RAD) (i0 * d.pixelScaling) h1' (h2 * d.pixelScaling) (rb * d.pixelScaling) (a / d.pixelScaling)))
  | _, _ => .error .oob

/-- `Setup`: reads `N_PARAMS` values from `params[offset …]` and prepares the function. -/
def PFun.setup [FP α] [FM α] [FI α] [FH α] (F : PFun α) (doSub : Bool) (d : ImgDesc α) (params : List α) (offset : Nat) (x0 y0 : α) : Res (PlaneFn α) := do
  let p ← loopMap F.nPars fun i => rd params (offset + i)
  F.build doSub d x0 y0 p

/-- `Setup` followed by `GetValue`. -/
def PFun.value [FP α] [FM α] [FI α] [FH α] (F : PFun α) (doSub : Bool) (d : ImgDesc α) (params : List α) (offset : Nat) (x0 y0 x y : α) : Res α := do
  let f ← F.setup doSub d params offset x0 y0
  planeValue f x y

/-- `TiltedSkyPlane::Setup` and `GetValue`, `function_objects/func_tilted-sky-plane.cpp:85-104`. -/
def tiltedSkyValue [FP α] (d : ImgDesc α) (params : List α) (offset : Nat) (x0 y0 x y : α) : Res α := do
  let i0 ← rd params offset
  let mx ← rd params (offset + 1)
  let my ← rd params (offset + 2)
  pure (i0 * d.intensityScale + mx * (x - x0) + my * (y - y0))

/-- `SimpleCheckerboard::GetValue` after the conversion of the coordinates to the integers `x_int`, `y_int`,
`function_objects/func_simple-checkerboard.cpp:45,89-101`. Division and remainder of `int` round towards zero. -/
def checkerboardCell [FP α] (i : α) (xInt yInt : Int) : α :=
  let xq := Int.tdiv xInt 10
  let yq := Int.tdiv yInt 10
  if Int.tmod yq 2 = 0 then (if Int.tmod xq 2 = 0 then i else 0) else if Int.tmod xq 2 = 1 then i else 0

/-- `FlatBar`: the two branches of `GetValue` use the same outer scale length, for any arithmetic in which a comparison with the result of `fabs (atan …)` is the
same wherever it is made and `deltaPA` is not below zero. -/
theorem flatBar_branches_agree [FP α] [FH α] (dpa h1 h2 rb xp yp r rc : α) (h0 : flt (fabs (fatan (yp / xp))) 0 = false)
    (hr : (flt 0 rc && flt 0 r) = true) :
    (if flt dpa (fabs (fatan (yp / xp))) then h1 else (adjustedRbh2 dpa h1 h2 rb xp yp r rc).2) = (adjustedRbh2 dpa h1 h2 rb xp yp r rc).2 := by
  simp only [adjustedRbh2, hr, if_true, parabolic, h0, Bool.false_eq_true, if_false]
  by_cases h : flt dpa (fabs (fatan (yp / xp))) <;> simp [h]

end Imfit
