import Verif.Model.Plane

/-!
# Three-dimensional components: integrals along the line of sight

Source: `function_objects/func_expdisk3d.cpp`, `func_brokenexpdisk3d.cpp`, `func_gaussianring3d.cpp`, `func_ferrersbar3d.cpp`, `func_peanut_dattathri.cpp`,
`func_triaxbar3d.cpp`, `func_bpbar3d.cpp`, `helper_funcs_3d.cpp`, `integrator.cpp`.

`GetValue` computes where the line of sight of a pixel meets the plane of the sky through the centre, in coordinates attached to the midplane of the object, packs
everything the luminosity density needs into an array, and integrates the density with GSL (`Integrate`, a parameter here). Simplified: the packed values are the
arguments of a function instead of the cells of an array; what happens when threads share the pointer to that array is modelled in `SharedParams`.
-/

namespace Imfit

variable {α : Type}

/-- A function object after `Setup`: centre, orientation of the line of nodes, inclination, half-length of the integration range, and the luminosity density as a
function of the coordinates attached to the midplane (first axis = line of nodes, third axis = normal). -/
structure LosFn (α : Type) where
  x0 : α
  y0 : α
  cosPA : α
  sinPA : α
  cosInc : α
  sinInc : α
  limit : α
  dens : α → α → α → α

/-- Where the line of sight meets the plane of the sky: `function_objects/func_expdisk3d.cpp:179-194` (the same text in all files). -/
def LosFn.start [FP α] (f : LosFn α) (x y : α) : α × α × α :=
  let dx := x - f.x0
  let dy := y - f.y0
  let xp := dx * f.cosPA + dy * f.sinPA
  let yp := -dx * f.sinPA + dy * f.cosPA
  (xp, yp * f.cosInc, yp * f.sinInc)

/-- The integrand at the distance `s` from the start: `function_objects/func_expdisk3d.cpp:249-252`, `helper_funcs_3d.cpp:69-72`. -/
def LosFn.integrand [FP α] (f : LosFn α) (st : α × α × α) (s : α) : α := f.dens st.1 (st.2.1 + s * f.sinInc) (st.2.2 - s * f.cosInc)

/-- `GetValue`; `integ F s1 s2` is `Integrate`. -/
def losValue [FP α] (integ : (α → α) → α → α → α) (f : LosFn α) (x y : α) : α := integ (f.integrand (f.start x y)) (-f.limit) f.limit

/-- Coordinates along and across the major axis in the midplane, and the height: the second half of `Compute3dObjectCoords`, `function_objects/helper_funcs_3d.cpp:74-81`. -/
def objCoords [FP α] (c s x y z : α) : α × α × α := (x * c + y * s, -x * s + y * c, fabs z)

/-- `LuminosityDensity`, `function_objects/func_expdisk3d.cpp:232-268` with `Setup:169-171`. -/
def expDiskDensity [FP α] [FM α] [FH α] (j h n z0 x y z : α) : α :=
  j * fexp (-fsqrt (x * x + y * y) / h) * verticalSech n z0 (fabs z)

/-- `LuminosityDensityBED`, `function_objects/func_brokenexpdisk3d.cpp:230-281` with `Setup:152-162`. -/
def brokenDiskDensity [FP α] [FM α] [FH α] (j h1 h2 rb a n z0 x y z : α) : α :=
  brokenProfile j h1 h2 rb a (fsqrt (x * x + y * y)) * verticalSech n z0 (fabs z)

/-- `LuminosityDensityRing`, `function_objects/func_gaussianring3d.cpp:222-255` with `Setup:159`. -/
def ringDensity [FP α] [FM α] (c s q j a sigma hz x y z : α) : α :=
  let p := objCoords c s x y z
  let ys := p.2.1 / q
  let r := fsqrt (p.1 * p.1 + ys * ys)
  let d := r - a
  j * fexp (-d * d / (lit 2 * sigma * sigma)) * fexp (-p.2.2 / hz)

/-- `LuminosityDensity_FerrersBar`, `function_objects/func_ferrersbar3d.cpp:230-261` with `Setup:149-151`. -/
def ferrersDensity [FP α] [FM α] (c s j rbar q qz n x y z : α) : α :=
  let p := objCoords c s x y z
  let a2 := rbar * rbar
  let b2 := q * q * a2
  let c2 := qz * qz * a2
  let m2 := p.2.1 * p.2.1 / a2 + p.1 * p.1 / b2 + p.2.2 * p.2.2 / c2
  if flt 1 m2 then 0 else j * fpow (1 - m2) n

/-- `LuminosityDensityDattathriPeanut3D`, `function_objects/func_peanut_dattathri.cpp:222-270` with `Setup:155-156`. -/
def peanutDensity [FP α] [FM α] [FH α] (c s j rx q qz rp ap sp cpar cperp x y z : α) : α :=
  let ry := q * rx
  let rz := qz * rx
  let xb := x * c + y * s
  let yb := -x * s + y * c
  let z0 := ap * fexp (-(fpow (xb - rp) (lit 2) / (lit 2 * fpow sp (lit 2)) + fpow yb (lit 2) / (lit 2 * fpow sp (lit 2))))
    + ap * fexp (-(fpow (xb + rp) (lit 2) / (lit 2 * fpow sp (lit 2)) + fpow yb (lit 2) / (lit 2 * fpow sp (lit 2)))) + rz
  let rs := fpow (fpow (fabs xb / rx) cperp + fpow (fabs yb / ry) cperp) (cpar / cperp) + fpow (fabs z / z0) cpar
  let rs := fpow rs (1 / cpar)
  j * fpow (fcosh (-rs)) (lit (-2))

/-- `LuminosityDensity_TriaxBar` and `CalculateTriaxRadiusSquared_simple`, `function_objects/func_triaxbar3d.cpp:185-196,227-253`, `helper_funcs_3d.cpp:106-109`. -/
def triaxDensity [FP α] [FM α] (c s j sigma q qz x y z : α) : α :=
  let p := objCoords c s x y z
  let xx := fabs p.1
  let ys := fabs (p.2.1 / q)
  let zs := fabs (p.2.2 / qz)
  j * fexp (-(xx * xx + ys * ys + zs * zs) / (lit 2 * sigma * sigma))

/-- `CalculateIntensity_BrokenExp`, `function_objects/func_bpbar3d.cpp:261-279`. -/
def brokenUnit [FP α] [FM α] (h1 h2 rb a r : α) : α :=
  let ex := (1 / a) * (1 / h1 - 1 / h2)
  let s := fpow (1 + fexp (-a * rb)) (-ex)
  let delta := rb / h2 - rb / h1
  if flt (lit 100) (a * (r - rb)) then s * fexp (delta - r / h2) else s * fexp (-r / h1) * fpow (1 + fexp (a * (r - rb))) ex

/-- `DoubleGaussian2D`, `function_objects/func_bpbar3d.cpp:282-292`. -/
def doubleGaussian [FP α] [FM α] (x y rmax two : α) : α :=
  fexp (-((x - rmax) * (x - rmax)) / two - y * y / two) + fexp (-((x + rmax) * (x + rmax)) / two - y * y / two)

/-- `LuminosityDensity_BPBar3D`, `function_objects/func_bpbar3d.cpp:301-349` with `Setup:193-196`. -/
def bpBarDensity [FP α] [FM α] (c s z0 qo jo h1 h2 rb a qb jb rmax zmax hb sigma x y z : α) : α :=
  let p := objCoords c s x y z
  let yo := p.2.1 / qo
  let ro := fsqrt (p.1 * p.1 + yo * yo)
  let outer := jo * brokenUnit h1 h2 rb a ro * fexp (-p.2.2 / z0)
  let yb := p.2.1 / qb
  let sc := zmax * doubleGaussian p.1 yb rmax (lit 2 * sigma * sigma)
  let zh := sc * z0
  let r := fsqrt (p.1 * p.1 + yb * yb)
  outer + (jb / sc) * fexp (-r / hb) * fexp (-p.2.2 / zh)

/-- The three-dimensional functions. -/
inductive LFun
  | expDisk
  | brokenDisk
  | ring
  | ferrers
  | peanut
  | triax
  | bpBar

/-- `N_PARAMS`: `func_expdisk3d.cpp:85`, `func_brokenexpdisk3d.cpp:61`, `func_gaussianring3d.cpp:64`, `func_ferrersbar3d.cpp:60`, `func_peanut_dattathri.cpp:55`,
`func_triaxbar3d.cpp:60`, `func_bpbar3d.cpp:86` (all in `function_objects/`). -/
def LFun.nPars : LFun → Nat
  | .expDisk => 6
  | .brokenDisk => 9
  | .ring => 8
  | .ferrers => 8
  | .peanut => 12
  | .triax => 7
  | .bpBar => 16

/-- `PARAM_LABELS`: `func_expdisk3d.cpp:86`, `func_brokenexpdisk3d.cpp:62-63`, `func_gaussianring3d.cpp:65`, `func_ferrersbar3d.cpp:61`,
`func_peanut_dattathri.cpp:56-57`, `func_triaxbar3d.cpp:61`, `func_bpbar3d.cpp:87-89` (all in `function_objects/`). -/
def LFun.labels : LFun → List String
  | .expDisk => ["PA", "inc", "J_0", "h", "n", "z_0"]
  | .brokenDisk => ["PA", "inc", "J_0", "h1", "h2", "r_break", "alpha", "n", "z_0"]
  | .ring => ["PA", "inc", "PA_ring", "ell", "J_0", "a_ring", "sigma", "h_z"]
  | .ferrers => ["PA", "inc", "barPA", "J_0", "R_bar", "q", "q_z", "n"]
  | .peanut => ["PA_lon", "inc", "barPA", "J0_bar", "R_bar_x", "q", "q_z", "R_peanut", "A_peanut", "sigma_peanut", "c_bar_par", "c_bar_perp"]
  | .triax => ["PA", "inc", "barPA", "J_0", "sigma", "q", "q_z"]
  | .bpBar => ["PA", "inclination", "barPA", "z_0", "ell_outer", "J_0_outer", "h1", "h2", "r_break", "alpha", "ell_bp", "J_0_bp", "h_bp", "r_bp_max", "z_bp_max",
      "sigma_bp"]

/-- The trigonometric part of every `Setup`, e.g. `function_objects/func_expdisk3d.cpp:150-167`; angles in degrees. -/
def losFn [FP α] [FM α] (pa inc x0 y0 limit : α) (dens : α → α → α → α) : LosFn α :=
  let rad := (pa + lit 90) * lit DEG2RAD
  let irad := inc * lit DEG2RAD
  ⟨x0, y0, fcos rad, fsin rad, fcos irad, fsin irad, limit, dens⟩

/-- `fmax` of `<math.h>`: a `nan` argument is ignored. -/
def cfmax [FP α] (a b : α) : α := if !fle a a then b else if !fle b b then a else if flt a b then b else a

/-- `std::max`. -/
def stdMax [FP α] (a b : α) : α := if flt a b then b else a

/-- `Setup` with the values read from the parameter vector, and the integration range set in `Setup` or at the end of `GetValue`:
`func_expdisk3d.cpp:149-172,215`, `func_brokenexpdisk3d.cpp:129-163,211`, `func_gaussianring3d.cpp:128-164,205`, `func_ferrersbar3d.cpp:125-166`,
`func_peanut_dattathri.cpp:125-157,205`, `func_triaxbar3d.cpp:104-130,175`, `func_bpbar3d.cpp:160-199` (all in `function_objects/`).
`TriaxBar3D` does not use the image description; `BPBar3D` does not convert `alpha`. -/
def LFun.build [FP α] [FM α] [FH α] (d : ImgDesc α) (x0 y0 : α) : LFun → List α → Res (LosFn α)
  | .expDisk, [pa, inc, j, h, n, z0] =>
    let h' := h * d.pixelScaling
    .ok (losFn (pa - d.imageRotation) inc x0 y0 (lit 20 * h') (expDiskDensity (j * d.intensityScale) h' n (z0 * d.pixelScaling)))
  | .brokenDisk, [pa, inc, j, h1, h2, rb, a, n, z0] =>
    let h2' := h2 * d.pixelScaling
    let rb' := rb * d.pixelScaling
    .ok (losFn (pa - d.imageRotation) inc x0 y0 (cfmax (lit 20 * rb') (lit 20 * h2'))
      (brokenDiskDensity (j * d.intensityScale) (h1 * d.pixelScaling) h2' rb' (a / d.pixelScaling) n (z0 * d.pixelScaling)))
  | .ring, [pa, inc, rpa, ell, j, a, sigma, hz] =>
    let a' := a * d.pixelScaling
    let rrad := (rpa + lit 90) * lit DEG2RAD
    .ok (losFn (pa - d.imageRotation) inc x0 y0 (lit 2 * a')
      (ringDensity (fcos rrad) (fsin rrad) (1 - ell) (j * d.intensityScale) a' (sigma * d.pixelScaling) (hz * d.pixelScaling)))
  | .ferrers, [pa, inc, bpa, j, rbar, q, qz, n] =>
    let r' := rbar * d.pixelScaling
    let brad := (bpa + lit 90) * lit DEG2RAD
    let a2 := r' * r'
    let b2 := q * q * a2
    .ok (losFn (pa - d.imageRotation) inc x0 y0 (lit (101 / 100) * stdMax (fsqrt b2 * fsin (inc * lit DEG2RAD)) r')
      (ferrersDensity (fcos brad) (fsin brad) (j * d.intensityScale) r' q qz n))
  | .peanut, [pa, inc, psi, j, rx, q, qz, rp, ap, sp, cpar, cperp] =>
    let rx' := rx * d.pixelScaling
    let prad := psi * lit DEG2RAD
    .ok (losFn (pa - d.imageRotation) inc x0 y0 (lit 10 * rx')
      (peanutDensity (fcos prad) (fsin prad) (j * d.intensityScale) rx' q qz (rp * d.pixelScaling) (ap * d.pixelScaling) (sp * d.pixelScaling) cpar cperp))
  | .triax, [pa, inc, bpa, j, sigma, q, qz] =>
    let brad := (bpa + lit 90) * lit DEG2RAD
    .ok (losFn pa inc x0 y0 (lit 2 * (lit 2 * sigma * sigma)) (triaxDensity (fcos brad) (fsin brad) j sigma q qz))
  | .bpBar, [pa, inc, bpa, z0, ello, jo, h1, h2, rb, a, ellb, jb, p12, p13, p14, sigma] =>
    let rb' := rb * d.pixelScaling
    let brad := (bpa + lit 90) * lit DEG2RAD
    .ok (losFn (pa - d.imageRotation) inc x0 y0 (lit 5 * rb')
      (bpBarDensity (fcos brad) (fsin brad) (z0 * d.pixelScaling) (1 - ello) (jo * d.intensityScale) (h1 * d.pixelScaling) (h2 * d.pixelScaling) rb' a (1 - ellb)
        (jb * d.intensityScale) (p12 * d.pixelScaling) (p13 * d.pixelScaling) (p14 * d.pixelScaling) (sigma * d.pixelScaling)))
  | _, _ => .error .oob

/-- `Setup`: reads `N_PARAMS` values from `params[offset …]` and prepares the function. -/
def LFun.setup [FP α] [FM α] [FH α] (F : LFun) (d : ImgDesc α) (params : List α) (offset : Nat) (x0 y0 : α) : Res (LosFn α) := do
  let p ← loopMap F.nPars fun i => rd params (offset + i)
  F.build d x0 y0 p

/-- `Setup` followed by `GetValue`. -/
def LFun.value [FP α] [FM α] [FH α] (integ : (α → α) → α → α → α) (F : LFun) (d : ImgDesc α) (params : List α) (offset : Nat) (x0 y0 x y : α) : Res α := do
  let f ← F.setup d params offset x0 y0
  pure (losValue integ f x y)

end Imfit
