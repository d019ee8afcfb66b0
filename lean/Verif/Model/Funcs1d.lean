import Verif.Model.Plane
import Verif.Model.LevMar

/-!
# The functions of the profile-fitting program

Source: `function_objects_1d/func1d_*.cpp`, `function_objects/function_object.cpp:84-89`.

`Setup( params, offsetIndex, xc )` followed by `GetValue( x )`. All but the spline are here; they have no state other than the values set by `Setup`, and `ZP`, set by
`SetZeroPoint`. The decimal constants are the exact decimal numbers of the source. `sqrt(2)`, `sqrt(6)`, `sqrt(24)` are calls of `sqrt` with exact arguments.
-/

namespace Imfit

variable {α : Type}

/-- The functions offered by `profile_fitting/add_functions_1d.cpp:89-155`, without `Spline1D`, and without
`DoubleGaussHermite1D`, whose source is not in the repository. -/
inductive Fun1
  | exponential
  | sersic
  | coreSersic
  | brokenExponential
  | moffat
  | gaussian
  | linearGaussian
  | gaussian2Side
  | gaussHermite
  | sech
  | sech2
  | vdkSech
  | nuker
  | delta
  | majMin
  | majMin2
  | majMinCirc
deriving DecidableEq

/-- `N_PARAMS` of each function. -/
def Fun1.nPars : Fun1 → Nat
  | .exponential | .gaussian | .linearGaussian | .sech | .sech2 => 2
  | .sersic | .moffat | .gaussian2Side | .vdkSech => 3
  | .gaussHermite => 4
  | .brokenExponential | .nuker => 5
  | .coreSersic => 6
  | .delta => 1
  | .majMin => 13
  | .majMin2 => 15
  | .majMinCirc => 12

/-- `pow(10.0, 0.4*(ZP - mu))`, e.g. `function_objects_1d/func1d_exp.cpp:69`. -/
def magFlux [FP α] [FM α] (zp mu : α) : α := fpow (lit 10) (lit (4 / 10) * (zp - mu))

/-- The `b_n` of the one-dimensional functions: one formula for all n. `function_objects_1d/func1d_sersic.cpp:69-74`, `func1d_core-sersic.cpp:73-78`. -/
def bn1d [FP α] (n : α) : α :=
  let n2 := n * n
  lit 2 * n - lit (333333333333333 / 10 ^ 15) + lit (9876543209876543 / 10 ^ 18) / n + lit (18028610621203215 / 10 ^ 19) / n2
    + lit (11409410586365319 / 10 ^ 20) / (n2 * n) - lit (71510122958919723 / 10 ^ 21) / (n2 * n2)

/-- `func1d_exp.cpp:75-81`. -/
def exp1d [FP α] [FM α] (i0 h r : α) : α := i0 * fexp (-r / h)

/-- `func1d_sersic.cpp:82-89`. -/
def sersic1d [FP α] [FM α] (n ie re r : α) : α := ie * fexp (-(bn1d n) * (fpow (r / re) (1 / n) - 1))

/-- `func1d_core-sersic.cpp:71-97`. -/
def coreSersic1d [FP α] [FM α] (n ib re rb a g r : α) : α :=
  let bn := bn1d n
  let i' := ib * fpow (lit 2) (-g / a) * fexp (bn * fpow (fpow (lit 2) (1 / a) * rb / re) (1 / n))
  let r := clampR r
  let power := fpow (1 + fpow (rb / r) a) (g / a)
  let ex := fexp (-bn * fpow ((fpow r a + fpow rb a) / fpow re a) (1 / (a * n)))
  i' * power * ex

/-- `func1d_broken-exp.cpp:70-94`; the same text in `func1d_n1543majmin.cpp:97-99,124-130`. -/
def broken1d [FP α] [FM α] (i0 h1 h2 rb a r : α) : α :=
  let ex := (1 / a) * (1 / h1 - 1 / h2)
  let s := fpow (1 + fexp (-a * rb)) (-ex)
  if flt (lit 100) (a * (r - rb)) then i0 * s * fexp (rb / h2 - rb / h1 - r / h2)
  else i0 * s * fexp (-r / h1) * fpow (1 + fexp (a * (r - rb))) ex

/-- `func1d_moffat.cpp:74-89`. -/
def moffat1d [FP α] [FM α] (i0 fwhm beta r : α) : α :=
  let alpha := lit (1 / 2) * fwhm / fsqrt (fpow (lit 2) (1 / beta) - 1)
  let s := r / alpha
  i0 / fpow (1 + s * s) beta

/-- `func1d_gaussian.cpp:77-79`. -/
def gauss1d [FP α] [FM α] (i0 sigma r : α) : α :=
  let s := r / sigma
  i0 * fexp (-(s * s) / lit 2)

/-- `func1d_gauss-hermite.cpp:69-86`: `dx` is the signed distance from the centre. -/
def gaussHermite1d [FP α] [FM α] (a sigma h3 h4 dx : α) : α :=
  let d := dx / fabs sigma
  let d2 := d * d
  let g : α := 1
  let g := if feq h3 0 then g else g + (lit 2 * fsqrt (lit 2) * d * d2 - lit 3 * fsqrt (lit 2) * d) / fsqrt (lit 6)
  let g := if feq h4 0 then g else g + (lit 4 * d2 * d2 - lit 12 * d2 + lit 3) / fsqrt (lit 24)
  g * (a * fexp (-(lit (1 / 2)) * d2))

/-- `func1d_sech.cpp:72-75`. -/
def sech1d [FP α] [FH α] (i0 h r : α) : α := i0 * (1 / fcosh (r / h))

/-- `func1d_sech2.cpp:72-75`. -/
def sech21d [FP α] [FH α] (i0 h r : α) : α :=
  let s := 1 / fcosh (r / h)
  i0 * s * s

/-- `func1d_vdksech.cpp:66-80`; `i` is `pow(10.0, 0.4*(ZP - mu_0))`. -/
def vdkSech1d [FP α] [FM α] [FH α] (i z0 alpha z : α) : α :=
  let i0 := fpow (lit 2) (-alpha) * i
  let s := 1 / fcosh (z / (alpha * z0))
  i0 * fpow s alpha

/-- `func1d_nuker.cpp:75-97`. -/
def nuker1d [FP α] [FM α] (ib rb a b g r : α) : α :=
  let ex := (b - g) / a
  let i' := ib * fpow (lit 2) ex
  let r := clampR r
  i' * fpow (rb / r) g * fpow (1 + fpow (r / rb) a) (-ex)

/-- `Setup` of a function: reads its parameters and returns `GetValue`. -/
def Fun1.setup [FP α] [FM α] [FH α] (zp : α) (params : List α) (o : Nat) (x0 : α) : Fun1 → Res (α → α)
  | .exponential => do
    let mu ← rd params o
    let h ← rd params (o + 1)
    pure fun x => exp1d (magFlux zp mu) h (fabs (x - x0))
  | .sersic => do
    let n ← rd params o
    let mu ← rd params (o + 1)
    let re ← rd params (o + 2)
    pure fun x => sersic1d n (magFlux zp mu) re (fabs (x - x0))
  | .coreSersic => do
    let n ← rd params o
    let mu ← rd params (o + 1)
    let re ← rd params (o + 2)
    let rb ← rd params (o + 3)
    let a ← rd params (o + 4)
    let g ← rd params (o + 5)
    pure fun x => coreSersic1d n (magFlux zp mu) re rb a g (fabs (x - x0))
  | .brokenExponential => do
    let mu ← rd params o
    let h1 ← rd params (o + 1)
    let h2 ← rd params (o + 2)
    let rb ← rd params (o + 3)
    let a ← rd params (o + 4)
    pure fun x => broken1d (magFlux zp mu) h1 h2 rb a (fabs (x - x0))
  | .moffat => do
    let mu ← rd params o
    let fw ← rd params (o + 1)
    let b ← rd params (o + 2)
    pure fun x => moffat1d (magFlux zp mu) fw b (fabs (x - x0))
  | .gaussian => do
    let mu ← rd params o
    let s ← rd params (o + 1)
    pure fun x => gauss1d (magFlux zp mu) s (fabs (x - x0))
  | .linearGaussian => do
    let i0 ← rd params o
    let s ← rd params (o + 1)
    pure fun x => gauss1d i0 s (fabs (x - x0))
  | .gaussian2Side => do
    let mu ← rd params o
    let sl ← rd params (o + 1)
    let sr ← rd params (o + 2)
    pure fun x => gauss1d (magFlux zp mu) (if flt (x - x0) 0 then sl else sr) (fabs (x - x0))
  | .gaussHermite => do
    let a ← rd params o
    let s ← rd params (o + 1)
    let h3 ← rd params (o + 2)
    let h4 ← rd params (o + 3)
    pure fun x => gaussHermite1d a s h3 h4 (x - x0)
  | .sech => do
    let mu ← rd params o
    let h ← rd params (o + 1)
    pure fun x => sech1d (magFlux zp mu) h (fabs (x - x0))
  | .sech2 => do
    let mu ← rd params o
    let h ← rd params (o + 1)
    pure fun x => sech21d (magFlux zp mu) h (fabs (x - x0))
  | .vdkSech => do
    let mu ← rd params o
    let z0 ← rd params (o + 1)
    let a ← rd params (o + 2)
    pure fun x => vdkSech1d (magFlux zp mu) z0 a (fabs (x - x0))
  | .nuker => do
    let a ← rd params o
    let b ← rd params (o + 1)
    let g ← rd params (o + 2)
    let rb ← rd params (o + 3)
    let mu ← rd params (o + 4)
    pure fun x => nuker1d (magFlux zp mu) rb a b g (fabs (x - x0))
  | .delta => do
    let i ← rd params o
    pure fun x => if feq x x0 then i else 0
  | .majMin => do
    let n ← rd params o
    let mue ← rd params (o + 1)
    let remaj ← rd params (o + 2)
    let remin ← rd params (o + 3)
    let mub ← rd params (o + 4)
    let h1 ← rd params (o + 5)
    let h2 ← rd params (o + 6)
    let rb ← rd params (o + 7)
    let a ← rd params (o + 8)
    let mud ← rd params (o + 9)
    let hmaj ← rd params (o + 10)
    let hmin ← rd params (o + 11)
    let sb ← rd params (o + 12)
    pure fun x =>
      let r := fabs (x - x0)
      if flt x 0 then 0 + sersic1d n (magFlux zp mue) remin r + exp1d (magFlux zp mud) hmin r + gauss1d (magFlux zp mub) sb r
      else 0 + sersic1d n (magFlux zp mue) remaj r + exp1d (magFlux zp mud) hmaj r + broken1d (magFlux zp mub) h1 h2 rb a r
  | .majMin2 => do
    let n ← rd params o
    let mue ← rd params (o + 1)
    let remaj ← rd params (o + 2)
    let remin ← rd params (o + 3)
    let mub ← rd params (o + 4)
    let h1 ← rd params (o + 5)
    let h2 ← rd params (o + 6)
    let rb ← rd params (o + 7)
    let a ← rd params (o + 8)
    let mud ← rd params (o + 9)
    let hmaj ← rd params (o + 10)
    let hmin ← rd params (o + 11)
    let sb ← rd params (o + 12)
    let mun ← rd params (o + 13)
    let sn ← rd params (o + 14)
    pure fun x =>
      let r := fabs (x - x0)
      if flt x 0 then 0 + sersic1d n (magFlux zp mue) remin r + exp1d (magFlux zp mud) hmin r + gauss1d (magFlux zp mub) sb r
      else 0 + sersic1d n (magFlux zp mue) remaj r + exp1d (magFlux zp mud) hmaj r + broken1d (magFlux zp mub) h1 h2 rb a r + gauss1d (magFlux zp mun) sn r
  | .majMinCirc => do
    let n ← rd params o
    let mue ← rd params (o + 1)
    let re ← rd params (o + 2)
    let mub ← rd params (o + 3)
    let h1 ← rd params (o + 4)
    let h2 ← rd params (o + 5)
    let rb ← rd params (o + 6)
    let a ← rd params (o + 7)
    let mud ← rd params (o + 8)
    let hmaj ← rd params (o + 9)
    let hmin ← rd params (o + 10)
    let sb ← rd params (o + 11)
    pure fun x =>
      let r := fabs (x - x0)
      if flt x 0 then 0 + sersic1d n (magFlux zp mue) re r + exp1d (magFlux zp mud) hmin r + gauss1d (magFlux zp mub) sb r
      else 0 + sersic1d n (magFlux zp mue) re r + exp1d (magFlux zp mud) hmaj r + broken1d (magFlux zp mub) h1 h2 rb a r

/-- `Setup` followed by `GetValue`. -/
def Fun1.value [FP α] [FM α] [FH α] (F : Fun1) (zp : α) (params : List α) (o : Nat) (x0 x : α) : Res α := do
  let f ← F.setup zp params o x0
  pure (f x)

end Imfit
