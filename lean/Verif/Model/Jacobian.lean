import Verif.Model.LinAlg

/-!
# The Jacobian of `mpfit`

`mp_fdjac2` (`solvers/mpfit.cpp:1102-1350`) as `mpfit` is called here: no analytical derivatives, no debugging, `dside`, `step` and `dstep` zero
(`solvers/levmar_fit.cpp`), one-sided differences; the part of `mpfit` that clears columns of parameters at their limits (575-598); the norm of
the scaled gradient computed from the factorisation (625-720). Columns are lists. The function that is fitted fills all of `wa`, which has `m` elements.
-/

namespace Imfit

section
variable {α : Type} [FP α]

/-- The largest `int`. -/
def INT_MAX32 : Nat := 2147483647

/-- `fjac[ij] = (wa[i] - fvec[i])/h`. `solvers/mpfit.cpp:1291-1296`. -/
def fdColumn (m : Nat) (fvec wa : List α) (h : α) : Res (List α) :=
  loopMap m fun i => do
    let w ← rd wa i
    let f ← rd fvec i
    pure ((w - f) / h)

/-- The column of one free parameter. `solvers/mpfit.cpp:1254-1296`. -/
def fdOne (dev : List α → List α) (fr : List Nat) (lims : List (FreeLim α)) (m : Nat) (xnew fvec : List α) (j : Nat) : Res (List α) := do
  let k ← rd fr j
  let temp ← rd xnew k
  let h := fdStep lims[j]? temp
  let p ← wr xnew k (temp + h)
  fdColumn m fvec (dev p) h

/-- `mp_fdjac2`. The product `n*m` of two `int`, the bound of the first loop, must not overflow (1198; the same product bounds a loop when the
array is made, 510). `solvers/mpfit.cpp:1102-1350`. -/
def fdJac (dev : List α → List α) (fr : List Nat) (lims : List (FreeLim α)) (m : Nat) (xnew fvec : List α) : Res (List (List α)) :=
  if INT_MAX32 < fr.length * m then .error .overflow else loopMap fr.length (fdOne dev fr lims m xnew fvec)

/-- The sum over `fvec[i] * fjac[ij]`. `solvers/mpfit.cpp:584-587`. -/
def pegSum (m : Nat) (fvec col : List α) : Res α :=
  forN m (0 : α) fun i s => do
    let f ← rd fvec i
    let c ← rd col i
    pure (s + f * c)

/-- The column of a parameter that may be at a limit. `solvers/mpfit.cpp:579-596`. -/
def pegColumn (m : Nat) (l : FreeLim α) (x : α) (fvec col : List α) : Res (List α) := do
  let lp := l.ql && feq x l.ll
  let up := l.qu && feq x l.ul
  let sum ← if lp || up then pegSum m fvec col else pure 0
  let c1 := if lp && flt 0 sum then List.replicate m 0 else col
  pure (if up && flt sum 0 then List.replicate m 0 else c1)

/-- The columns after the search for parameters at their limits. `solvers/mpfit.cpp:575-598`. -/
def pegJac (m : Nat) (lims : List (FreeLim α)) (x fvec : List α) (jac : List (List α)) : Res (List (List α)) :=
  if anyLim lims then
    loopMap jac.length fun j => do
      let l ← rd lims j
      let xj ← rd x j
      let col ← rd jac j
      pegColumn m l xj fvec col
  else pure jac

/-- `fjac[i + m*j]` for an array given by its columns. -/
def ofColumns (jac : List (List α)) : Arr2 α := fun i j => ((jac[j]?).bind fun c => c[i]?).getD 0

/-- A vector given by a list. -/
def ofEntries (v : List α) : Nat → α := fun i => (v[i]?).getD 0

/-- `gnorm` from the Jacobian and the deviates: factorisation, product of `Q` transposed and the deviates, norm. `acnorm` holds the norms of the columns
before the factorisation. `solvers/mpfit.cpp:621-720`. -/
def scaledGradient (m n : Nat) (a : Arr2 α) (w : Nat → α) : α :=
  let q := qrfac m n a
  gradNorm n (setDiag q.a q.rdiag) q.ipvt (qtfLoop m n q.a w).2 (qrInit m a).rdiag (vecNorm m w)

end

end Imfit
