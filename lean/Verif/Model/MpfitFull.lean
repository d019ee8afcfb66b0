import Verif.Model.Jacobian

/-!
# `mpfit` with its linear algebra

`Model/LevMar.lean` takes the results of the linear algebra as sequences. Here they are computed from the deviates, as in `solvers/mpfit.cpp:519-1006`:
Jacobian, columns of parameters at limits, factorisation, gradient, scaling, Levenberg-Marquardt parameter, step, norms. `diag[ifree[j]]` is written as a
function of `j`. The work arrays `wa1` to `wa4` are given to `mp_lmpar` and to the loop over `wa3` as zeros: they are overwritten there before they are read.
-/

namespace Imfit

section
variable {α : Type} [FP α]

/-- The variables of `mpfit` with the arrays: state of the loops, `fvec`, `diag`, the triangle in `fjac`, `ipvt`, `qtf`. -/
structure FullSt (α : Type) where
  s : LMSt α
  fvec : List α
  diag : ℕ → α
  r : Arr2 α
  ipvt : ℕ → ℕ
  qtf : ℕ → α

/-- `diag` in the first iteration. `solvers/mpfit.cpp:620-628`. -/
def firstDiag (acnorm : ℕ → α) : ℕ → α := fun j => if feq (acnorm j) 0 then 1 else acnorm j

/-- The test of the square part of `fjac`. `solvers/mpfit.cpp:680-700`. -/
def allFinite (n : Nat) (r : Arr2 α) : Bool := (List.range n).all fun j => (List.range n).all fun i => FP.isfin (r i j)

/-- What the outer loop gets from the linear algebra, and the arrays it leaves. `x` holds the free parameters. `solvers/mpfit.cpp:605-736`. -/
def outerArrays (m : Nat) (jac : List (List α)) (st : FullSt α) : OuterLA α × FullSt α :=
  let n := jac.length
  let a := ofColumns jac
  let q := qrfac m n a
  let ac := (qrInit m a).rdiag
  let d := if st.s.iter = 1 then firstDiag ac else st.diag
  let r := setDiag q.a q.rdiag
  let qtf := (qtfLoop m n q.a (ofEntries st.fvec)).2
  (⟨allFinite n r, gradNorm n r q.ipvt qtf ac st.s.fnorm, vecNorm n fun j => d j * ofEntries st.s.x j⟩,
    { st with diag := fun j => dmax (d j) (ac j), r := r, ipvt := q.ipvt, qtf := qtf })

/-- The outer loop up to the inner loop. `solvers/mpfit.cpp:553-736`. -/
def outerFull (dev : List α → List α) (m : Nat) (c : MPConf α) (fr : List Nat) (lims : List (FreeLim α)) (st : FullSt α) : Res (FullSt α × Option Int) := do
  let xnew ← scatter fr st.s.x st.s.xnew
  let jac ← fdJac dev fr lims m xnew st.fvec
  let jac' ← pegJac m lims st.s.x st.fvec jac
  let la := outerArrays m jac' st
  let r ← outerTurn c fr lims la.1 st.s
  pure ({ la.2 with s := r.1 }, r.2)

/-- `wa1` when the step has been fitted into the limits: the step taken. `solvers/mpfit.cpp:752-757`, `758-783`, `791`. -/
def takenStep (lims : List (FreeLim α)) (x dir : List α) : Res (List α) :=
  if anyLim lims then do
    let p ← loopAcc x.length (1 : α) fun j alpha => do
      let l ← rd lims j
      let xj ← rd x j
      let d ← rd dir j
      let w1 := pegged l xj (-d)
      pure (w1, shorten l xj (-d) w1 alpha)
    loopMap x.length fun j => do
      let w ← rd p.1 j
      pure (w * p.2)
  else loopMap x.length fun j => do
    let d ← rd dir j
    pure (-d)

/-- The inner loop up to the test of the step: direction, step, norms. `solvers/mpfit.cpp:741-816`, `853-873`, `912-919`. -/
def innerArrays (lims : List (FreeLim α)) (stop : Bool) (st : FullSt α) : Res (InnerLA α × Arr2 α) := do
  let n := st.s.x.length
  let out := lmpar n st.r st.ipvt st.diag st.qtf st.s.delta st.s.par (fun _ => 0) (fun _ => 0)
  let dir := (List.range n).map out.2.1
  let step ← takenStep lims st.s.x dir
  let p ← newPoint lims st.s.x dir
  pure (stepLA n out.2.2 st.ipvt st.diag (ofEntries step) (fun _ => 0) out.1 (vecNorm n fun j => st.diag j * ofEntries p.1 j) dir stop, out.2.2)

/-- One turn of the inner loop. `solvers/mpfit.cpp:741-996`. -/
def innerFull (dev : List α → List α) (c : MPConf α) (fr : List Nat) (lims : List (FreeLim α)) (stop : Bool) (st : FullSt α) :
    Res (FullSt α × LMNext) := do
  let la ← innerArrays lims stop st
  let r ← innerTurn dev c fr lims la.1 st.s
  pure ({ st with s := r.1, r := la.2, fvec := if r.1.iter = st.s.iter then st.fvec else dev r.1.xnew }, r.2)

/-- The two loops. `stop k`: has the user asked to stop by the end of turn `k` of the inner loop? -/
def fullLoop (dev : List α → List α) (m : Nat) (c : MPConf α) (fr : List Nat) (lims : List (FreeLim α)) (stop : Nat → Bool) :
    Nat → Bool → FullSt α → Res (LMSt α × Int)
  | 0, _, _ => .error .diverge
  | fuel + 1, true, st => do
    let r ← outerFull dev m c fr lims st
    match r.2 with
    | some i => pure (r.1.s, i)
    | none => fullLoop dev m c fr lims stop fuel false r.1
  | fuel + 1, false, st => do
    let r ← innerFull dev c fr lims (stop st.s.kIn) st
    match r.2 with
    | .stop i => pure (r.1.s, i)
    | .inner => fullLoop dev m c fr lims stop fuel false r.1
    | .outer => fullLoop dev m c fr lims stop fuel true r.1

/-- The first evaluation, the loops, the end. `solvers/mpfit.cpp:519-1065`. -/
def fullIterate (dev : List α → List α) (m : Nat) (c : MPConf α) (fr : List Nat) (lims : List (FreeLim α)) (stop : Nat → Bool)
    (fuel : Nat) (xall : List α) : Res (LMOut α) := do
  let fnorm := mpEnorm (dev xall)
  let x ← loopMap fr.length fun i => do
    let k ← rd fr i
    rd xall k
  let s : LMSt α :=
    { x := x, xnew := xall, fnorm := fnorm, fnorm1 := -1, gnorm := 0, delta := 0, par := 0, xnorm := 0, iter := 1, kOut := 0, kIn := 0,
      nfev := 1, trace := [(false, xall)] }
  let r ← fullLoop dev m c fr lims stop fuel true ⟨s, dev xall, fun _ => 0, fun _ _ => 0, fun _ => 0, fun _ => 0⟩
  lmLeave fr xall (fnorm * fnorm) r

/-- `mpfit`, `solvers/mpfit.cpp:352-1100`; `m` is the number of deviates. -/
def mpfitFull (dev : List α → List α) (m : Nat) (c : MPConf α) (pars : Option (List (MPPar α))) (stop : Nat → Bool) (fuel : Nat) (xall : List α) :
    Res (LMOut α) :=
  let fr := freeIdx pars xall.length
  if fr = [] then .ok (lmFail xall MP_ERR_NFREE 0 []) else
  match checkStart pars xall with
  | some e => .ok (lmFail xall e 0 [])
  | none => do
    let lims ← freeLims pars fr
    if badConf c then pure (lmFail xall MP_ERR_PARAM 0 [])
    else if m < fr.length then pure (lmFail xall MP_ERR_DOF 0 [])
    else fullIterate dev m c fr lims stop fuel xall

/-- `LevMarFit`, `solvers/levmar_fit.cpp:69-117`. -/
def levMarFull (dev : List α → List α) (m : Nat) (ftol : α) (limitsExist : Bool) (pars : List (MPPar α)) (stop : Nat → Bool) (fuel : Nat) (xall : List α) :
    Res (LMOut α) :=
  mpfitFull dev m (levMarConf ftol) (if limitsExist then some pars else none) stop fuel xall

end

end Imfit
