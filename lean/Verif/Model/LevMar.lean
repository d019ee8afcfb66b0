import Verif.Model.Fit

/-!
# Levenberg-Marquardt

Model of `mpfit` and `mp_fdjac2` in `solvers/mpfit.cpp` and of `LevMarFit` in `solvers/levmar_fit.cpp`, with the configuration that `LevMarFit` passes
(no user scaling, no limit on the number of evaluations, `nprint` zero, finite check on, one-sided numerical derivatives).

* `dev` is the function evaluated by `myfunc_mpfit`: an arbitrary function from parameter vectors to vectors of deviates.
* The linear algebra (`mp_qrfac`, `mp_lmpar` and the products with the Jacobian in `mpfit.cpp:576-721` and `853-864`) is not modelled: whatever it hands back
  to the part modelled here comes from two streams, `outer` and `inner`, which are arbitrary. The values of the Jacobian are used by the linear algebra only,
  so they are left out; the points at which the Jacobian calls the objective are modelled.
* `trace` is not in the code: it records every vector at which the objective is evaluated; the flag tells whether it is for a derivative.
* `mp_covar` and the parameter errors are not modelled.
-/

namespace Imfit

/-- `mp_par`, the members that `LevMarFit` fills in. `core/param_struct.h:22-25`. -/
structure MPPar (α : Type) where
  fixed : Bool
  lim0 : Bool
  lim1 : Bool
  lo : α
  hi : α

/-- `qllim[j]`, `qulim[j]`, `llim[j]`, `ulim[j]` of one free parameter. -/
structure FreeLim (α : Type) where
  ql : Bool
  qu : Bool
  ll : α
  ul : α

/-- `mp_config`, the members that matter. -/
structure MPConf (α : Type) where
  ftol : α
  xtol : α
  gtol : α
  stepfactor : α
  maxiter : Nat

/-- What the linear algebra gives in one turn of the outer loop: is the reduced Jacobian finite, the norm of the scaled gradient, the norm of the scaled `x`. -/
structure OuterLA (α : Type) where
  finite : Bool
  gnorm : α
  xnorm : α

/-- What the linear algebra gives in one turn of the inner loop: the direction and the parameter of `mp_lmpar`, the norm of the scaled step, the norm of the
Jacobian times the step, the norm of the scaled new `x`; and whether the user has asked to stop. -/
structure InnerLA (α : Type) where
  dir : List α
  par : α
  pnorm : α
  jnorm : α
  xnorm : α
  stop : Bool

/-- The local variables of `mpfit` that change. -/
structure LMSt (α : Type) where
  x : List α
  xnew : List α
  fnorm : α
  fnorm1 : α
  gnorm : α
  delta : α
  par : α
  xnorm : α
  iter : Nat
  /-- turns of the two loops so far -/
  kOut : Nat
  kIn : Nat
  nfev : Nat
  trace : List (Bool × List α)

/-- What the caller of `mpfit` sees: the parameter vector, the returned status, and from `mp_result` the two statistics and the number of evaluations. -/
structure LMOut (α : Type) where
  xall : List α
  status : Int
  bestnorm : α
  orignorm : α
  nfev : Nat
  trace : List (Bool × List α)

/-- `solvers/mpfit.h:109-129` -/
def MP_ERR_NAN : Int := -16
def MP_ERR_NFREE : Int := -19
def MP_ERR_INITBOUNDS : Int := -21
def MP_ERR_BOUNDS : Int := -22
def MP_ERR_PARAM : Int := -23
def MP_ERR_DOF : Int := -24
def MP_OK_CHI : Int := 1
def MP_OK_PAR : Int := 2
def MP_OK_BOTH : Int := 3
def MP_OK_DIR : Int := 4
def MP_MAXITER : Int := 5
def MP_FTOL : Int := 6
def MP_XTOL : Int := 7
def MP_GTOL : Int := 8
def MP_SIGINT : Int := 100

/-- `MP_MACHEP0`, `solvers/mpfit.h:132`. -/
def MACHEP0 : ℚ := 22204460 / 10 ^ 23

section
variable {α : Type} [FP α]

/-- `mp_dmin1`, `solvers/mpfit.cpp:2080-2086`. -/
def dmin (a b : α) : α := if fle a b then a else b

/-- `mp_dmax1`, `solvers/mpfit.cpp:2072-2078`. -/
def dmax (a b : α) : α := if fle b a then a else b

/-- `a == b` -/
def feq (a b : α) : Bool := fle a b && fle b a

/-! ### Before the iteration -/

/-- `ifree`: the indices of the parameters that are not fixed. `solvers/mpfit.cpp:449-457`. -/
def freeIdx (pars : Option (List (MPPar α))) (npar : Nat) : List Nat :=
  match pars with
  | none => List.range npar
  | some ps => (List.range npar).filter fun i => match ps[i]? with | some p => !p.fixed | none => true

/-- The checks of one parameter. `solvers/mpfit.cpp:465-474`. -/
def checkPar (p : MPPar α) (x : α) : Option Int :=
  if !p.fixed && p.lim0 && p.lim1 && fle p.hi p.lo then some MP_ERR_BOUNDS
  else if (p.lim0 && flt x p.lo) || (p.lim1 && flt p.hi x) then some MP_ERR_INITBOUNDS
  else none

/-- The loop over the parameters that checks the starting values. `solvers/mpfit.cpp:464-475`. -/
def checkPars : List (MPPar α) → List α → Option Int
  | p :: ps, x :: xs => match checkPar p x with
    | some e => some e
    | none => checkPars ps xs
  | _, _ => none

/-- `qllim`, `qulim`, `llim`, `ulim`. `solvers/mpfit.cpp:477-488`. -/
def freeLims (pars : Option (List (MPPar α))) (fr : List Nat) : Res (List (FreeLim α)) :=
  match pars with
  | none => .ok []
  | some ps => loopMap fr.length fun i => do
    let k ← rd fr i
    let p ← rd ps k
    pure ⟨p.lim0, p.lim1, p.lo, p.hi⟩

/-- `qanylim`. `solvers/mpfit.cpp:487`. -/
def anyLim (lims : List (FreeLim α)) : Bool := lims.any fun l => l.ql || l.qu

/-- `conf.ftol <= 0 || ...`. `solvers/mpfit.cpp:492-497`. -/
def badConf (c : MPConf α) : Bool := fle c.ftol 0 || fle c.xtol 0 || fle c.gtol 0 || fle c.stepfactor 0

/-- `xnew[ifree[i]] = x[i]`. `solvers/mpfit.cpp:554-556`, `827-829`, `1004-1006`. -/
def scatter (fr : List Nat) (x xnew : List α) : Res (List α) :=
  forN fr.length xnew fun i v => do
    let k ← rd fr i
    let a ← rd x i
    wr v k a

/-! ### The points at which the Jacobian is evaluated -/

/-- `eps`, `solvers/mpfit.cpp:1194-1195` with `epsfcn` equal to `MP_MACHEP0`. -/
def fdEps : α := fsqrt (dmax (lit MACHEP0) (lit MACHEP0))

/-- The step `h` before its sign is chosen. `solvers/mpfit.cpp:1255-1258`. -/
def fdH (temp : α) : α :=
  let h := fdEps * fabs temp
  if feq h 0 then fdEps else h

/-- The step `h`. `solvers/mpfit.cpp:1255-1266`. -/
def fdStep (l : Option (FreeLim α)) (temp : α) : α :=
  let h : α := fdH temp
  match l with
  | some l => if l.qu && flt (l.ul - h) temp then -h else h
  | none => h

/-- The calls of the objective in `mp_fdjac2`. `solvers/mpfit.cpp:1240-1275`. -/
def fdPoints (fr : List Nat) (lims : List (FreeLim α)) (xnew : List α) : Res (List (List α)) :=
  loopMap fr.length fun j => do
    let k ← rd fr j
    let temp ← rd xnew k
    wr xnew k (temp + fdStep lims[j]? temp)

/-! ### The step that respects the limits -/

/-- A component of the step is set to zero if the parameter is at a limit and would leave it. `solvers/mpfit.cpp:770-775`. -/
def pegged (l : FreeLim α) (x w : α) : α :=
  let w1 := if (l.ql && fle x l.ll) && flt w 0 then 0 else w
  if (l.qu && fle l.ul x) && flt 0 w1 then 0 else w1

/-- The step is shortened so that it does not go beyond a limit; `w` is the component before, `w1` after `pegged`. `solvers/mpfit.cpp:772`, `777-782`. -/
def shorten (l : FreeLim α) (x w w1 alpha : α) : α :=
  let d := flt (lit MACHEP0) (fabs w)
  let a1 := if d && l.ql && flt (x + w1) l.ll then dmin alpha ((l.ll - x) / w1) else alpha
  if d && l.qu && flt l.ul (x + w1) then dmin a1 ((l.ul - x) / w1) else a1

/-- `ulim1`, `solvers/mpfit.cpp:796-798`. -/
def upperEdge (u : α) : α :=
  u * (1 - (if fle 0 u then 1 else -1) * lit MACHEP0) - (if feq u 0 then lit MACHEP0 else 0)

/-- `llim1`, `solvers/mpfit.cpp:797-799`. -/
def lowerEdge (l : α) : α :=
  l * (1 + (if fle 0 l then 1 else -1) * lit MACHEP0) + (if feq l 0 then lit MACHEP0 else 0)

/-- The new value is put onto the limit if it reaches it. `solvers/mpfit.cpp:801-806`. -/
def snap (l : FreeLim α) (w2 : α) : α :=
  let v := if l.qu && fle (upperEdge l.ul) w2 then l.ul else w2
  if l.ql && fle v (lowerEdge l.ll) then l.ll else v

/-- `wa2` and `alpha`: the new point and the fraction of the step taken. `solvers/mpfit.cpp:747-810`. -/
def newPoint (lims : List (FreeLim α)) (x dir : List α) : Res (List α × α) :=
  if anyLim lims then do
    let p ← loopAcc x.length (1 : α) fun j alpha => do
      let l ← rd lims j
      let xj ← rd x j
      let d ← rd dir j
      let w : α := -d
      let w1 := pegged l xj w
      pure (w1, shorten l xj w w1 alpha)
    let wa2 ← loopMap x.length fun j => do
      let l ← rd lims j
      let xj ← rd x j
      let w ← rd p.1 j
      pure (snap l (xj + w * p.2))
    pure (wa2, p.2)
  else do
    let wa2 ← loopMap x.length fun j => do
      let xj ← rd x j
      let d ← rd dir j
      pure (xj + -d)
    pure (wa2, 1)

/-! ### Judging the step -/

/-- `actred`. `solvers/mpfit.cpp:843-847`. -/
def actRed (fnorm fnorm1 : α) : α :=
  if flt (lit (1 / 10) * fnorm1) fnorm then 1 - (fnorm1 / fnorm) * (fnorm1 / fnorm) else -1

/-- `prered`, `dirder`. `solvers/mpfit.cpp:870-873`. -/
def preRed (la : InnerLA α) (alpha fnorm : α) : α × α :=
  let temp1 := la.jnorm * alpha / fnorm
  let temp2 := (fsqrt (alpha * la.par) * la.pnorm) / fnorm
  (temp1 * temp1 + (temp2 * temp2) / lit (1 / 2), -(temp1 * temp1 + temp2 * temp2))

/-- `ratio`. `solvers/mpfit.cpp:879-882`. -/
def gainRatio (actred prered : α) : α := if feq prered 0 then 0 else actred / prered

/-- The new `delta` and `par`. `solvers/mpfit.cpp:888-904`. -/
def updateDelta (actred dirder ratio fnorm fnorm1 pnorm delta par : α) : α × α :=
  if fle ratio (lit (1 / 4)) then
    let t0 : α := if fle 0 actred then lit (1 / 2) else lit (1 / 2) * dirder / (dirder + lit (1 / 2) * actred)
    let t : α := if fle fnorm (lit (1 / 10) * fnorm1) || flt t0 (lit (1 / 10)) then lit (1 / 10) else t0
    (t * dmin delta (pnorm / lit (1 / 10)), par / t)
  else if feq par 0 || fle (lit (3 / 4)) ratio then (pnorm / lit (1 / 2), lit (1 / 2) * par)
  else (delta, par)

/-- The conjunction tested for `MP_OK_CHI` and `MP_FTOL`. -/
def chiSmall (tol actred prered ratio : α) : Bool := fle (fabs actred) tol && fle prered tol && fle (lit (1 / 2) * ratio) 1

/-- `info` after the tests at the end of the inner loop; zero: go on. `solvers/mpfit.cpp:939-990`. -/
def infoAfter (c : MPConf α) (actred prered ratio delta xnorm gnorm : α) (iter : Nat) (stop : Bool) : Int :=
  let chi := chiSmall c.ftol actred prered ratio
  let i1 : Int := if chi then MP_OK_CHI else 0
  let i2 : Int := if fle delta (c.xtol * xnorm) then MP_OK_PAR else i1
  let i3 : Int := if chi && i2 == 2 then MP_OK_BOTH else i2
  if i3 != 0 then i3 else
  let j1 : Int := if stop then MP_SIGINT else 0
  let j2 : Int := if c.maxiter ≤ iter then MP_MAXITER else j1
  let j3 : Int := if chiSmall (lit MACHEP0) actred prered ratio then MP_FTOL else j2
  let j4 : Int := if fle delta (lit MACHEP0 * xnorm) then MP_XTOL else j3
  if fle gnorm (lit MACHEP0) then MP_GTOL else j4

/-- Where to go after the inner loop. -/
inductive LMNext where
  | stop (info : Int) | inner | outer

/-- `solvers/mpfit.cpp:988-996` -/
def lmNext (info : Int) (ratio : α) : LMNext :=
  if info ≠ 0 then .stop info else if flt ratio (lit (1 / 10000)) then .inner else .outer

/-- One turn of the inner loop. `solvers/mpfit.cpp:741-996`. -/
def innerTurn (dev : List α → List α) (c : MPConf α) (fr : List Nat) (lims : List (FreeLim α)) (la : InnerLA α) (s : LMSt α) :
    Res (LMSt α × LMNext) := do
  let p ← newPoint lims s.x la.dir
  let delta0 := if s.iter = 1 then dmin s.delta la.pnorm else s.delta
  let xnew ← scatter fr p.1 s.xnew
  let fnorm1 := mpEnorm (dev xnew)
  let actred := actRed s.fnorm fnorm1
  let pr := preRed la p.2 s.fnorm
  let ratio := gainRatio actred pr.1
  let dp := updateDelta actred pr.2 ratio s.fnorm fnorm1 la.pnorm delta0 la.par
  let good := fle (lit (1 / 10000)) ratio
  let s' : LMSt α :=
    { s with
      x := if good then p.1 else s.x
      xnew := xnew
      fnorm := if good then fnorm1 else s.fnorm
      fnorm1 := fnorm1
      delta := dp.1
      par := dp.2
      xnorm := if good then la.xnorm else s.xnorm
      iter := if good then s.iter + 1 else s.iter
      kIn := s.kIn + 1
      nfev := s.nfev + 1
      trace := s.trace ++ [(false, xnew)] }
  pure (s', lmNext (infoAfter c actred pr.1 ratio s'.delta s'.xnorm s.gnorm s'.iter la.stop) ratio)

/-- Leave before the inner loop? `solvers/mpfit.cpp:679-700`, `727-728`. -/
def outerExit (c : MPConf α) (la : OuterLA α) : Option Int :=
  if !la.finite then some MP_ERR_NAN else if fle la.gnorm c.gtol then some MP_OK_DIR else none

/-- The part of the outer loop before the inner loop. `solvers/mpfit.cpp:553-736`. The answer tells whether to leave through `CLEANUP` or `L300`. -/
def outerTurn (c : MPConf α) (fr : List Nat) (lims : List (FreeLim α)) (la : OuterLA α) (s : LMSt α) : Res (LMSt α × Option Int) := do
  let xnew ← scatter fr s.x s.xnew
  let pts ← fdPoints fr lims xnew
  let d0 := c.stepfactor * la.xnorm
  let s' : LMSt α :=
    { s with
      xnew := xnew
      gnorm := la.gnorm
      delta := if s.iter = 1 then (if feq d0 0 then c.stepfactor else d0) else s.delta
      xnorm := if s.iter = 1 then la.xnorm else s.xnorm
      kOut := s.kOut + 1
      nfev := s.nfev + fr.length
      trace := s.trace ++ pts.map fun v => (true, v) }
  pure (s', outerExit c la)

/-- The two loops. The second component is the final `info`. -/
def lmLoop (dev : List α → List α) (c : MPConf α) (fr : List Nat) (lims : List (FreeLim α)) (outer : Nat → OuterLA α) (inner : Nat → InnerLA α) :
    Nat → Bool → LMSt α → Res (LMSt α × Int)
  | 0, _, _ => .error .diverge
  | fuel + 1, true, s => do
    let r ← outerTurn c fr lims (outer s.kOut) s
    match r.2 with
    | some i => pure (r.1, i)
    | none => lmLoop dev c fr lims outer inner fuel false r.1
  | fuel + 1, false, s => do
    let r ← innerTurn dev c fr lims (inner s.kIn) s
    match r.2 with
    | .stop i => pure (r.1, i)
    | .inner => lmLoop dev c fr lims outer inner fuel false r.1
    | .outer => lmLoop dev c fr lims outer inner fuel true r.1

/-- Leaving `mpfit` through `CLEANUP`: nothing is written to the parameters, and `mp_result` keeps the zeros that `LevMarFit` put there.
`solvers/mpfit.cpp:1067`, `solvers/levmar_fit.cpp:96`. -/
def lmFail (xall : List α) (info : Int) (nfev : Nat) (trace : List (Bool × List α)) : LMOut α :=
  ⟨xall, info, 0, 0, nfev, trace⟩

/-- `L300`: the end of `mpfit`. `solvers/mpfit.cpp:998-1060`. -/
def lmFinish (fr : List Nat) (xall : List α) (orignorm : α) (s : LMSt α) (info : Int) : Res (LMOut α) := do
  let x ← scatter fr s.x xall
  let b := dmax s.fnorm s.fnorm1
  pure ⟨x, info, b * b, orignorm, s.nfev, s.trace⟩

/-- After the loops: `CLEANUP` or `L300`. -/
def lmLeave (fr : List Nat) (xall : List α) (orignorm : α) (r : LMSt α × Int) : Res (LMOut α) :=
  if r.2 = MP_ERR_NAN then .ok (lmFail xall r.2 0 r.1.trace) else lmFinish fr xall orignorm r.1 r.2

/-- The first evaluation, the loops, the end. `solvers/mpfit.cpp:519-1065`. -/
def lmIterate (dev : List α → List α) (c : MPConf α) (fr : List Nat) (lims : List (FreeLim α)) (outer : Nat → OuterLA α) (inner : Nat → InnerLA α)
    (fuel : Nat) (xall : List α) : Res (LMOut α) := do
  let fnorm := mpEnorm (dev xall)
  let x ← loopMap fr.length fun i => do
    let k ← rd fr i
    rd xall k
  let s : LMSt α :=
    { x := x, xnew := xall, fnorm := fnorm, fnorm1 := -1, gnorm := 0, delta := 0, par := 0, xnorm := 0, iter := 1, kOut := 0, kIn := 0,
      nfev := 1, trace := [(false, xall)] }
  let r ← lmLoop dev c fr lims outer inner fuel true s
  lmLeave fr xall (fnorm * fnorm) r

/-- The checks of the limits, if there are any. -/
def checkStart (pars : Option (List (MPPar α))) (xall : List α) : Option Int :=
  match pars with
  | none => none
  | some ps => checkPars ps xall

/-- `mpfit`, `solvers/mpfit.cpp:352-1100`; `m` is the number of deviates. -/
def mpfit (dev : List α → List α) (m : Nat) (c : MPConf α) (pars : Option (List (MPPar α))) (outer : Nat → OuterLA α) (inner : Nat → InnerLA α)
    (fuel : Nat) (xall : List α) : Res (LMOut α) :=
  let fr := freeIdx pars xall.length
  if fr = [] then .ok (lmFail xall MP_ERR_NFREE 0 []) else
  match checkStart pars xall with
  | some e => .ok (lmFail xall e 0 [])
  | none => do
    let lims ← freeLims pars fr
    if badConf c then pure (lmFail xall MP_ERR_PARAM 0 [])
    else if m < fr.length then pure (lmFail xall MP_ERR_DOF 0 [])
    else lmIterate dev c fr lims outer inner fuel xall

/-- The configuration that reaches the iteration: defaults of `mpfit.cpp:378-390` overwritten by `levmar_fit.cpp:98-101`. -/
def levMarConf (ftol : α) : MPConf α :=
  ⟨if flt 0 ftol then ftol else lit (1 / 10 ^ 10), lit (1 / 10 ^ 10), lit (1 / 10 ^ 10), lit 100, 1000⟩

/-- `LevMarFit`, `solvers/levmar_fit.cpp:69-117`. Without limits, a null pointer is passed. -/
def levMarFit (dev : List α → List α) (m : Nat) (ftol : α) (limitsExist : Bool) (pars : List (MPPar α)) (outer : Nat → OuterLA α)
    (inner : Nat → InnerLA α) (fuel : Nat) (xall : List α) : Res (LMOut α) :=
  mpfit dev m (levMarConf ftol) (if limitsExist then some pars else none) outer inner fuel xall

end

end Imfit
