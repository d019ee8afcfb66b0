import Verif.Model.MpfitFull
import Verif.Model.Nlopt

/-!
# The choice of the solver

Source: `solvers/dispatch_solver.cpp`. The solvers are those of `Model/MpfitFull`, `Model/DE` and `Model/Nlopt`. What they get from outside (deviates and fit statistic of the
model object, signals, random numbers, NLopt library) is a parameter. Printing is not modelled.
-/

namespace Imfit

/-- What the solvers use. -/
structure SolverEnv (α : Type) where
  /-- deviates, and their number -/
  dev : List α → List α
  nDev : Nat
  /-- `GetFitStatistic` -/
  stat : List α → α
  /-- stop signals in the inner loop of `mpfit`, at generations, at evaluations -/
  stop : Nat → Bool
  sig : Nat → Bool
  /-- random numbers; permutations for Latin hypercube sampling -/
  rng : Nat → Nat
  perm : Nat → List Nat
  toInt : α → Res Int
  /-- contents of the new array `trialSolution` -/
  trial0 : List α
  /-- algorithms of NLopt; `HUGE_VAL`; calls counted so far -/
  opts : List Char → NLopt α
  huge : α
  count : Nat
  fuel : Nat

/-- Return value, values of the parameters afterwards, and the values for which the model has been computed. -/
structure Fitted (α : Type) where
  status : Int
  params : List α
  tried : List (List α)

section
variable {α : Type} [FP α]

/-- Members of `mp_par`, as `Model/DE` and `Model/Nlopt` have them. -/
def MPPar.toDE (p : MPPar α) : DELim α := ⟨p.fixed, p.lim0, p.lim1, p.lo, p.hi⟩

/-- `LevMarFit`, as seen from `DispatchToSolver`. -/
def byLevMar (E : SolverEnv α) (params : List α) (info : List (MPPar α)) (tol : α) (limitsExist : Bool) : Res (Fitted α) := do
  let r ← levMarFull E.dev E.nDev tol limitsExist info E.stop E.fuel params
  .ok ⟨r.status, r.xall, r.trace.map Prod.snd⟩

/-- `DiffEvolnFit`. -/
def byDiffEvoln (E : SolverEnv α) (params : List α) (info : List (MPPar α)) (tol : α) (useLHS : Bool) : Res (Fitted α) := do
  let r ← diffEvolnFit E.toInt params (info.map MPPar.toDE) tol E.rng (if useLHS then some E.perm else none) E.fuel E.stat E.sig E.trial0
  .ok ⟨r.status, r.params, r.trace.map Prod.fst⟩

/-- `NMSimplexFit`. -/
def bySimplex (E : SolverEnv α) (params : List α) (info : List (MPPar α)) : Res (Fitted α) := do
  let r ← nmSimplexFit (E.opts ['N', 'M']) E.huge params.length params (info.map MPPar.toDE) E.stat E.sig E.fuel E.count
  .ok ⟨r.status, r.params, r.hist.map Prod.fst⟩

/-- `NLOptFit`. -/
def byNLOpt (E : SolverEnv α) (params : List α) (info : List (MPPar α)) (name : List Char) : Res (Fitted α) := do
  let r ← nlOptFit E.opts E.huge params.length params (info.map MPPar.toDE) name E.stat E.sig E.fuel E.count
  .ok ⟨r.status, r.params, r.hist.map Prod.fst⟩

/-- `DispatchToSolver`. `solvers/dispatch_solver.cpp:48-88`; numbers of the solvers in `core/definitions.h`. -/
def dispatchToSolver (E : SolverEnv α) (solverID : Int) (params : List α) (info : List (MPPar α)) (tol : α) (limitsExist : Bool) (name : List Char) (useLHS : Bool) :
    Res (Fitted α) :=
  if solverID = 1 then byLevMar E params info tol limitsExist
  else if solverID = 2 then byDiffEvoln E params info tol useLHS
  else if solverID = 3 then bySimplex E params info
  else if solverID = 5 then byNLOpt E params info name
  else .ok ⟨-100, params, []⟩

end

end Imfit
