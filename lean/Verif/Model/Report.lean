import Verif.Model.Stats
import Verif.Model.DE
import Verif.Model.LevMar
import Verif.Model.Nlopt
import Verif.Model.PrintMulti

/-!
# What is reported after a fit

Source: `solvers/solver_results.cpp`, the ends of `LevMarFit`, `DiffEvolnFit`, `NMSimplexFit` and `NLOptFit`, and `PrintResults` (`core/print_results.cpp:70-156`). The words and the conversions of numbers are not
modelled, nor are the counts of parameters and iterations that `mpfit` reports. The parameters are printed by `PrintParameters` (`Model/Print.lean`); here there are the errors that are
printed with them.
-/

namespace Imfit

variable {α : Type}

/-- `WhichFitStatistic( )`, `core/model_object.cpp:1592-1612`. -/
inductive StatKind where
  | chi2
  | cash
  | mlr
  deriving DecidableEq

/-- `SolverResults`: type of solver, function evaluations, values of the statistic, `paramSigmas`, `mpResult`. `solvers/solver_results.cpp:31-58`. -/
structure SolverRes (α : Type) where
  solver : Int
  nEvals : Nat
  initial : α
  best : α
  sigmas : List α
  mpBest : α
  mpOrig : α

section
variable [FP α]

/-- The constructor: Levenberg-Marquardt is the default type. `solvers/solver_results.cpp:31-58`. -/
def SolverRes.fresh : SolverRes α := ⟨1, 0, 0, 0, [], 0, 0⟩

/-- `StoreErrors`, `solvers/solver_results.cpp:215-223`. -/
def storeErrors (res : SolverRes α) (errors : List α) (n : Nat) : Res (SolverRes α) := do
  let s ← loopMap n fun i => rd errors i
  .ok { res with sigmas := s }

/-- `npar` in `mp_result`: `mpfit` sets it only if it does not fail. `solvers/mpfit.cpp:1049-1058`, `solvers/levmar_fit.cpp:96`. -/
def reportedPars (r : LMOut α) : Nat := if r.status < 0 then 0 else r.xall.length

/-- The end of `LevMarFit`, with `AddMPResults`. `solvers/levmar_fit.cpp:106-110`, `solvers/solver_results.cpp:91-115`. -/
def noteLevMar (res : SolverRes α) (r : LMOut α) (xerror : List α) : Res (SolverRes α) :=
  storeErrors { res with solver := 1, nEvals := r.nfev, initial := r.orignorm, best := r.bestnorm, mpBest := r.bestnorm, mpOrig := r.orignorm } xerror (reportedPars r)

/-- The end of `DiffEvolnFit`. Without limits it returns before the results are noted. `solvers/diff_evoln_fit.cpp:141-147, 163-169`. -/
def noteDiffEvoln (res : SolverRes α) (r : DEFit α) : SolverRes α :=
  match r.best, r.nEvals with
  | some e, some k => { res with solver := 2, nEvals := k, best := e }
  | _, _ => res

/-- The ends of `NMSimplexFit` (`solver` is 3) and `NLOptFit` (5); the latter stores nothing if it does not know the name. `solvers/nmsimplex_fit.cpp:231-236`, `solvers/nlopt_fit.cpp:324-329`,
`core/definitions.h:67-71`. -/
def noteNlopt (solver : Int) (res : SolverRes α) (f : NLFit α) : SolverRes α :=
  match f.stored with
  | some s => { res with solver := solver, nEvals := s.nEvals, initial := s.initial, best := s.best }
  | none => res

/-- The numbers that are printed. `errs`: errors of the parameters (only after Levenberg-Marquardt), `initial`: value at the start (likewise). -/
structure Report (α : Type) where
  kind : StatKind
  value : α
  initial : Option α
  nEvals : Nat
  reduced : Option α
  aic : α
  bic : α
  errs : Option (List α)

/-- `PrintResults`, `core/print_results.cpp:70-156`, with `recomputeStatistic = false`; the null pointers that it asks for do not occur. `nValid`: pixels, `nFree`: free parameters, `nParams`:
parameters. `none`: nothing is printed. -/
def printResults (kind : StatKind) (nValid nFree : Int) (nParams : Nat) (status : Int) (res : SolverRes α) : Res (Option (Report α)) :=
  if res.solver = 1 then do
    let errs ← errorsFor nParams res.sigmas
    .ok (some ⟨kind, res.mpBest, some res.mpOrig, res.nEvals, if kind = .cash then none else some (res.mpBest / lit ((nValid - nFree : Int) : ℚ)),
      aicCorrected res.mpBest nFree nValid true, Imfit.bic res.mpBest nFree nValid true, some errs⟩)
  else if status < 1 then .ok none
  else .ok (some ⟨kind, res.best, none, res.nEvals, if kind = .cash then none else some (res.best / lit ((nValid - nFree : Int) : ℚ)),
    aicCorrected res.best nFree nValid true, Imfit.bic res.best nFree nValid true, none⟩)

/-- Fit with Levenberg-Marquardt, and report. `core/imfit_main.cpp:385-396`. -/
def reportLevMar (kind : StatKind) (nValid nFree : Int) (nParams : Nat) (r : LMOut α) (xerror : List α) : Res (Option (Report α)) := do
  let res ← noteLevMar SolverRes.fresh r xerror
  printResults kind nValid nFree nParams r.status res

/-- Fit with differential evolution, and report. `core/imfit_main.cpp:385-396`. -/
def reportDiffEvoln (kind : StatKind) (nValid nFree : Int) (nParams : Nat) (r : DEFit α) : Res (Option (Report α)) :=
  printResults kind nValid nFree nParams r.status (noteDiffEvoln SolverRes.fresh r)

/-- Fit with an algorithm of the NLopt library, and report. `core/imfit_main.cpp:385-396`. -/
def reportNlopt (solver : Int) (kind : StatKind) (nValid nFree : Int) (nParams : Nat) (f : NLFit α) : Res (Option (Report α)) :=
  printResults kind nValid nFree nParams f.status (noteNlopt solver SolverRes.fresh f)

end

end Imfit
