import Verif.Model.BootErr

/-!
# Bootstrap errors of profile fits

Source: `profile_fitting/bootstrap_errors_1d.cpp`. The fits are an oracle, as in `Model/BootErr.lean`: the status and the parameters at the end of the `k`-th fit, which starts from the
parameters it is given. Printed text is represented by the numbers printed.
-/

namespace Imfit

variable {α : Type}

/-- `paramArray[i][nIter] = paramsVect[i]`. `profile_fitting/bootstrap_errors_1d.cpp:89-91`. -/
def storeFit1 (arr : List (List α)) (params : List α) (nParams k : Nat) : Res (List (List α)) :=
  forN nParams arr fun i a => do
    let p ← rd params i
    let row ← rd a i
    let row1 ← wr row k p
    wr a i row1

/-- The rounds: each fit starts from the best-fit parameters; its status is not looked at. `profile_fitting/bootstrap_errors_1d.cpp:79-92`. -/
def rounds1 [FP α] (fit : Nat → List α → FitOut α) (best : List α) (nParams nIter : Nat) : Res (List (List α)) :=
  forN nIter (List.replicate nParams (List.replicate nIter 0)) fun k arr => do
    let start ← loopMap nParams fun i => rd best i
    storeFit1 arr (fit k start).params nParams k

/-- The line of one parameter. `profile_fitting/bootstrap_errors_1d.cpp:106-124`. -/
def line1 [FP α] (best : List α) (arr : List (List α)) (limitsExist : Bool) (fixed : List Bool) (sig : List α) (n i : Nat) : Res (SumLine α) := do
  let isFixed ← if limitsExist then rd fixed i else .ok true
  let b ← rd best i
  let v ← rd arr i
  let s ← rd sig i
  summaryLine b v isFixed s n

/-- `BootstrapErrors` of `profilefit`. `profile_fitting/bootstrap_errors_1d.cpp:39-135`. -/
def bootstrapErrors1 [FP α] (fit : Nat → List α → FitOut α) (best : List α) (limitsExist : Bool) (fixed : List Bool) (nParams nIter : Nat) : Res (List (SumLine α)) := do
  let arr ← rounds1 fit best nParams nIter
  let sig ← loopMap nParams fun i => do
    let v ← rd arr i
    stdDev v nIter
  loopMap nParams fun i => line1 best arr limitsExist fixed sig nIter i

end Imfit
