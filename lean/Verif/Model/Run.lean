import Verif.Model.Output
import Verif.Model.Bootstrap

/-!
# A run of `imfit` after the set-up

Source: `core/imfit_main.cpp:360-478`, `core/print_results.cpp` (`PrintFitStatistic`, `SaveParameters`), and of `core/bootstrap_errors.cpp` what is done to the
model object. What a solver does to the object: a list of evaluations (deviates or statistic, and the parameters), after which it gives back parameters and a
status. `image p` is the model image for the parameters `p` (`Model/Image.lean`; C12 says when it depends on nothing else). The text of the files is in
`Model/Print.lean`; here a file of parameters is the vector and the number printed as best-fit value. Opening of files succeeds.
-/

namespace Imfit

variable {α : Type}

/-- The options that decide what is done. `boot` is the number of resamplings (`none` without `--bootstrap`), `params` is `saveBestFitParams`. -/
structure RunOpts where
  statOnly : Bool
  boot : Option Nat
  params : Bool
  model : Bool
  residual : Bool
  weight : Bool

/-- One evaluation a solver asks for. -/
structure Eval (α : Type) where
  deviates : Bool
  p : List α

/-- What a solver does: its evaluations, the parameters it leaves, whether it was interrupted. -/
structure Solve (α : Type) where
  evals : List (Eval α)
  result : List α
  interrupted : Bool

/-- What a run writes. `params`: parameters and best-fit value; `aside`: they go into the file for interrupted fits. -/
structure Saved (α : Type) where
  params : Option (List α × α)
  aside : Bool
  model : Option (List α)
  residual : Option (List α)
  weight : Option (List α)

section
variable [FP α]

/-- One evaluation, `core/model_object.cpp:1413-1496` or `1620-1775`: the object afterwards. -/
def evalOne (image : List α → List α) (s : MO α) (e : Eval α) : Res (MO α) :=
  if e.deviates then do
    let r ← computeDeviates (withModel s (image e.p))
    pure r.1
  else do
    let r ← getFitStatistic (withModel s (image e.p))
    pure r.1

/-- Evaluations one after the other. -/
def evalAll (image : List α → List α) : List (Eval α) → MO α → Res (MO α)
  | [], s => .ok s
  | e :: es, s => do
    let t ← evalOne image s e
    evalAll image es t

/-- The loop of `BootstrapErrorsBase`, `core/bootstrap_errors.cpp:196-237`: a new sample, then a fit. `fits k` are the evaluations of fit `k`. -/
def bootFits (image : List α → List α) (fits : Nat → List (Eval α)) (rng : Nat → Nat) (fuel : Nat) : Nat → MO α × Nat → Res (MO α × Nat)
  | 0, st => .ok st
  | n + 1, st => do
    let q ← bootFits image fits rng fuel n st
    let r ← makeBootstrapSample q.1 rng fuel q.2
    let t ← evalAll image (fits n) r.1
    pure (t, r.2)

/-- The object after `BootstrapErrors`, `core/bootstrap_errors.cpp:159-250`. Nothing turns the bootstrap mode off again. -/
def runBootstrap (image : List α → List α) (fits : Nat → List (Eval α)) (rng : Nat → Nat) (fuel : Nat) (n : Nat) (s : MO α) : Res (MO α) := do
  let u ← useBootstrap s rng fuel 0
  let r ← bootFits image fits rng fuel n u
  pure r.1

/-- Fit, or only the statistic; the object and the parameters afterwards, and whether the parameters are to be saved. `core/imfit_main.cpp:362-396`.
`PrintResults` does not evaluate the model (`recomputeStatistic` is false). -/
def fitPart (image : List α → List α) (o : RunOpts) (start : List α) (f : Solve α) (s : MO α) : Res (MO α × List α × Bool × Bool) :=
  if o.statOnly then do
    let r ← getFitStatistic (withModel s (image start))
    pure (r.1, start, false, false)
  else do
    let t ← evalAll image f.evals s
    pure (t, f.result, o.params, f.interrupted)

/-- Resampling, if asked for. `core/imfit_main.cpp:399-423`. -/
def bootPart (image : List α → List α) (o : RunOpts) (fits : Nat → List (Eval α)) (rng : Nat → Nat) (fuel : Nat) (interrupted : Bool) (s : MO α) : Res (MO α) :=
  match o.boot with
  | some (n + 1) => if interrupted then .ok s else runBootstrap image fits rng fuel (n + 1) s
  | _ => .ok s

/-- The parameters and the best-fit value, `core/imfit_main.cpp:428-441`, `core/print_results.cpp:222-291`. -/
def saveParamsPart (image : List α → List α) (save : Bool) (p : List α) (s : MO α) : Res (MO α × Option (List α × α)) :=
  if save then do
    let r ← getFitStatistic (withModel s (image p))
    pure (r.1, some (p, r.2))
  else .ok (s, none)

/-- An image that is asked for, and what is in the file; `SaveVectorAsImage` refuses the null pointer. -/
def savePart (want : Bool) (r : Req) (o : Out α) : Res (Out α × Option (List α)) :=
  if want then do
    let q ← serve o r
    match q.2 with
    | none => pure (q.1, none)
    | some b => pure (q.1, q.1.read b)
  else .ok (o, none)

/-- `main` from the fit to the end of output, `core/imfit_main.cpp:360-478`. -/
def runFit (image : List α → List α) (o : RunOpts) (start : List α) (f : Solve α) (fits : Nat → List (Eval α)) (rng : Nat → Nat) (fuel : Nat)
    (s : MO α) : Res (Saved α) := do
  let a ← fitPart image o start f s
  let b ← bootPart image o fits rng fuel a.2.2.2 a.1
  let c ← saveParamsPart image a.2.2.1 a.2.1 b
  let m ← savePart (o.model && !a.2.2.2) .model ⟨c.1, none, none, []⟩
  let r ← savePart (o.residual && !a.2.2.2) .residual m.1
  let w ← savePart (o.weight && !a.2.2.2) .weight r.1
  pure ⟨c.2, a.2.2.2, m.2, r.2, w.2⟩

end

end Imfit
