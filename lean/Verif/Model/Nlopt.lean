import Verif.Model.DE

/-!
# The interfaces to the NLopt library

Source: `solvers/nmsimplex_fit.cpp`, `solvers/nlopt_fit.cpp`. The two files differ only in names, in the choice of the algorithm and in the text printed.
The library itself is a parameter (`NLopt`): a rule that, from the bounds, the starting point, the limit on the number of evaluations and what it has
seen so far, either asks for another evaluation or stops with a status, a point and a value. Printed text and tolerances are not modelled; the call
counter is a natural number.
-/

namespace Imfit

/-- What the library does next. -/
inductive NLStep (α : Type)
  | eval (x : List α)
  | stop (status : Int) (x : List α) (minf : α)

/-- `nlopt_optimize` with its settings: lower and upper bounds, start, `maxeval`, points evaluated so far with their values (oldest first), and
whether `nlopt_force_stop` has been called. -/
abbrev NLopt (α : Type) := List α → List α → List α → Nat → List (List α × α) → Bool → NLStep α

section
variable {α : Type} [FP α]

/-- Bounds handed to the library for one parameter. `solvers/nmsimplex_fit.cpp:181-194`, `solvers/nlopt_fit.cpp:278-291`; `huge` is `HUGE_VAL`. -/
def nlBounds (huge : α) (v : α) (l : DELim α) : α × α :=
  if l.fixed then (v, v)
  else if l.limited0 && l.limited1 then (l.lim0, l.lim1)
  else (-huge, huge)

/-- The loop over the parameters. -/
def nlBoundArrays (huge : α) (nParams : Nat) (params : List α) (lims : List (DELim α)) : Res (List (α × α)) :=
  loopMap nParams fun i => do
    let l ← rd lims i
    let v ← rd params i
    pure (nlBounds huge v l)

/-- What a run of the library leaves behind: status, point, value, points evaluated, and the module variable `funcCallCount`. -/
structure NLEnd (α : Type) where
  status : Int
  x : List α
  minf : α
  hist : List (List α × α)
  count : Nat

/-- `nlopt_optimize` calling `myfunc_nlopt` (`solvers/nmsimplex_fit.cpp:86-121`, `solvers/nlopt_fit.cpp:114-149`); `sig n` tells whether the stop signal has
arrived by the `n`-th evaluation of this run. -/
def nlRun (opt : NLopt α) (lo hi x0 : List α) (maxEval : Nat) (stat : List α → α) (sig : Nat → Bool) :
    Nat → List (List α × α) → Bool → Nat → Res (NLEnd α)
  | 0, _, _, _ => .error .diverge
  | fuel + 1, hist, forced, count =>
    match opt lo hi x0 maxEval hist forced with
    | .stop st x f => .ok ⟨st, x, f, hist, count⟩
    | .eval x =>
      let v := stat x
      nlRun opt lo hi x0 maxEval stat sig fuel (hist ++ [(x, v)]) (forced || !fle v v || sig hist.length) (count + 1)

/-- What is stored in `SolverResults`. -/
structure NLStored (α : Type) where
  nEvals : Nat
  best : α
  initial : α

/-- Result of a fit: return value, `paramVector` afterwards, stored results, counter afterwards, points evaluated. -/
structure NLFit (α : Type) where
  status : Int
  params : List α
  stored : Option (NLStored α)
  count : Nat
  hist : List (List α × α)

/-- `NMSimplexFit`, `solvers/nmsimplex_fit.cpp:167-243`, with results requested; `count` is the module variable `funcCallCount` before the call. -/
def nmSimplexFit (opt : NLopt α) (huge : α) (nParams : Nat) (params : List α) (lims : List (DELim α)) (stat : List α → α) (sig : Nat → Bool)
    (fuel count : Nat) : Res (NLFit α) := do
  let b ← nlBoundArrays huge nParams params lims
  let e ← nlRun opt (b.map Prod.fst) (b.map Prod.snd) params (nParams * 10000) stat sig fuel [] false count
  pure ⟨e.status, e.x, some ⟨e.count, e.minf, stat params⟩, e.count, e.hist⟩

/-- The algorithms of `PopulateAlgorithmMap`, `solvers/nlopt_fit.cpp:87-95`. -/
def nloptNames : List (List Char) :=
  [['C', 'O', 'B', 'Y', 'L', 'A'], ['B', 'O', 'B', 'Y', 'Q', 'A'], ['N', 'E', 'W', 'U', 'O', 'A'], ['P', 'R', 'A', 'X', 'I', 'S'], ['N', 'M'],
    ['S', 'B', 'P', 'L', 'X']]

/-- `ValidNLOptSolverName`, `solvers/nlopt_fit.cpp:98-108`. -/
def validNLOptSolverName (name : List Char) : Bool := nloptNames.contains name

/-- `NLOptFit`, `solvers/nlopt_fit.cpp:249-336`: `opts` gives the library's algorithm for a name. -/
def nlOptFit (opts : List Char → NLopt α) (huge : α) (nParams : Nat) (params : List α) (lims : List (DELim α)) (name : List Char) (stat : List α → α)
    (sig : Nat → Bool) (fuel count : Nat) : Res (NLFit α) :=
  if nloptNames.contains name then nmSimplexFit (opts name) huge nParams params lims stat sig fuel count
  else .ok ⟨-1, params, none, count, []⟩

/-- A sequence of runs in one process: the counter is passed on. Each run has its own starting values and data. -/
def nlRuns (opt : NLopt α) (huge : α) (nParams : Nat) (sig : Nat → Bool) (fuel : Nat) :
    List (List α × List (DELim α) × (List α → α)) → Nat → Res (List (NLFit α))
  | [], _ => .ok []
  | r :: rs, count => do
    let f ← nmSimplexFit opt huge nParams r.1 r.2.1 r.2.2 sig fuel count
    let fs ← nlRuns opt huge nParams sig fuel rs f.count
    pure (f :: fs)

end

end Imfit
