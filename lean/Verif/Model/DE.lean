import Verif.Model.XR
import Verif.Model.Loop

/-!
# Differential evolution

Model of `solvers/DESolver.cpp` and `solvers/diff_evoln_fit.cpp`. The random generator is an arbitrary stream `rng` of 32-bit integers (the generator itself is
in `Model/Twister.lean`); `genrand_real1` divides by 2³² - 1. The objective is an arbitrary function. `trace` is not in the code: it records, for every
evaluation, the vector and the value of `bestEnergy` afterwards.
-/

namespace Imfit

/-- The mutation rules of the ten strategies; each comes with exponential or binomial crossover. `solvers/DESolver.h:25-34`. -/
inductive DEBase where
  | best1 | rand1 | randToBest1 | best2 | rand2
  deriving DecidableEq

/-- Members set by the constructor and by `Setup`. -/
structure DECfg (α : Type) where
  nDim : Nat
  nPop : Nat
  base : DEBase
  bin : Bool
  scale : α
  prob : α
  tol : α
  lo : List α
  hi : List α
  /-- conversion `(int)x`; undefined behaviour if it does not fit -/
  toInt : α → Res Int

/-- Members that change during `Solve`. -/
structure DESt (α : Type) where
  pop : List α
  popE : List α
  trial : List α
  best : List α
  bestE : α
  pos : Nat
  trace : List (List α × α)

section
variable {α : Type} [FP α]

/-- `genrand_real1()` for the 32-bit integer drawn. `core/mersenne_twister.cpp:157-161`. -/
def unif (rng : Nat → Nat) (p : Nat) : α := lit (rng p : ℚ) * (1 / lit 4294967295)

/-- `RandomUniform`, `solvers/DESolver.cpp:566-573`. -/
def randUniform (u lo hi : α) : α := lo + u * (hi - lo)

/-- `Element(population,r,n)`. `solvers/DESolver.cpp:49`. -/
def elem (c : DECfg α) (pop : List α) (r n : Int) : Res α := rdI pop (r * c.nDim + n)

/-- One `do ... while` loop of `SelectSamples`. `solvers/DESolver.cpp:531-560`. -/
def pickSample (c : DECfg α) (rng : Nat → Nat) (excl : List Int) : Nat → Nat → Res (Int × Nat)
  | 0, _ => .error .diverge
  | fuel + 1, p => do
    let r ← c.toInt (randUniform (unif rng p) 0 (lit (c.nPop : ℚ)))
    if r ∈ excl then pickSample c rng excl fuel (p + 1) else .ok (r, p + 1)

/-- `SelectSamples` for `k` samples. `solvers/DESolver.cpp:528-561`. -/
def selectSamples (c : DECfg α) (rng : Nat → Nat) (fuel : Nat) : Nat → List Int → Nat → Res (List Int × Nat)
  | 0, _, p => .ok ([], p)
  | k + 1, excl, p => do
    let r ← pickSample c rng excl fuel p
    let q ← selectSamples c rng fuel k (r.1 :: excl) r.2
    .ok (r.1 :: q.1, q.2)

/-- Number of samples of a strategy. -/
def nSamples : DEBase → Nat
  | .best1 => 2
  | .rand1 => 3
  | .randToBest1 => 2
  | .best2 => 4
  | .rand2 => 5

/-- The value given to `trialSolution[n]`. `solvers/DESolver.cpp:327-329, 347-349, 367-369, 387-391, 409-413` (and the same in the binomial versions). -/
def newValue (c : DECfg α) (st : DESt α) (rs : List Int) (n : Int) : Res α :=
  match c.base with
  | .best1 => do
    let r1 ← rd rs 0; let r2 ← rd rs 1
    let b ← rdI st.best n
    let a1 ← elem c st.pop r1 n; let a2 ← elem c st.pop r2 n
    .ok (b + c.scale * (a1 - a2))
  | .rand1 => do
    let r1 ← rd rs 0; let r2 ← rd rs 1; let r3 ← rd rs 2
    let a1 ← elem c st.pop r1 n; let a2 ← elem c st.pop r2 n; let a3 ← elem c st.pop r3 n
    .ok (a1 + c.scale * (a2 - a3))
  | .randToBest1 => do
    let r1 ← rd rs 0; let r2 ← rd rs 1
    let t ← rdI st.trial n
    let b ← rdI st.best n
    let a1 ← elem c st.pop r1 n; let a2 ← elem c st.pop r2 n
    .ok (t + (c.scale * (b - t) + c.scale * (a1 - a2)))
  | .best2 => do
    let r1 ← rd rs 0; let r2 ← rd rs 1; let r3 ← rd rs 2; let r4 ← rd rs 3
    let b ← rdI st.best n
    let a1 ← elem c st.pop r1 n; let a2 ← elem c st.pop r2 n; let a3 ← elem c st.pop r3 n; let a4 ← elem c st.pop r4 n
    .ok (b + c.scale * (a1 + a2 - a3 - a4))
  | .rand2 => do
    let r1 ← rd rs 0; let r2 ← rd rs 1; let r3 ← rd rs 2; let r4 ← rd rs 3; let r5 ← rd rs 4
    let a1 ← elem c st.pop r1 n; let a2 ← elem c st.pop r2 n; let a3 ← elem c st.pop r3 n; let a4 ← elem c st.pop r4 n
    let a5 ← elem c st.pop r5 n
    .ok (a1 + c.scale * (a2 + a3 - a4 - a5))

/-- `trialSolution[n] = ...`. -/
def mutate (c : DECfg α) (rs : List Int) (n : Int) (st : DESt α) : Res (DESt α) := do
  let v ← newValue c st rs n
  let t ← wrI st.trial n v
  .ok { st with trial := t }

/-- The loop of the exponential crossover; the first argument is `nDim - i`. `solvers/DESolver.cpp:326-331`. -/
def expLoop (c : DECfg α) (rng : Nat → Nat) (rs : List Int) : Nat → Int → DESt α → Res (DESt α)
  | 0, _, st => .ok { st with pos := st.pos + 1 }
  | left + 1, n, st =>
    if flt (randUniform (unif rng st.pos) 0 1) c.prob then do
      let st1 ← mutate c rs n { st with pos := st.pos + 1 }
      expLoop c rng rs left ((n + 1) % c.nDim) st1
    else .ok { st with pos := st.pos + 1 }

/-- The loop of the binomial crossover; the first argument is `nDim - i`. `solvers/DESolver.cpp:428-434`. -/
def binLoop (c : DECfg α) (rng : Nat → Nat) (rs : List Int) : Nat → Int → DESt α → Res (DESt α)
  | 0, _, st => .ok st
  | left + 1, n, st =>
    if flt (randUniform (unif rng st.pos) 0 1) c.prob ∨ left = 0 then do
      let st1 ← mutate c rs n { st with pos := st.pos + 1 }
      binLoop c rng rs left ((n + 1) % c.nDim) st1
    else binLoop c rng rs left ((n + 1) % c.nDim) { st with pos := st.pos + 1 }

def crossover (c : DECfg α) (rng : Nat → Nat) (rs : List Int) (n : Int) (st : DESt α) : Res (DESt α) :=
  if c.bin then binLoop c rng rs c.nDim n st else expLoop c rng rs c.nDim n st

/-- `RowVector(population, candidate)`, copied. -/
def rowOf (c : DECfg α) (pop : List α) (k : Nat) : Res (List α) := loopMap c.nDim fun j => rd pop (k * c.nDim + j)

/-- `CalcTrialSolution` and the strategies, `solvers/DESolver.cpp:162-206, 317-525`. -/
def calcTrial (c : DECfg α) (rng : Nat → Nat) (fuel k : Nat) (st : DESt α) : Res (DESt α) := do
  let s ← selectSamples c rng fuel (nSamples c.base) [(k : Int)] st.pos
  let n ← c.toInt (randUniform (unif rng s.2) 0 (lit (c.nDim : ℚ)))
  let t ← rowOf c st.pop k
  crossover c rng s.1 n { st with trial := t, pos := s.2 + 1 }

/-- Below the lower bound: a random place between the bound and the old value. `solvers/DESolver.cpp:231-232`. -/
def repairLo (rng : Nat → Nat) (l o : α) (q : α × Nat) : α × Nat :=
  if flt q.1 l then (l + randUniform (unif rng q.2) 0 1 * (o - l), q.2 + 1) else q

/-- Above the upper bound. `solvers/DESolver.cpp:233-234`. -/
def repairHi (rng : Nat → Nat) (h o : α) (q : α × Nat) : α × Nat :=
  if flt h q.1 then (h - randUniform (unif rng q.2) 0 1 * (h - o), q.2 + 1) else q

/-- Bringing the trial vector within the bounds, `solvers/DESolver.cpp:228-235`. -/
def repair (c : DECfg α) (rng : Nat → Nat) (old : List α) (st : DESt α) : Res (DESt α) := do
  let p ← loopAcc c.nDim st.pos fun j pos => do
    let t ← rd st.trial j
    let l ← rd c.lo j
    let h ← rd c.hi j
    let o ← rd old j
    .ok (repairHi rng h o (repairLo rng l o (t, pos)))
  .ok { st with trial := p.1, pos := p.2 }

/-- `CopyVector(RowVector(population,candidate), trialSolution)`. -/
def putRow (c : DECfg α) (k : Nat) (v pop : List α) : Res (List α) :=
  forN c.nDim pop fun j pop => do
    let x ← rd v j
    wr pop (k * c.nDim + j) x

/-- A new best value is kept. `solvers/DESolver.cpp:245-248`. -/
def keepBest (e : α) (st : DESt α) : DESt α :=
  if flt e st.bestE then { st with bestE := e, best := st.trial } else st

/-- Evaluation of the trial vector, and what follows. `solvers/DESolver.cpp:237-250`. -/
def accept (c : DECfg α) (energy : List α → α) (k : Nat) (st : DESt α) : Res (DESt α) := do
  let old ← rd st.popE k
  if flt (energy st.trial) old then do
    let pe ← wr st.popE k (energy st.trial)
    let pop ← putRow c k st.trial st.pop
    .ok (keepBest (energy st.trial) { st with popE := pe, pop := pop })
  else .ok st

/-- Record the evaluation. -/
def note (v : List α) (st : DESt α) : DESt α := { st with trace := st.trace ++ [(v, st.bestE)] }

/-- One candidate. `solvers/DESolver.cpp:221-251`. -/
def oneCandidate (c : DECfg α) (rng : Nat → Nat) (fuel : Nat) (energy : List α → α) (k : Nat) (st : DESt α) : Res (DESt α) := do
  let st1 ← calcTrial c rng fuel k st
  let old ← rowOf c st1.pop k
  let st2 ← repair c rng old st1
  let st3 ← accept c energy k st2
  .ok (note st2.trial st3)

/-- One generation. -/
def oneGeneration (c : DECfg α) (rng : Nat → Nat) (fuel : Nat) (energy : List α → α) (st : DESt α) : Res (DESt α) :=
  forN c.nPop st fun k st => oneCandidate c rng fuel energy k st

/-- `relativeDeltas` and `lastBestEnergy`. -/
structure DEConv (α : Type) where
  d0 : α
  d1 : α
  d2 : α
  last : α

/-- The bookkeeping at every tenth generation, `solvers/DESolver.cpp:264-295`. -/
def updateConv (g : Nat) (bestE : α) (v : DEConv α) : DEConv α :=
  if g % 10 = 0 then
    if g = 20 then { v with d0 := fabs (1 - v.last / bestE), last := bestE }
    else if g = 30 then { v with d1 := v.d0, d0 := fabs (1 - v.last / bestE), last := bestE }
    else if g ≥ 40 then { d2 := v.d1, d1 := v.d0, d0 := fabs (1 - v.last / bestE), last := bestE }
    else { v with last := bestE }
  else v

/-- `TestConverged`, at generation `g`. `solvers/DESolver.cpp:288, 579-586`. -/
def converged (g : Nat) (tol : α) (v : DEConv α) : Bool :=
  decide (g % 10 = 0) && decide (g ≥ 40) && (flt v.d0 tol && flt v.d1 tol && flt v.d2 tol)

/-- What `Solve` returns: the status and `generations`, with the state. -/
structure DEOut (α : Type) where
  status : Int
  generations : Nat
  st : DESt α

/-- The generations that are left, from generation `g` on; `sig g` says that the user stopped the program. `solvers/DESolver.cpp:219-305`. -/
def generationsLoop (c : DECfg α) (rng : Nat → Nat) (fuel : Nat) (energy : List α → α) (sig : Nat → Bool) : Nat → Nat → DEConv α → DESt α → Res (DEOut α)
  | 0, g, _, st => .ok ⟨5, g, st⟩
  | left + 1, g, v, st => do
    let st1 ← oneGeneration c rng fuel energy st
    if sig g then .ok ⟨100, g, st1⟩
    else if converged g c.tol (updateConv g st1.bestE v) then .ok ⟨1, g, st1⟩
    else generationsLoop c rng fuel energy sig left (g + 1) (updateConv g st1.bestE v) st1

/-- `Solve`, `solvers/DESolver.cpp:209-306`. -/
def solve (c : DECfg α) (rng : Nat → Nat) (fuel : Nat) (energy : List α → α) (sig : Nat → Bool) (maxGen : Nat) (st : DESt α) : Res (DEOut α) :=
  generationsLoop c rng fuel energy sig maxGen 0 ⟨lit 100, lit 100, lit 100, lit (10 ^ 20)⟩ { st with bestE := lit (10 ^ 20) }

/-- The first population, uniform sampling. `solvers/DESolver.cpp:147-151`. -/
def uniformPop (nDim nPop : Nat) (lo hi : List α) (rng : Nat → Nat) (p : Nat) : Res (List α) :=
  loopMap (nPop * nDim) fun z => do
    let l ← rd lo (z % nDim)
    let h ← rd hi (z % nDim)
    .ok (randUniform (unif rng (p + z)) l h)

/-- The first population, Latin hypercube sampling; `perm j` is the shuffled list of sample numbers of parameter `j`. `solvers/DESolver.cpp:134-142`. -/
def lhsPop (nDim nPop : Nat) (lo hi : List α) (perm : Nat → List Nat) (rng : Nat → Nat) (p : Nat) : Res (List α) :=
  loopMap (nPop * nDim) fun z => do
    let off ← rd (perm (z % nDim)) (z / nDim)
    let l ← rd lo (z % nDim)
    let h ← rd hi (z % nDim)
    .ok (l + (lit (off : ℚ) + unif rng (p + z)) * ((h - l) / lit (nPop : ℚ)))

/-- The first population. -/
def firstPop (c : DECfg α) (lhs : Option (Nat → List Nat)) (rng : Nat → Nat) : Res (List α) :=
  match lhs with
  | none => uniformPop c.nDim c.nPop c.lo c.hi rng 0
  | some perm => lhsPop c.nDim c.nPop c.lo c.hi perm rng 0

/-- The members after `Setup` (with `trialSolution` as allocated). `solvers/DESolver.cpp:95-158`. -/
def deSetup (c : DECfg α) (lhs : Option (Nat → List Nat)) (rng : Nat → Nat) (trial0 : List α) : Res (DESt α) := do
  let pop ← firstPop c lhs rng
  .ok ⟨pop, List.replicate c.nPop (lit (10 ^ 20)), trial0, List.replicate c.nDim 0, 0, c.nPop * c.nDim, []⟩

/-- Limits of a parameter as DE uses them: its own value twice if fixed, its limits if there are two. `solvers/diff_evoln_fit.cpp:118-139`. -/
structure DELim (α : Type) where
  fixed : Bool
  limited0 : Bool
  limited1 : Bool
  lim0 : α
  lim1 : α

def deLimits (v : α) (l : DELim α) : Option (α × α) :=
  if l.fixed then some (v, v) else if l.limited0 && l.limited1 then some (l.lim0, l.lim1) else none

/-- What `DiffEvolnFit` leaves behind. -/
structure DEFit (α : Type) where
  status : Int
  params : List α
  /-- `StoreBestfitStatisticValue`, `StoreNFunctionEvals` -/
  best : Option α
  nEvals : Option Nat
  trace : List (List α × α)

/-- Minimum and maximum values, or nothing if limits are missing. -/
def deBounds : List (α × DELim α) → Option (List α × List α)
  | [] => some ([], [])
  | p :: ps =>
    match deLimits p.1 p.2, deBounds ps with
    | some b, some bs => some (b.1 :: bs.1, b.2 :: bs.2)
    | _, _ => none

/-- `DiffEvolnFit`, `solvers/diff_evoln_fit.cpp:101-175`: strategy RandToBest1Exp, F = 0.7, CR = 1, 8 members per free parameter, 600 generations. -/
def diffEvolnFit (toInt : α → Res Int) (params : List α) (lims : List (DELim α)) (tol : α) (rng : Nat → Nat) (lhs : Option (Nat → List Nat)) (fuel : Nat)
    (energy : List α → α) (sig : Nat → Bool) (trial0 : List α) : Res (DEFit α) :=
  match deBounds (params.zip lims) with
  | none => .ok ⟨-2, params, none, none, []⟩
  | some b => do
    let c : DECfg α := ⟨params.length, 8 * (lims.filter fun l => !l.fixed).length, .randToBest1, false, lit (7 / 10), 1, tol, b.1, b.2, toInt⟩
    let st ← deSetup c lhs rng trial0
    let r ← solve c rng fuel energy sig 600 st
    .ok ⟨r.status, r.st.best, some r.st.bestE, some (r.generations * c.nPop), r.st.trace⟩

end

/-- `(int)x` in exact arithmetic: truncation; undefined for numbers that are not finite or too large. -/
noncomputable def XR.toInt : XR → Res Int
  | .fin r => if r ≤ -2147483649 ∨ 2147483648 ≤ r then .error .overflow else .ok (if 0 ≤ r then ⌊r⌋ else ⌈r⌉)
  | _ => .error .overflow

end Imfit
