import Verif.Model.XR
import Verif.Model.Loop

/-!
# The Markov-chain sampler of imfit-mcmc

Model of `cdream/` (`dream.cpp`, `dream_initialize.cpp`, `gen_CR.cpp`, `check_outliers.cpp`, `gelman_rubin.cpp`, `restore_state.cpp`, `dream_pars.cpp`) and of
the way `core/mcmc_main.cpp` sets it up.

* The random generator is an arbitrary `Rng`: a state and one function for each kind of draw (`cdream/include/rng/GSLStream.h`).
* The GSL statistics functions are fields of `Gsl`.
* The arrays `state` and `lik` are allocated with `malloc`: a cell is `none` until it is written, and using a cell that is `none` is `Fault.uninit`. The three
  indices of `state` are reduced to two, the third (the parameter) indexes the vector stored in the cell; the vector is always written as a whole.
* The likelihood is a function of the parameter vector (`LikelihoodFuncForDREAM` ignores chain and generation, `core/mcmc_main.cpp:1008-1019`).
* `calls` and `out` are not variables of the code: `calls` records the vectors for which the likelihood is computed, `out` what is written to the files.
* Not modelled: messages, the count of accepted steps and of likelihood calls, `df` and `varVhat` in `gelman_rubin` (used only if `adjustDF` is set, which no
  caller does).
-/

namespace Imfit

/-- The random generator, `cdream/include/rng/GSLStream.h`. -/
structure Rng (σ α : Type) where
  /-- `gsl_rng_uniform` -/
  unif : σ → α × σ
  /-- `gsl_rng_uniform_int(n)` for `0 < n` -/
  uint : Nat → σ → Nat × σ
  /-- `gsl_ran_gaussian(sigma)` -/
  gauss : α → σ → α × σ
  /-- the rearrangement done by `gsl_ran_shuffle` of `n` items: the new item `k` is the old item `(perm n s).1[k]` -/
  perm : Nat → σ → List Nat × σ
  /-- `gsl_ran_multinomial(K, N, p)` -/
  multi : Nat → Nat → List α → σ → List Nat × σ

/-- The statistics functions of GSL that are used, and `std::sort`. -/
structure Gsl (α : Type) where
  /-- `gsl_stats_mean` -/
  mean : List α → α
  /-- `gsl_stats_variance_m` -/
  varM : List α → α → α
  /-- `gsl_stats_sd` -/
  sd : List α → α
  /-- `gsl_stats_quantile_from_sorted_data` -/
  quantile : List α → α → α
  /-- `gsl_stats_max_index` -/
  maxIndex : List α → Nat
  /-- `std::sort` -/
  sort : List α → List α

/-- `dream_pars`, `cdream/dream_params.h`. -/
structure DreamCfg (α : Type) where
  maxEvals : Nat
  numChains : Nat
  nvar : Nat
  nfree : Nat
  lock : List Bool
  lo : List α
  hi : List α
  append : Bool
  burnIn : Nat
  recalc : Bool
  noise : α
  bstar : α
  collapse : Bool
  gelmanEvals : Nat
  loopSteps : Nat
  crit : α
  deltaMax : Nat
  pCRupdate : Bool
  nCR : Nat
  reenter : α

/-- The variables of `dream()` that change. -/
structure DreamSt (σ α : Type) where
  rng : σ
  state : List (Option (List α))
  lik : List (Option α)
  prop : List (List α)
  updDim : List Int
  accept : List Bool
  crm : List (Option Nat)
  cand : List Nat
  total : List Nat
  deltaTot : List α
  pCR : List α
  inBurn : Bool
  burnStart : Nat
  gen : Nat
  curRun : Nat
  scaleRed : List α
  calls : List (List α)
  out : List (Nat × List (List α × α × Bool))

section
variable {σ α : Type} [FP α]

/-- `-INFINITY`. -/
def ninfty : α := -(1 / 0)

/-- `a == b`. -/
def eqD (a b : α) : Bool := fle a b && fle b a

/-- The value of a cell. -/
def written {β : Type} : Option β → Res β
  | some b => .ok b
  | none => .error .uninit

/-- Use of a cell of an array obtained from `malloc`. -/
def rdU {β : Type} (l : List (Option β)) (k : Nat) : Res β := do
  let o ← rd l k
  written o

/-- `state(t,i,·)`. `cdream/array.h`, `Array3D::operator()`. -/
def getRow (c : DreamCfg α) (st : List (Option (List α))) (t i : Nat) : Res (List α) := rdU st (t * c.numChains + i)

/-- `state(t,i,j) = row[j]` for all `j`. -/
def setRow (c : DreamCfg α) (st : List (Option (List α))) (t i : Nat) (row : List α) : Res (List (Option (List α))) :=
  wr st (t * c.numChains + i) (some row)

/-- `lik(t,i)`. `cdream/array.h`, `Array2D::operator()`. -/
def getLik (c : DreamCfg α) (l : List (Option α)) (t i : Nat) : Res α := rdU l (t * c.numChains + i)

/-- `lik(t,i) = v`. -/
def setLik (c : DreamCfg α) (l : List (Option α)) (t i : Nat) (v : α) : Res (List (Option α)) := wr l (t * c.numChains + i) (some v)

/-! ## Set-up -/

/-- `SetupDreamParams`, `cdream/dream_pars.cpp:5-46`, followed by the assignments of `core/mcmc_main.cpp:393-416`. A parameter is given by its fixed flag, its
value and its limits; the limits are shifted by the image offset before (`core/mcmc_main.cpp:305-316`). -/
def mcmcCfg (params : List (Bool × α × α × α)) (append : Bool) (nChains : Nat) (maxEvals nBurnIn nGelmanEvals : Nat) (limit noise bstar : α) : DreamCfg α :=
  let nfree := (params.filter fun p => !p.1).length
  { maxEvals := maxEvals
    numChains := if nChains = 0 then nfree else nChains
    nvar := params.length
    nfree := nfree
    lock := params.map fun p => p.1
    lo := params.map fun p => if p.1 then p.2.1 else p.2.2.1
    hi := params.map fun p => if p.1 then p.2.1 else p.2.2.2
    append := append
    burnIn := nBurnIn
    recalc := false
    noise := noise
    bstar := bstar
    collapse := true
    gelmanEvals := nGelmanEvals / 10
    loopSteps := 10
    crit := limit
    deltaMax := (nfree - 1) / 2
    pCRupdate := true
    nCR := 3
    reenter := lit (1 / 5) }

/-! ## Initial positions -/

/-- `if (randPos < lo) randPos = lo; else if (randPos > hi) randPos = hi;`. `cdream/dream_initialize.cpp:42-45, 86-89`. -/
def clamp (lo hi x : α) : α := if flt x lo then lo else if flt hi x then hi else x

/-- The position of one chain in one parameter. `cdream/dream_initialize.cpp:34-46`. -/
def initValue (c : DreamCfg α) (R : Rng σ α) (samples : List (List Nat)) (i j : Nat) (s : σ) : Res (α × σ) := do
  let l ← rd c.lock j
  let lo ← rd c.lo j
  let hi ← rd c.hi j
  if l then .ok (clamp lo hi lo, s)
  else do
    let row ← rd samples j
    let k ← rd row i
    let u := R.unif s
    .ok (clamp lo hi (lo + lit (k : ℚ) * (hi - lo) / lit (c.numChains : ℚ) + (hi - lo) / lit (c.numChains : ℚ) * u.1), u.2)

/-- All chains and parameters. `cdream/dream_initialize.cpp:32-50`. -/
def initRows (c : DreamCfg α) (R : Rng σ α) (samples : List (List Nat)) (s : σ) : Res (List (List α) × σ) :=
  loopAcc c.numChains s fun i s => loopAcc c.nvar s fun j s => initValue c R samples i j s

/-- Is a value of the vector outside its limits? `all` says whether the locked parameters are looked at as well
(`cdream/dream_initialize.cpp:57-62` does, `cdream/dream.cpp:272-280` does not). -/
def outside (c : DreamCfg α) (all : Bool) (row : List α) : Res Bool := do
  let b ← loopMap c.nvar fun j => do
    let l ← rd c.lock j
    let x ← rd row j
    let lo ← rd c.lo j
    let hi ← rd c.hi j
    .ok ((all || !l) && (flt x lo || flt hi x))
  .ok (b.any id)

/-- The value of one parameter when a chain is drawn anew. `cdream/dream_initialize.cpp:80-90`. -/
def redrawValue (c : DreamCfg α) (R : Rng σ α) (j : Nat) (s : σ) : Res (α × σ) := do
  let l ← rd c.lock j
  let lo ← rd c.lo j
  let hi ← rd c.hi j
  if l then .ok (clamp lo hi lo, s)
  else .ok (clamp lo hi (lo + (hi - lo) * (R.unif s).1), (R.unif s).2)

/-- `while (lik[i] == -INFINITY || lik[i] != lik[i])`. `cdream/dream_initialize.cpp:76-95`. -/
def redraw (c : DreamCfg α) (R : Rng σ α) (F : List α → α) : Nat → List α × α × σ × List (List α) → Res (List α × α × σ × List (List α))
  | 0, _ => .error .diverge
  | fuel + 1, x =>
    if eqD x.2.1 ninfty || !fle x.2.1 x.2.1 then do
      let r ← loopAcc c.nvar x.2.2.1 fun j s => redrawValue c R j s
      redraw c R F fuel (r.1, F r.1, r.2, r.1 :: x.2.2.2)
    else .ok x

/-- The likelihood of a first position. `cdream/dream_initialize.cpp:55-72`. -/
def firstLik (c : DreamCfg α) (F : List α → α) (row : List α) : Res (α × List (List α)) := do
  let b ← outside c true row
  if b then .ok (ninfty, []) else .ok (F row, [row])

/-- `dream_initialize`, `cdream/dream_initialize.cpp:9-97`. Simplified: the two loops over the chains are done per chain in the second, since the first draws
nothing. -/
def dreamInit (c : DreamCfg α) (R : Rng σ α) (F : List α → α) (fuel : Nat) (s : σ) : Res (List (List α × α) × (σ × List (List α))) := do
  let sm ← loopAcc c.nvar s fun _ s => .ok (R.perm c.numChains s)
  let rows ← initRows c R sm.1 sm.2
  loopAcc c.numChains (rows.2, []) fun i s => do
    let row ← rd rows.1 i
    let f ← firstLik c F row
    let r ← redraw c R F fuel (row, f.1, s.1, f.2 ++ s.2)
    .ok ((r.1, r.2.1), (r.2.2.1, r.2.2.2))

/-! ## Crossover table -/

/-- The entries written by the two loops of `gen_CR`, in order. `cdream/gen_CR.cpp:17-22`. -/
def crEntries (cand : List Nat) : List Nat := cand.zipIdx.flatMap fun x => List.replicate x.1 (x.2 + 1)

/-- `gsl_ran_shuffle`. -/
def rearrange {β : Type} (l : List β) (p : List Nat) : Res (List β) := loopMap l.length fun k => do
  let q ← rd p k
  rd l q

/-- `gen_CR`, `cdream/gen_CR.cpp:5-24`. -/
def genCR (c : DreamCfg α) (R : Rng σ α) (st : DreamSt σ α) : Res (DreamSt σ α) := do
  let m := R.multi c.nCR (c.numChains * c.loopSteps) st.pCR st.rng
  if st.crm.length < (crEntries m.1).length then .error .oob
  else do
    let p := R.perm (c.numChains * c.loopSteps) m.2
    let crm ← rearrange ((crEntries m.1).map some ++ st.crm.drop (crEntries m.1).length) p.1
    .ok { st with crm := crm, cand := m.1, rng := p.2 }

/-! ## Proposals -/

/-- `delta`, the number of pairs. `cdream/dream.cpp:194-198`. -/
def pickDelta (c : DreamCfg α) (R : Rng σ α) (s : σ) : Nat × σ :=
  if 1 < c.deltaMax then ((R.uint c.deltaMax s).1 + 1, (R.uint c.deltaMax s).2) else (1, s)

/-- `while (r2 == r1 || r2 == i) ++r2 %= numChains;`. `cdream/dream.cpp:213-214`. -/
def advance (n i r1 : Nat) : Nat → Nat → Res Nat
  | 0, _ => .error .diverge
  | fuel + 1, r2 => if r2 = r1 ∨ r2 = i then advance n i r1 fuel ((r2 + 1) % n) else .ok r2

/-- The two chains of a pair, from the two integers drawn. `cdream/dream.cpp:208-215`. -/
def pairOf (n i u1 u2 : Nat) : Res (Nat × Nat) := do
  let r1 := if i ≤ u1 then u1 + 1 else u1
  if 2 < n then do
    let r2 ← advance n i r1 (n + 1) u2
    .ok (r1, r2)
  else .ok (r1, u2)

/-- `rng->uniform_int(1, &r, 0, n)`: for `n = 0` GSL calls its error handler, which aborts. -/
def drawInt (R : Rng σ α) (n : Nat) (s : σ) : Res (Nat × σ) := if n = 0 then .error .exit else .ok (R.uint n s)

/-- One pair. `cdream/dream.cpp:207-216`. -/
def pickPair (c : DreamCfg α) (R : Rng σ α) (i : Nat) (s : σ) : Res ((Nat × Nat) × σ) := do
  let a ← drawInt R (c.numChains - 1) s
  let b ← drawInt R (c.numChains - 1) a.2
  let p ← pairOf c.numChains i a.1 b.1
  .ok (p, b.2)

/-- `pairDiff[j]`. `cdream/dream.cpp:229-233`. -/
def pairDiff (c : DreamCfg α) (state : List (Option (List α))) (t j : Nat) (pairs : List (Nat × Nat)) : Res α :=
  pairs.foldlM (fun acc p =>
    if p.1 = p.2 then .ok acc
    else do
      let ra ← getRow c state (t - 1) p.1
      let a ← rd ra j
      let rb ← getRow c state (t - 1) p.2
      let b ← rd rb j
      .ok (acc + (a - b))) 0

/-- What is drawn for one parameter of one chain. -/
structure VarDraw (α : Type) where
  upd : Bool
  e : α
  eps : α
  pd : α

/-- Is the parameter left alone by the crossover? `cdream/dream.cpp:235-243`. -/
def crossCheck (c : DreamCfg α) (R : Rng σ α) (m : Nat) (s : σ) : Bool × σ :=
  if flt (1 * lit (m : ℚ) / lit (c.nCR : ℚ) : α) 1 then (flt (R.unif s).1 (1 - 1 * lit (m : ℚ) / lit (c.nCR : ℚ)), (R.unif s).2) else (false, s)

/-- One turn of the loop over the parameters. `cdream/dream.cpp:221-245`. -/
def drawVar (c : DreamCfg α) (R : Rng σ α) (st : DreamSt σ α) (t i : Nat) (pairs : List (Nat × Nat)) (j : Nat) (s : σ × Int) : Res (VarDraw α × (σ × Int)) := do
  let l ← rd c.lock j
  if l then .ok (⟨false, 0, 0, 0⟩, s)
  else do
    let pd ← pairDiff c st.state t j pairs
    let m ← rdU st.crm (i * c.loopSteps + st.gen)
    let u := R.unif s.1
    let g := R.gauss c.bstar u.2
    let x := crossCheck c R m g.2
    .ok (⟨!x.1, c.noise * (lit 2 * u.1 - 1), g.1, pd⟩, (x.2, if x.1 then s.2 - 1 else s.2))

/-- `gamma`. `cdream/dream.cpp:248-251`. -/
def jump (t : Nat) (upd : Int) (delta : Nat) : α :=
  if 1 < t ∧ t % 5 = 0 then 1 else lit (119 / 50) / fsqrt (lit 2 * lit (upd : ℚ) * lit (delta : ℚ))

/-- The proposal of one parameter. `cdream/dream.cpp:252-261`. -/
def newValueD (t : Nat) (upd : Int) (delta : Nat) (d : VarDraw α) (x : α) : α :=
  if 0 < upd ∧ d.upd = true then x + ((1 + d.e) * jump t upd delta * d.pd + d.eps) else x

/-- The proposal of one chain. `cdream/dream.cpp:193-265`. -/
def propose (c : DreamCfg α) (R : Rng σ α) (st : DreamSt σ α) (t i : Nat) (s : σ) : Res ((List α × Int) × σ) := do
  let d := pickDelta c R s
  let row ← getRow c st.state (t - 1) i
  let ps ← loopAcc d.1 d.2 fun _ s => pickPair c R i s
  let vs ← loopAcc c.nvar (ps.2, (c.nfree : Int)) fun j s => drawVar c R st t i ps.1 j s
  let new ← loopMap c.nvar fun j => do
    let v ← rd vs.1 j
    let x ← rd row j
    .ok (newValueD t vs.2.2 d.1 v x)
  .ok ((new, vs.2.2), vs.2.1)

/-- `cdream/dream.cpp:193-265`. -/
def proposeAll (c : DreamCfg α) (R : Rng σ α) (t : Nat) (st : DreamSt σ α) : Res (DreamSt σ α) := do
  let r ← loopAcc c.numChains st.rng fun i s => propose c R st t i s
  .ok { st with prop := r.1.map Prod.fst, updDim := r.1.map Prod.snd, rng := r.2 }

/-! ## Likelihoods and acceptance -/

/-- The likelihood of the present position is computed again. `cdream/dream.cpp:281-284`. -/
def refresh (c : DreamCfg α) (F : List α → α) (t i : Nat) (st : DreamSt σ α) : Res (DreamSt σ α) :=
  if c.recalc || st.inBurn then do
    let row ← getRow c st.state (t - 1) i
    let l ← setLik c st.lik (t - 1) i (F row)
    .ok { st with lik := l, calls := row :: st.calls }
  else .ok st

/-- `cdream/dream.cpp:285-290`. -/
def evalNew (c : DreamCfg α) (F : List α → α) (t i : Nat) (row : List α) (b : Bool) (st : DreamSt σ α) : Res (DreamSt σ α) :=
  if b then do
    let l ← setLik c st.lik t i ninfty
    .ok { st with lik := l }
  else do
    let l ← setLik c st.lik t i (F row)
    .ok { st with lik := l, calls := row :: st.calls }

/-- The proposal is the present position. `cdream/dream.cpp:292-299`. -/
def evalSame (c : DreamCfg α) (F : List α → α) (t i : Nat) (st : DreamSt σ α) : Res (DreamSt σ α) := do
  let row ← getRow c st.state (t - 1) i
  let pr ← wr st.prop i row
  if c.recalc || st.inBurn then do
    let l ← setLik c st.lik t i (F row)
    .ok { st with prop := pr, lik := l, calls := row :: st.calls }
  else do
    let v ← getLik c st.lik (t - 1) i
    let l ← setLik c st.lik t i v
    .ok { st with prop := pr, lik := l }

/-- One chain of the second loop. `cdream/dream.cpp:268-301`. -/
def evalChain (c : DreamCfg α) (F : List α → α) (t i : Nat) (st : DreamSt σ α) : Res (DreamSt σ α) := do
  let ud ← rd st.updDim i
  if 0 < ud then do
    let row ← rd st.prop i
    let b ← outside c false row
    let st1 ← refresh c F t i st
    evalNew c F t i row b st1
  else evalSame c F t i st

/-- `acceptStep[i]`. `cdream/dream.cpp:304-316`. -/
def acceptTest (R : Rng σ α) (new prev : α) (s : σ) : Bool × σ :=
  if eqD new ninfty then (false, s)
  else if fle prev new then (true, s)
  else (flt (flog (R.unif s).1) (new - prev), (R.unif s).2)

/-- The new state of one chain. `cdream/dream.cpp:322-330`. -/
def settle (c : DreamCfg α) (t i : Nat) (a : Bool) (st : DreamSt σ α) : Res (DreamSt σ α) :=
  if a then do
    let row ← rd st.prop i
    let s ← setRow c st.state t i row
    .ok { st with state := s }
  else do
    let row ← getRow c st.state (t - 1) i
    let s ← setRow c st.state t i row
    let v ← getLik c st.lik (t - 1) i
    let l ← setLik c st.lik t i v
    .ok { st with state := s, lik := l }

/-- One chain of the third loop. `cdream/dream.cpp:303-331`. -/
def acceptChain (c : DreamCfg α) (R : Rng σ α) (t i : Nat) (st : DreamSt σ α) : Res (DreamSt σ α) := do
  let new ← getLik c st.lik t i
  let prev ← getLik c st.lik (t - 1) i
  let a := acceptTest R new prev st.rng
  let acc ← wr st.accept i a.1
  settle c t i a.1 { st with accept := acc, rng := a.2 }

/-! ## Crossover probabilities -/

/-- Values of one parameter in all chains. -/
def column (c : DreamCfg α) (state : List (Option (List α))) (t j : Nat) : Res (List α) := loopMap c.numChains fun i => do
  let row ← getRow c state t i
  rd row j

/-- `delta_normX[i]`. `cdream/dream.cpp:348-353`. -/
def normX (c : DreamCfg α) (sd : List α) (t i : Nat) (state : List (Option (List α))) : Res α :=
  forN c.nvar 0 fun j acc => do
    let l ← rd c.lock j
    let s ← rd sd j
    if !l && flt 0 s then do
      let ra ← getRow c state t i
      let a ← rd ra j
      let rb ← getRow c state (t - 1) i
      let b ← rd rb j
      .ok (acc + (a - b) / s * ((a - b) / s))
    else .ok acc

/-- `delta_tot[CRm(i,genNumber) - 1] += ...`. `cdream/dream.cpp:346-355`. -/
def addDelta (c : DreamCfg α) (sd : List α) (t i : Nat) (st : DreamSt σ α) : Res (DreamSt σ α) := do
  let a ← rd st.accept i
  if a then do
    let d ← normX c sd t i st.state
    let m ← rdU st.crm (i * c.loopSteps + st.gen)
    let x ← rdI st.deltaTot ((m : Int) - 1)
    let dt ← wrI st.deltaTot ((m : Int) - 1) (x + d)
    .ok { st with deltaTot := dt }
  else .ok st

/-- `cdream/dream.cpp:336-357`. -/
def jumpStats (c : DreamCfg α) (G : Gsl α) (t : Nat) (st : DreamSt σ α) : Res (DreamSt σ α) :=
  if st.inBurn && c.pCRupdate then do
    let sd ← loopMap c.nvar fun j => do
      let col ← column c st.state t j
      .ok (G.sd col)
    forN c.numChains st fun i st => addDelta c sd t i st
  else .ok st

/-- The new probabilities. `cdream/dream.cpp:377-384`. -/
def newPCR (n : Nat) (deltaTot : List α) (total : List Nat) (sum : α) : Res (List α) := do
  let p ← loopMap n fun m => do
    let d ← rd deltaTot m
    let k ← rd total m
    .ok (d / sum / lit (k : ℚ))
  let s := p.foldl (· + ·) 0
  .ok (p.map fun x => x / s)

/-- `cdream/dream.cpp:369-386`. -/
def updatePCR (c : DreamCfg α) (st : DreamSt σ α) : Res (DreamSt σ α) :=
  if st.inBurn && c.pCRupdate then do
    let tot ← loopMap c.nCR fun m => do
      let a ← rd st.total m
      let b ← rd st.cand m
      .ok (a + b)
    let ds ← loopMap c.nCR fun m => rd st.deltaTot m
    let sum := ds.foldl (· + ·) 0
    if flt 0 sum then do
      let p ← newPCR c.nCR st.deltaTot tot sum
      .ok { st with total := tot, pCR := p }
    else .ok { st with total := tot }
  else .ok st

/-! ## Outliers -/

/-- `check_outliers`: the mean likelihoods and which chains are outliers. `cdream/check_outliers.cpp:3-35`. -/
def checkOutliers (c : DreamCfg α) (G : Gsl α) (t : Nat) (lik : List (Option α)) : Res (List α × List Bool) := do
  let ml ← loopMap c.numChains fun i => do
    let l ← loopMap (t - t / 2) fun k => getLik c lik (t / 2 + k) i
    .ok (G.mean l)
  let q1 := G.quantile (G.sort ml) (lit (1 / 4))
  let q3 := G.quantile (G.sort ml) (lit (3 / 4))
  .ok (ml, ml.map fun m => flt m (q1 - lit 2 * (q3 - q1)))

/-- An outlier is moved to the best chain. `cdream/dream.cpp:395-410`. -/
def moveChain (c : DreamCfg α) (t best i : Nat) (st : DreamSt σ α) : Res (DreamSt σ α) := do
  let v ← getLik c st.lik t best
  let l ← setLik c st.lik t i v
  let row ← getRow c st.state t best
  let s ← setRow c st.state t i row
  if !st.inBurn && decide (0 < c.burnIn) then .ok { st with lik := l, state := s, burnStart := t, curRun := 0, inBurn := true }
  else .ok { st with lik := l, state := s }

/-- `cdream/dream.cpp:388-412`. -/
def collapse (c : DreamCfg α) (G : Gsl α) (t : Nat) (st : DreamSt σ α) : Res (DreamSt σ α) :=
  if c.collapse && flt (lit (t : ℚ)) (c.reenter * lit (c.maxEvals : ℚ)) then do
    let o ← checkOutliers c G t st.lik
    forN c.numChains st fun i st => do
      let b ← rd o.2 i
      if b = true ∧ i ≠ G.maxIndex o.1 then moveChain c t (G.maxIndex o.1) i st else .ok st
  else .ok st

/-! ## Convergence -/

/-- The values of one parameter of one chain that `gelman_rubin` looks at. -/
def window (c : DreamCfg α) (state : List (Option (List α))) (t0 n i j : Nat) : Res (List α) := loopMap n fun k => do
  let row ← getRow c state (t0 + k) i
  rd row j

/-- `scaleReduction[j]` from the chain means and variances. `cdream/gelman_rubin.cpp:45-83`. -/
def scaleOf (c : DreamCfg α) (G : Gsl α) (n : Nat) (means vars : List α) : α :=
  let b := G.varM means (G.mean means)
  let w := G.mean vars
  let sigma2 := (lit (n : ℚ) - 1) / lit (n : ℚ) * w + b
  let vhat := sigma2 + b / lit (c.numChains : ℚ)
  if flt 0 w then fsqrt (vhat / w) else 1

/-- One parameter in `gelman_rubin`. -/
def scaleVar (c : DreamCfg α) (G : Gsl α) (state : List (Option (List α))) (t0 n : Nat) (old : List α) (j : Nat) : Res α := do
  let l ← rd c.lock j
  if l then rd old j
  else do
    let ws ← loopMap c.numChains fun i => window c state t0 n i j
    let means := ws.map G.mean
    let vars := ws.map fun w => G.varM w (G.mean w)
    .ok (scaleOf c G n means vars)

/-- `gelman_rubin(state, scaleReduction, varLock, first, t)`; `0 < t`. `n` is passed to GSL as `size_t`: if it is negative GSL reads far outside the array.
`cdream/gelman_rubin.cpp:6-99`. -/
def gelmanRubin (c : DreamCfg α) (G : Gsl α) (state : List (Option (List α))) (old : List α) (first t : Nat) : Res (List α) :=
  if t < (t + first) / 2 + 1 then .error .oob
  else loopMap c.nvar fun j => scaleVar c G state ((t + first) / 2) (t - (t + first) / 2 - 1) old j

/-- Are all scale reductions small enough? `cdream/dream.cpp:422-438`. -/
def allConverged (c : DreamCfg α) (scale : List α) : Res Bool := do
  let b ← loopMap c.nvar fun j => do
    let l ← rd c.lock j
    let s ← rd scale j
    .ok (l || flt s c.crit)
  .ok (b.all id)

/-- `cdream/dream.cpp:414-454`; the flag says that the loop is left. -/
def convergence (c : DreamCfg α) (G : Gsl α) (t : Nat) (st : DreamSt σ α) : Res (DreamSt σ α × Bool) :=
  if st.inBurn then
    if st.burnStart + c.burnIn ≤ t then .ok ({ st with inBurn := false }, false) else .ok (st, false)
  else if c.gelmanEvals ≤ st.curRun + 1 then do
    let s ← gelmanRubin c G st.state st.scaleRed (st.burnStart + c.burnIn) t
    let b ← allConverged c s
    if b then .ok ({ st with scaleRed := s, curRun := st.curRun + 1 }, true) else .ok ({ st with scaleRed := s, curRun := 0 }, false)
  else .ok ({ st with curRun := st.curRun + 1 }, false)

/-- What is done every `loopSteps` generations. `cdream/dream.cpp:360-455`. -/
def periodic (c : DreamCfg α) (G : Gsl α) (t : Nat) (st : DreamSt σ α) : Res (DreamSt σ α × Bool) :=
  if c.loopSteps ≤ st.gen + 1 then do
    let st1 ← updatePCR c { st with gen := 0 }
    let st2 ← collapse c G t st1
    convergence c G t st2
  else .ok ({ st with gen := st.gen + 1 }, false)

/-! ## The main loop -/

/-- The line written for one chain: `PrintModelParamsHorizontalString` (with the offsets `off` added) and the likelihood. Simplified: the numbers are not turned
into text. `cdream/dream.cpp:458-471`, `core/model_object.cpp:1941-1973`. -/
def outLine (c : DreamCfg α) (off : List α) (t i : Nat) (flag : Bool) (st : DreamSt σ α) : Res (List α × α × Bool) := do
  let row ← getRow c st.state t i
  let v ← getLik c st.lik t i
  .ok (List.zipWith (· + ·) row off, v, flag)

/-- `cdream/dream.cpp:458-471`; `report_interval` is 1. -/
def report (c : DreamCfg α) (off : List α) (t : Nat) (flag : Bool) (st : DreamSt σ α) : Res (DreamSt σ α) := do
  let l ← loopMap c.numChains fun i => outLine c off t i flag st
  .ok { st with out := st.out ++ [(t, l)] }

/-- `if (genNumber == 0) gen_CR(...)`. `cdream/dream.cpp:187-191`. -/
def refillCR (c : DreamCfg α) (R : Rng σ α) (st : DreamSt σ α) : Res (DreamSt σ α) := if st.gen = 0 then genCR c R st else .ok st

/-- One generation up to the point where it may be left by `break`. `cdream/dream.cpp:185-455`. -/
def generation (c : DreamCfg α) (R : Rng σ α) (G : Gsl α) (F : List α → α) (t : Nat) (st : DreamSt σ α) : Res (DreamSt σ α × Bool) := do
  let st1 ← refillCR c R st
  let st2 ← proposeAll c R t st1
  let st3 ← forN c.numChains st2 fun i s => evalChain c F t i s
  let st4 ← forN c.numChains st3 fun i s => acceptChain c R t i s
  let st5 ← jumpStats c G t st4
  periodic c G t st5

/-- The loop over the generations `t, t + 1, ..., t + n - 1`. `cdream/dream.cpp:185-472`. -/
def runLoop (c : DreamCfg α) (R : Rng σ α) (G : Gsl α) (F : List α → α) (off : List α) : Nat → Nat → DreamSt σ α → Res (DreamSt σ α × Bool)
  | 0, _, st => .ok (st, false)
  | n + 1, t, st => do
    let g ← generation c R G F t st
    if g.2 then .ok g
    else do
      let st1 ← report c off t (decide (t < g.1.burnStart + c.burnIn)) g.1
      runLoop c R G F off n (t + 1) st1

/-! ## Resuming -/

/-- The numbers of one line of an output file. -/
structure ChainLine (α : Type) where
  vals : List α
  lik : α
  burn : Bool
  pCR : List α

/-- Reading the lines of one chain. `cdream/restore_state.cpp:33-47`. -/
def restoreLines (c : DreamCfg α) (i : Nat) : List (ChainLine α) → Nat → DreamSt σ α → Res (DreamSt σ α × Nat)
  | [], line, st => .ok (st, line)
  | l :: ls, line, st =>
    if c.maxEvals ≤ line then .ok (st, line)
    else do
      let s ← setRow c st.state line i l.vals
      let k ← setLik c st.lik line i l.lik
      restoreLines c i ls (line + 1) { st with state := s, lik := k, inBurn := l.burn, pCR := l.pCR }

/-- `if (prevLines > line) prevLines = line - 1;`. `cdream/restore_state.cpp:49-50`. -/
def prevAfter (prev : Int) (line : Nat) : Int := if (line : Int) < prev then line - 1 else prev

/-- The loop over the chains; `none` is a file that does not exist. `cdream/restore_state.cpp:20-53`. -/
def restoreChains (c : DreamCfg α) : Nat → List (Option (List (ChainLine α))) → Int → DreamSt σ α → Res (DreamSt σ α × Int)
  | _, [], prev, st => .ok (st, prev)
  | _, none :: _, _, st => .ok (st, -1)
  | i, some ls :: fs, prev, st => do
    let r ← restoreLines c i ls 0 st
    restoreChains c (i + 1) fs (prevAfter prev r.2) r.1

/-- `dream_restore_state`, `cdream/restore_state.cpp:12-55`. The files are given as the lines that are read: comments and empty lines are skipped by the code.
The test of the file name is always true. -/
def restore (c : DreamCfg α) (files : List (Option (List (ChainLine α)))) (st : DreamSt σ α) : Res (DreamSt σ α × Int) :=
  if c.append then restoreChains c 0 files c.maxEvals st else .ok (st, 0)

/-- The variables before anything is done. `cdream/dream.cpp:58-90, 148-183`. -/
def start (c : DreamCfg α) (s : σ) : DreamSt σ α :=
  { rng := s
    state := List.replicate (c.maxEvals * c.numChains) none
    lik := List.replicate ((c.maxEvals + 1) * c.numChains) none
    prop := List.replicate c.numChains (List.replicate c.nvar 0)
    updDim := List.replicate c.numChains (c.nfree : Int)
    accept := List.replicate c.numChains false
    crm := List.replicate (c.numChains * c.loopSteps) none
    cand := List.replicate c.nCR 0
    total := List.replicate c.nCR 0
    deltaTot := List.replicate c.nCR 1
    pCR := List.replicate c.nCR (1 / lit (c.nCR : ℚ))
    inBurn := decide (0 < c.burnIn)
    burnStart := 0
    gen := 0
    curRun := 0
    scaleRed := List.replicate c.nvar 0
    calls := []
    out := [] }

/-- The initial positions are put into row 0. -/
def putFirst (c : DreamCfg α) (rows : List (List α × α)) (st : DreamSt σ α) : Res (DreamSt σ α) :=
  forN c.numChains st fun i st => do
    let x ← rd rows i
    let s ← setRow c st.state 0 i x.1
    let l ← setLik c st.lik 0 i x.2
    .ok { st with state := s, lik := l }

/-- `cdream/dream.cpp:124-145`. -/
def fresh (c : DreamCfg α) (R : Rng σ α) (F : List α → α) (off : List α) (fuel : Nat) (st : DreamSt σ α) : Res (DreamSt σ α) :=
  if c.append then .ok st
  else do
    let r ← dreamInit c R F fuel st.rng
    let st1 ← putFirst c r.1 { st with rng := r.2.1, calls := r.2.2 }
    report c off 0 st1.inBurn st1

/-- How `dream()` ends. `cdream/dream.cpp:486-494`. -/
inductive DreamExit where
  | noFiles | maxIterations | converged
  deriving DecidableEq

/-- `dream()`, `cdream/dream.cpp:56-495`. -/
def dream (c : DreamCfg α) (R : Rng σ α) (G : Gsl α) (F : List α → α) (off : List α) (files : List (Option (List (ChainLine α)))) (fuel : Nat) (s : σ) :
    Res (DreamSt σ α × DreamExit) := do
  let r ← restore c files (start c s)
  if r.2 < 0 then .ok (r.1, .noFiles)
  else do
    let st1 ← fresh c R F off fuel r.1
    let e ← runLoop c R G F off (c.maxEvals - (r.2.toNat + 1)) (r.2.toNat + 1) st1
    .ok (e.1, if e.2 then .converged else .maxIterations)

end

end Imfit
