import Verif.Lemmas.DreamToy

/-!
# C59: the sampler touches only its own, initialised memory and ends

For every arithmetic, likelihood, generator and configuration with at least two chains: a run that is not resumed never reads or writes outside an array and never
uses a cell that has not been written; it returns, unless it searches for initial positions for ever. It does return if the likelihood is always a number.

The claim is false of the code in two cases, for which the outcome is proved: with a single chain — the default for a model with one free parameter — GSL aborts
the program in the first generation; and if the likelihood is NaN (or minus infinity) everywhere the search for initial positions never ends.
-/

namespace Imfit

section
variable {σ α : Type} [FP α]

/-- A new run with at least two chains: no fault other than an endless search for initial positions. -/
theorem C59_faults_partial (hL : CmpLaws α) (c : DreamCfg α) (hc : DreamOk c) (h2 : 2 ≤ c.numChains) (hm : 0 < c.maxEvals) (ha : c.append = false) (R : Rng σ α)
    (hR : Spec.GoodRng R) (G : Gsl α) (hG : Spec.GoodGsl G) (F : List α → α) (off : List α) (files : List (Option (List (ChainLine α)))) (fuel : Nat) (s : σ)
    (e : Fault) (h : dream c R G F off files fuel s = .error e) : e = .diverge :=
  (dream_may (V := fun _ => True) hc h2 hR hG hL (by constructor <;> intros <;> trivial) hm ha files fuel s).error h

/-- If the likelihood is always a number the run returns. -/
theorem C59_returns (hL : CmpLaws α) (c : DreamCfg α) (hc : DreamOk c) (h2 : 2 ≤ c.numChains) (hm : 0 < c.maxEvals) (ha : c.append = false) (R : Rng σ α)
    (hR : Spec.GoodRng R) (G : Gsl α) (hG : Spec.GoodGsl G) (F : List α → α) (hF : NumberLik F) (off : List α) (files : List (Option (List (ChainLine α))))
    (fuel : Nat) (s : σ) : ∃ st ex, dream c R G F off files (fuel + 2) s = .ok (st, ex) ∧ (ex = .maxIterations ∨ ex = .converged) := by
  have hV : Closed (fun _ => True) c R := by constructor <;> intros <;> trivial
  unfold dream restore
  rw [if_neg (by simp [ha]), val_bind]
  show ∃ st ex, (if (0 : Int) < 0 then _ else _) = _ ∧ _
  rw [if_neg (by omega)]
  obtain ⟨st1, e1, h1, ho1⟩ := fresh_sat hc hR hL hV hF (off := off) hm ha fuel s
  rw [e1, val_bind]
  obtain ⟨r, e2, -⟩ := runLoop_sat hc h2 hR hG hL hV (c.maxEvals - 1) 1 st1 (by omega) (by omega) h1 ho1
  show ∃ st ex, (runLoop c R G F off (c.maxEvals - 1) 1 st1 >>= _) = _ ∧ _
  rw [e2, val_bind]
  refine ⟨_, _, rfl, ?_⟩
  cases r.2 <;> simp

/-- A run of the integer version of the model: 5 generations of 3 chains. -/
example : let _ := toyFP
    ((dream toyCfg toyRng toyGsl toyLik [0, 0] [] 2 0).toOption.map fun r => (r.1.out.length, r.2)) = some (5, .maxIterations) := by
  decide +kernel

/-- With one chain the second chain of a pair cannot be drawn. -/
theorem propose_single {V : α → Prop} {c : DreamCfg α} (h1 : c.numChains = 1) (R : Rng σ α) {F : List α → α} {st : DreamSt σ α} {t : Nat} (ht : 0 < t)
    (hh : Hist V c F (t * c.numChains) st) (s : σ) : propose c R st t 0 s = .error .exit := by
  have hp : ∀ s, pickPair c R 0 s = .error .exit := by
    intro s
    unfold pickPair drawInt
    rw [if_pos (by rw [h1])]
    rfl
  have hl : ∀ n, loopAcc (n + 1) (pickDelta c R s).2 (fun _ s => pickPair c R 0 s) = .error .exit := by
    intro n
    induction n with
    | zero =>
      show (pickPair c R 0 (pickDelta c R s).2 >>= _) = _
      rw [hp]
      rfl
    | succ n ih =>
      show (loopAcc (n + 1) (pickDelta c R s).2 (fun _ s => pickPair c R 0 s) >>= _) = _
      rw [ih]
      rfl
  unfold propose
  obtain ⟨row, -, hg, -⟩ := hh.row (t := t - 1) (i := 0) (prev_lt (by omega) ht)
  show (getRow c st.state (t - 1) 0 >>= _) = _
  rw [hg, val_bind]
  have := pickDelta_pos c R s
  obtain ⟨n, hn⟩ : ∃ n, (pickDelta c R s).1 = n + 1 := ⟨(pickDelta c R s).1 - 1, by omega⟩
  rw [hn, hl n]
  rfl

/-- A run with one chain and at least two generations is aborted (`gsl_rng_uniform_int` with `n = 0`) as soon as the initial position has been found. -/
theorem C59_single_false (hL : CmpLaws α) (c : DreamCfg α) (hc : DreamOk c) (h1 : c.numChains = 1) (hm : 2 ≤ c.maxEvals) (ha : c.append = false) (R : Rng σ α)
    (hR : Spec.GoodRng R) (G : Gsl α) (F : List α → α) (hF : NumberLik F) (off : List α) (files : List (Option (List (ChainLine α)))) (fuel : Nat) (s : σ) :
    dream c R G F off files (fuel + 2) s = .error .exit := by
  have hV : Closed (fun _ => True) c R := by constructor <;> intros <;> trivial
  unfold dream restore
  rw [if_neg (by simp [ha]), val_bind]
  show (if (0 : Int) < 0 then _ else _) = _
  rw [if_neg (by omega)]
  obtain ⟨st1, e1, hi1, -⟩ := fresh_sat hc hR hL hV hF (off := off) (by omega) ha fuel s
  rw [e1, val_bind]
  show (runLoop c R G F off (c.maxEvals - 1) 1 st1 >>= _) = _
  have hg : generation c R G F 1 st1 = .error .exit := by
    unfold generation
    obtain ⟨st2, e2, h2, -⟩ := refillCR_sat hR hi1
    rw [e2, val_bind]
    have : proposeAll c R 1 st2 = .error .exit := by
      unfold proposeAll
      rw [h1]
      have := propose_single h1 R (by omega) h2.hist st2.rng
      show ((loopAcc 1 st2.rng fun i s => propose c R st2 1 i s) >>= _) = _
      have hl : (loopAcc 1 st2.rng fun i s => propose c R st2 1 i s) = .error .exit := by
        show (propose c R st2 1 0 st2.rng >>= _) = _
        rw [this]
        rfl
      rw [hl]
      rfl
    rw [this]
    rfl
  obtain ⟨n, hn⟩ : ∃ n, c.maxEvals - 1 = n + 1 := ⟨c.maxEvals - 2, by omega⟩
  rw [hn]
  unfold runLoop
  rw [hg]
  rfl

/-- This is what `imfit-mcmc` does by default for a model with one free parameter: the number of chains is the number of free parameters. -/
theorem C59_default_false (hL : CmpLaws α) (val lo hi : α) (hlh : flt hi lo = false) (maxEvals nBurnIn nGelmanEvals : Nat) (limit noise bstar : α)
    (hm : 2 ≤ maxEvals) (R : Rng σ α) (hR : Spec.GoodRng R) (G : Gsl α) (F : List α → α) (hF : NumberLik F) (off : List α) (fuel : Nat) (s : σ) :
    dream (mcmcCfg [(false, val, lo, hi)] false 0 maxEvals nBurnIn nGelmanEvals limit noise bstar) R G F off [] (fuel + 2) s = .error .exit := by
  refine C59_single_false hL _ ?_ rfl hm rfl R hR G F hF off [] fuel s
  refine ⟨rfl, rfl, rfl, by simp [mcmcCfg], by simp [mcmcCfg], by simp [mcmcCfg], ?_⟩
  intro j a b h1 h2
  match j with
  | 0 =>
    cases h1; cases h2
    exact hlh
  | j + 1 => simp [mcmcCfg] at h1

/-- The integer version with one chain. -/
example : let _ := toyFP
    (dream { toyCfg with numChains := 1 } toyRng toyGsl toyLik [0, 0] [] 2 0).toOption.isNone = true := by
  decide +kernel

/-- If the likelihood is never a number the loop that draws a chain anew does not end. -/
theorem redraw_stuck {c : DreamCfg α} (hc : DreamOk c) (hL : CmpLaws α) (R : Rng σ α) {F : List α → α} (hF : ∀ row, eqD (F row) ninfty = true ∨ fle (F row) (F row) = false)
    (fuel : Nat) (x : List α × α × σ × List (List α)) (hx : eqD x.2.1 ninfty = true ∨ fle x.2.1 x.2.1 = false) : redraw c R F fuel x = .error .diverge := by
  induction fuel generalizing x with
  | zero => rfl
  | succ fuel ih =>
    unfold redraw
    rw [if_pos (by rcases hx with h | h <;> simp [h])]
    obtain ⟨r, hr, -⟩ : Sat (loopAcc c.nvar x.2.2.1 fun j s => redrawValue c R j s) fun _ => True :=
      (Sat.loopAcc (Q := fun _ _ => True) (I := fun _ _ => True) trivial fun j s hj _ =>
        (redrawValue_sat (V := fun _ => True) hc hL (by constructor <;> intros <;> trivial) hj s).mono fun _ _ => ⟨trivial, trivial⟩).mono fun _ _ => trivial
    rw [hr, val_bind]
    exact ih _ (hF _)

/-- A likelihood that is nowhere a number: however long one waits (`fuel`), the run has not got beyond the search for initial positions. -/
theorem C59_stuck_false (hL : CmpLaws α) (c : DreamCfg α) (hc : DreamOk c) (ha : c.append = false) (R : Rng σ α) (hR : Spec.GoodRng R) (G : Gsl α)
    (F : List α → α) (hF : ∀ row, eqD (F row) ninfty = true ∨ fle (F row) (F row) = false) (off : List α) (files : List (Option (List (ChainLine α)))) (fuel : Nat)
    (s : σ) : dream c R G F off files fuel s = .error .diverge := by
  have hV : Closed (fun _ => True) c R := by constructor <;> intros <;> trivial
  have hi : dreamInit c R F fuel s = .error .diverge := by
    unfold dreamInit
    obtain ⟨sm, e1, hsm, hsl⟩ := samples_sat (c := c) hR s
    rw [e1, val_bind]
    have hsl' : ∀ p ∈ sm.1, p.length = c.numChains := fun p hp => by rw [(hsl p hp).length_eq]; simp
    obtain ⟨rows, e2, hrl, hrows⟩ := initRows_sat hc hL hV hsm hsl' sm.2
    rw [e2, val_bind]
    have h0 : ∀ s : σ × List (List α), (rd rows.1 0 >>= fun row => firstLik c F row >>= fun f => redraw c R F fuel (row, f.1, s.1, f.2 ++ s.2) >>= fun r =>
        (.ok ((r.1, r.2.1), (r.2.2.1, r.2.2.2)) : Res ((List α × α) × (σ × List (List α))))) = .error .diverge := by
      intro s
      obtain ⟨row, e3, hrow⟩ := Sat.rd (l := rows.1) (i := 0) (by rw [hrl]; exact hc.chains)
      rw [e3, val_bind]
      obtain ⟨f, e4, hf, -⟩ := firstLik_sat (V := fun _ => True) (F := F) hc (hrows row (List.mem_of_getElem? hrow))
      rw [e4, val_bind, redraw_stuck hc hL R hF]
      · rfl
      · rcases hf with hf | hf
        · left
          show eqD f.1 ninfty = true
          rw [hf]
          simp [eqD, hL.ninf]
        · show eqD f.1 ninfty = true ∨ fle f.1 f.1 = false
          rw [hf]
          exact hF row
    have hl : ∀ n (f : Nat → σ × List (List α) → Res ((List α × α) × (σ × List (List α)))) (s : σ × List (List α)), (∀ s, f 0 s = .error .diverge) →
        loopAcc (n + 1) s f = .error .diverge := by
      intro n f s hf
      induction n with
      | zero =>
        show (f 0 s >>= _) = _
        rw [hf]
        rfl
      | succ n ih =>
        show (loopAcc (n + 1) s f >>= _) = _
        rw [ih]
        rfl
    have hc0 := hc.chains
    obtain ⟨n, hn⟩ : ∃ n, c.numChains = n + 1 := ⟨c.numChains - 1, by omega⟩
    rw [hn]
    exact hl n _ _ h0
  unfold dream restore
  rw [if_neg (by simp [ha]), val_bind]
  show (if (0 : Int) < 0 then _ else _) = _
  rw [if_neg (by omega)]
  have hf : fresh c R F off fuel (start c s) = .error .diverge := by
    unfold fresh
    rw [if_neg (by simp [ha])]
    show (dreamInit c R F fuel s >>= _) = _
    rw [hi]
    rfl
  show (fresh c R F off fuel (start c s) >>= _) = _
  rw [hf]
  rfl

end

end Imfit
