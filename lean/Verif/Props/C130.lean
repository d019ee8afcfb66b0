import Verif.Props.C129

/-!
# C130 — The number of evaluations that is reported

What is printed as NFEV is the number of times that the model was evaluated. (`trace` lists the evaluations.)

* It holds for Levenberg-Marquardt, if the fit does not fail: `C130_levmar`.
* It is false for differential evolution (`C130_de_false`): a fit that converges or is broken off reports one generation less than it has done (`C130_de`), since `Solve` notes the number of the
  generation, which begins with 0 (`solvers/DESolver.cpp:257, 289`). Only if all generations are done is the number right.
-/

namespace Imfit

open Spec XR FP

section
variable {α : Type} [FP α]

/-! ## Levenberg-Marquardt -/

theorem lmLoop_count {dev : List α → List α} {c : MPConf α} {fr : List Nat} {lims : List (FreeLim α)} {outer : Nat → OuterLA α} {inner : Nat → InnerLA α} {fuel : Nat} {b : Bool} {s : LMSt α}
    {r : LMSt α × Int} (hs : s.nfev = s.trace.length) (h : lmLoop dev c fr lims outer inner fuel b s = .ok r) : r.1.nfev = r.1.trace.length := by
  refine lmLoop_inv (fun s => s.nfev = s.trace.length) ?_ ?_ hs h
  · intro k s r hs h
    unfold outerTurn at h
    obtain ⟨xnew, -, h⟩ := bind_ok h
    obtain ⟨pts, hp, h⟩ := bind_ok h
    cases h
    dsimp only
    unfold fdPoints at hp
    rw [List.length_append, List.length_map, (loopMap_elems hp).1, hs]
  · intro k s r hs h
    unfold innerTurn at h
    obtain ⟨p, -, h⟩ := bind_ok h
    obtain ⟨xnew, -, h⟩ := bind_ok h
    cases h
    dsimp only
    rw [List.length_append, hs, List.length_singleton]

theorem mpfit_count {dev : List α → List α} {m : Nat} {c : MPConf α} {pars : Option (List (MPPar α))} {outer : Nat → OuterLA α} {inner : Nat → InnerLA α} {fuel : Nat} {start : List α} {r : LMOut α}
    (h : mpfit dev m c pars outer inner fuel start = .ok r) (hst : 0 < r.status) : r.nfev = r.trace.length := by
  unfold mpfit at h
  simp only at h
  split at h
  · cases h; rfl
  split at h
  · cases h; rfl
  obtain ⟨lims, -, h⟩ := bind_ok h
  split at h
  · cases h; rfl
  split at h
  · cases h; rfl
  unfold lmIterate at h
  obtain ⟨x, -, h⟩ := bind_ok h
  obtain ⟨q, hq, h⟩ := bind_ok h
  have := lmLoop_count rfl hq
  unfold lmLeave at h
  split at h
  · rename_i e
    cases h
    dsimp only [lmFail] at hst
    rw [e] at hst
    exact absurd hst (by decide)
  · unfold lmFinish at h
    obtain ⟨y, -, h⟩ := bind_ok h
    cases h
    exact this

/-! ## Differential evolution -/

theorem accept_trace {c : DECfg α} {energy : List α → α} {k : Nat} {s t : DESt α} (h : accept c energy k s = .ok t) : t.trace = s.trace := by
  unfold accept at h
  obtain ⟨old, -, h⟩ := bind_ok h
  split at h
  · obtain ⟨pe, -, h⟩ := bind_ok h
    obtain ⟨pop, -, h⟩ := bind_ok h
    cases h
    unfold keepBest
    split <;> rfl
  · cases h; rfl

theorem oneCandidate_count {c : DECfg α} {rng : Nat → Nat} {fuel : Nat} {energy : List α → α} {k : Nat} {s t : DESt α} (h : oneCandidate c rng fuel energy k s = .ok t) :
    t.trace.length = s.trace.length + 1 := by
  unfold oneCandidate at h
  obtain ⟨s1, h1, h⟩ := bind_ok h
  obtain ⟨old, -, h⟩ := bind_ok h
  obtain ⟨s2, h3, h⟩ := bind_ok h
  obtain ⟨s3, h4, h⟩ := bind_ok h
  cases h
  unfold note
  dsimp only
  rw [List.length_append, accept_trace h4, ((calcTrial_rest h1).trans (repair_rest h3)).trace, List.length_singleton]

theorem oneGeneration_count {c : DECfg α} {rng : Nat → Nat} {fuel : Nat} {energy : List α → α} {s t : DESt α} (h : oneGeneration c rng fuel energy s = .ok t) :
    t.trace.length = s.trace.length + c.nPop :=
  forN_inv c.nPop s t _ (fun k q => q.trace.length = s.trace.length + k) rfl (fun z q q' _ hq h => by rw [oneCandidate_count h, hq, Nat.add_assoc]) h

theorem generationsLoop_count {c : DECfg α} {rng : Nat → Nat} {fuel : Nat} {energy : List α → α} {sig : Nat → Bool} {left g : Nat} {v : DEConv α} {s : DESt α} {r : DEOut α}
    (hs : s.trace.length = g * c.nPop) (h : generationsLoop c rng fuel energy sig left g v s = .ok r) :
    (r.status = 5 ∧ r.generations = g + left ∧ r.st.trace.length = r.generations * c.nPop) ∨
    ((r.status = 1 ∨ r.status = 100) ∧ r.generations < g + left ∧ r.st.trace.length = (r.generations + 1) * c.nPop) := by
  induction left generalizing g v s with
  | zero => simp only [generationsLoop] at h; cases h; exact .inl ⟨rfl, rfl, hs⟩
  | succ n ih =>
    simp only [generationsLoop] at h
    obtain ⟨s1, h1, h⟩ := bind_ok h
    have h2 : s1.trace.length = (g + 1) * c.nPop := by rw [oneGeneration_count h1, hs, Nat.add_mul, Nat.one_mul]
    split at h
    · cases h; exact .inr ⟨.inr rfl, by dsimp only; omega, h2⟩
    · split at h
      · cases h; exact .inr ⟨.inl rfl, by dsimp only; omega, h2⟩
      · rcases ih h2 h with ⟨a, b, d⟩ | ⟨a, b, d⟩
        · exact .inl ⟨a, by omega, d⟩
        · exact .inr ⟨a, by omega, d⟩

/-- C130: what `DiffEvolnFit` notes as number of evaluations. If all 600 generations are done, it is right. If the fit converges or is broken off, one generation is missing: eight evaluations
for each free parameter. -/
theorem C130_de (toInt : α → Res Int) (params : List α) (lims : List (DELim α)) (tol : α) (rng : Nat → Nat) (lhs : Option (Nat → List Nat)) (fuel : Nat) (energy : List α → α) (sig : Nat → Bool)
    (trial0 : List α) (r : DEFit α) (h : diffEvolnFit toInt params lims tol rng lhs fuel energy sig trial0 = .ok r) :
    (r.status = -2 ∧ r.nEvals = none ∧ r.trace = []) ∨
    (r.status = 5 ∧ r.nEvals = some r.trace.length ∧ r.trace.length = 600 * (8 * (lims.filter fun l => !l.fixed).length)) ∨
    ((r.status = 1 ∨ r.status = 100) ∧ ∃ k, r.nEvals = some k ∧ r.trace.length = k + 8 * (lims.filter fun l => !l.fixed).length) := by
  unfold diffEvolnFit at h
  split at h
  · cases h; exact .inl ⟨rfl, rfl, rfl⟩
  · obtain ⟨st, hst, h⟩ := bind_ok h
    obtain ⟨q, hq, h⟩ := bind_ok h
    cases h
    unfold deSetup at hst
    obtain ⟨pop, -, hst⟩ := bind_ok hst
    cases hst
    unfold solve at hq
    rcases generationsLoop_count (by simp) hq with ⟨a, b, d⟩ | ⟨a, b, d⟩
    · refine .inr (.inl ⟨a, by dsimp only at d ⊢; rw [d], ?_⟩)
      dsimp only at d ⊢
      rw [d, b, Nat.zero_add]
    · refine .inr (.inr ⟨a, _, rfl, ?_⟩)
      dsimp only at d ⊢
      rw [d, Nat.add_mul, Nat.one_mul]

end

/-- C130: after a fit with Levenberg-Marquardt that does not fail, the number that is printed is the number of evaluations: at the start, for derivatives, and for steps. -/
theorem C130_levmar (kind : StatKind) (nValid nFree : Int) (nParams : Nat) (dev : List XR → List XR) (m : Nat) (ftol : XR) (limitsExist : Bool) (pars : List (MPPar XR)) (stop : Nat → Bool)
    (fuel : Nat) (start : List XR) (r : LMOut XR) (h : levMarFull dev m ftol limitsExist pars stop fuel start = .ok r) (hst : 0 < r.status) (xerror : List XR) (rep : Report XR)
    (hrep : reportLevMar kind nValid nFree nParams r xerror = .ok (some rep)) : rep.nEvals = r.trace.length := by
  obtain ⟨outer, inner, h⟩ := fit_refines h
  rw [← mpfit_count h hst]
  unfold reportLevMar noteLevMar storeErrors at hrep
  obtain ⟨res, hres, hrep⟩ := bind_ok hrep
  obtain ⟨s, -, hres⟩ := bind_ok hres
  cases hres
  unfold printResults at hrep
  rw [if_pos rfl] at hrep
  obtain ⟨errs, -, hrep⟩ := bind_ok hrep
  cases hrep
  rfl

/-- C130: the number that is printed after differential evolution. -/
theorem C130_de_report (kind : StatKind) (nValid nFree : Int) (nParams : Nat) (toInt : XR → Res Int) (params : List XR) (lims : List (DELim XR)) (tol : XR) (rng : Nat → Nat)
    (lhs : Option (Nat → List Nat)) (fuel : Nat) (energy : List XR → XR) (sig : Nat → Bool) (trial0 : List XR) (r : DEFit XR)
    (h : diffEvolnFit toInt params lims tol rng lhs fuel energy sig trial0 = .ok r) (hs : 1 ≤ r.status) :
    ∃ rep, reportDiffEvoln kind nValid nFree nParams r = .ok (some rep) ∧
      r.trace.length = rep.nEvals + if r.status = 5 then 0 else 8 * (lims.filter fun l => !l.fixed).length := by
  have hb : ∃ e, r.best = some e := by
    unfold diffEvolnFit at h
    split at h
    · cases h
      simp at hs
    · obtain ⟨st, -, h⟩ := bind_ok h
      obtain ⟨q, -, h⟩ := bind_ok h
      cases h
      exact ⟨_, rfl⟩
  obtain ⟨e, hb⟩ := hb
  unfold reportDiffEvoln noteDiffEvoln printResults
  rcases C130_de toInt params lims tol rng lhs fuel energy sig trial0 r h with ⟨a, -⟩ | ⟨a, b, -⟩ | ⟨a, k, b, d⟩
  · omega
  · rw [hb, b]
    simp only
    rw [if_neg (by decide), if_neg (by omega)]
    exact ⟨_, rfl, by rw [if_pos a]; rfl⟩
  · rw [hb, b]
    simp only
    rw [if_neg (by decide), if_neg (by omega)]
    exact ⟨_, rfl, by rw [d, if_neg (show ¬ r.status = 5 by omega)]⟩

/-! ## A fit that converges -/

theorem steady_step {B : ℝ} (hB : B ≠ 0) {v : DEConv XR} (hv : v.last = fin B) : fabs (1 - v.last / fin B : XR) = fin 0 := by
  rw [hv, fin_div_of_ne hB, div_self hB]
  show fabs (fin 1 - fin 1 : XR) = fin 0
  rw [fin_sub, sub_self]
  simp

/-- If the best value does not change, the fit converges at generation 40. -/
theorem steady_converges {c : DECfg XR} {rng : Nat → Nat} {fuel : Nat} {energy : List XR → XR} {B T : ℝ} (hB : B ≠ 0) (hT : 0 < T) (hc : c.tol = fin T)
    (hE : ∀ s t, s.bestE = fin B → oneGeneration c rng fuel energy s = .ok t → t.bestE = fin B) (n : Nat) {left g : Nat} {v : DEConv XR} {s : DESt XR} {r : DEOut XR} (hn : g + n = 40)
    (hl : n < left) (hs : s.bestE = fin B) (hv : v.last = fin B) (h0 : 20 < g → v.d0 = fin 0) (h1 : 30 < g → v.d1 = fin 0)
    (h : generationsLoop c rng fuel energy (fun _ => false) left g v s = .ok r) : r.status = 1 ∧ r.generations = 40 := by
  induction n generalizing left g v s with
  | zero =>
    obtain ⟨left, rfl⟩ : ∃ k, left = k + 1 := ⟨left - 1, by omega⟩
    simp only [generationsLoop] at h
    obtain ⟨s1, e1, h⟩ := bind_ok h
    have hb := hE s s1 hs e1
    obtain rfl : g = 40 := by omega
    have hcv : converged 40 c.tol (updateConv 40 s1.bestE v) = true := by
      have : updateConv 40 s1.bestE v = ⟨fin 0, fin 0, fin 0, fin B⟩ := by
        unfold updateConv
        rw [hb, steady_step hB hv, h0 (by omega), h1 (by omega)]
        rfl
      rw [this, hc]
      unfold converged
      simp [flt_fin, hT]
    rw [if_neg (by simp), if_pos hcv] at h
    cases h
    exact ⟨rfl, rfl⟩
  | succ n ih =>
    obtain ⟨left, rfl⟩ : ∃ k, left = k + 1 := ⟨left - 1, by omega⟩
    simp only [generationsLoop] at h
    obtain ⟨s1, e1, h⟩ := bind_ok h
    have hb := hE s s1 hs e1
    have hcv : ¬ converged g c.tol (updateConv g s1.bestE v) = true := by
      unfold converged
      rw [decide_eq_false (show ¬ g ≥ 40 by omega)]
      simp
    rw [if_neg (by simp), if_neg hcv] at h
    have hst := steady_step hB hv
    refine ih (by omega) (by omega) hb ?_ ?_ ?_ h
    · unfold updateConv
      rw [hb]
      split_ifs <;> first | rfl | exact hv
    · intro hg
      unfold updateConv
      rw [hb, hst]
      split_ifs <;> first | rfl | exact h0 (by omega)
    · intro hg
      unfold updateConv
      rw [hb, hst]
      split_ifs <;> first | exact h0 (by omega) | exact h1 (by omega)

/-- The number of evaluations is wrong: a fit of one parameter converges after 328 evaluations, and 320 are reported. -/
theorem C130_de_false : ∃ r rep, diffEvolnFit XR.toInt [fin (3 / 2)] [⟨false, true, true, fin 1, fin 2⟩] (fin (1 / 1000)) turnStream none 8 (fun _ => fin (10 ^ 21)) (fun _ => false) [fin 0] = .ok r ∧
    r.status = 1 ∧ reportDiffEvoln .chi2 10 1 1 r = .ok (some rep) ∧ r.trace.length = 328 ∧ rep.nEvals = 320 := by
  obtain ⟨r, h1, -, -⟩ := turnStream_fit fun _ => fin (10 ^ 21)
  have hs : r.status = 1 ∧ r.nEvals = some 320 := by
    have h := h1
    unfold diffEvolnFit at h
    rw [show deBounds ([fin (3 / 2)].zip [(⟨false, true, true, fin 1, fin 2⟩ : DELim XR)]) = some ([fin 1], [fin 2]) from rfl] at h
    obtain ⟨st, -, h⟩ := bind_ok h
    obtain ⟨q, hq, h⟩ := bind_ok h
    cases h
    unfold solve at hq
    have hq : q.status = 1 ∧ q.generations = 40 := by
      refine steady_converges (B := 10 ^ 20) (T := 1 / 1000) (by norm_num) (by norm_num) rfl ?_ 40 rfl (by omega) ?_ ?_ (by omega) (by omega) hq
      · intro s t hs ht
        refine forN_inv _ s t _ (fun _ q => q.bestE = fin (10 ^ 20)) hs ?_ ht
        intro z u u' _ hu hc
        unfold oneCandidate at hc
        obtain ⟨s1, g1, hc⟩ := bind_ok hc
        obtain ⟨old, -, hc⟩ := bind_ok hc
        obtain ⟨s2, g3, hc⟩ := bind_ok hc
        obtain ⟨s3, g4, hc⟩ := bind_ok hc
        cases hc
        have hb : s2.bestE = fin (10 ^ 20) := by rw [((calcTrial_rest g1).trans (repair_rest g3)).bestE, hu]
        show s3.bestE = _
        unfold accept at g4
        obtain ⟨o, -, g4⟩ := bind_ok g4
        split at g4
        · obtain ⟨pe, -, g4⟩ := bind_ok g4
          obtain ⟨pop, -, g4⟩ := bind_ok g4
          cases g4
          unfold keepBest
          dsimp only
          rw [hb, flt_fin, if_neg (by norm_num)]
        · cases g4
          exact hb
      · show (lit (10 ^ 20) : XR) = _
        rw [XR.lit_def]; norm_num
      · show (lit (10 ^ 20) : XR) = _
        rw [XR.lit_def]; norm_num
    exact ⟨hq.1, by dsimp only; rw [hq.2]; rfl⟩
  obtain ⟨rep, h2, h3⟩ := C130_de_report .chi2 10 1 1 _ _ _ _ _ _ _ _ _ _ r h1 (by omega)
  have h4 : r.trace.length = 328 := by
    rcases C130_de _ _ _ _ _ _ _ _ _ _ r h1 with ⟨a, -⟩ | ⟨a, -⟩ | ⟨-, k, a, b⟩
    · omega
    · omega
    · rw [hs.2] at a
      cases a
      exact b
  refine ⟨r, rep, h1, hs.1, h2, h4, ?_⟩
  rw [h4, hs.1] at h3
  have : 328 = rep.nEvals + 8 := h3
  omega

/-! ## Examples -/

/-- A fit with Levenberg-Marquardt that is broken off: what is reported is the number of evaluations. -/
example : ∃ r rep, levMarFull kinkDev 1 (fin (1 / 10 ^ 8)) false [⟨false, false, false, fin 0, fin 0⟩] (fun _ => true) 2 [fin 1] = .ok r ∧
    reportLevMar .chi2 1 1 1 r [fin (1 / 2)] = .ok (some rep) ∧ rep.nEvals = r.trace.length := by
  obtain ⟨r, h1, h2, h3⟩ := kink_broken
  have hx : ∃ rep, reportLevMar .chi2 1 1 1 r [fin (1 / 2)] = .ok (some rep) := by
    unfold reportLevMar noteLevMar storeErrors reportedPars
    rw [if_neg (by omega), h3]
    exact ⟨_, rfl⟩
  obtain ⟨rep, hx⟩ := hx
  exact ⟨r, rep, h1 2 le_rfl, hx, C130_levmar .chi2 1 1 1 kinkDev 1 _ false _ _ 2 [fin 1] r (h1 2 le_rfl) (by omega) _ rep hx⟩

end Imfit
