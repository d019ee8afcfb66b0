import Verif.Props.C130
import Verif.Props.C46

/-!
# C131 — A fit that the user breaks off is reported

If the user stops a fit, the best parameters so far are printed, with their statistic.

* This is so for Levenberg-Marquardt (with the reservation of C28) and differential evolution: `C131_levmar_partial`, `C131_de_partial`.
* After Nelder-Mead and the other algorithms of the NLopt library nothing is printed: `C131_nlopt`, `C131_nlopt_false`. They return the status -5 then, and `PrintResults` prints only if the
  status is 1 or more (`core/print_results.cpp:133`).
* Reports of fits with NLopt that were not broken off: `C131_nlopt_report`.
-/

namespace Imfit

open Spec XR FP

/-- C131: a fit with Levenberg-Marquardt that was broken off is reported. Missing from the full claim: the statistic may be that of the last trial (C28). -/
theorem C131_levmar_partial (kind : StatKind) (nValid nFree : Int) (dev : List XR → List XR) (m : Nat) (ftol : XR) (limitsExist : Bool) (pars : List (MPPar XR)) (stop : Nat → Bool) (fuel : Nat)
    (start : List XR) (r : LMOut XR) (hnum : mpEnorm (dev start) ≠ nan) (h : levMarFull dev m ftol limitsExist pars stop fuel start = .ok r) (hst : r.status = MP_SIGINT)
    (xerror : List XR) (hx : xerror.length = r.xall.length) :
    ∃ rep w, reportLevMar kind nValid nFree r.xall.length r xerror = .ok (some rep) ∧ rep.initial = some (chiOf dev start) ∧ lastTrial r.trace = some w ∧
      (rep.value = chiOf dev r.xall ∨ rep.value = chiOf dev w) ∧ rep.nEvals = r.trace.length := by
  have h0 : 0 < r.status := by rw [hst]; decide
  obtain ⟨rep, w, h1, -, h2, h3, h4⟩ := C129_levmar_partial kind nValid nFree dev m ftol limitsExist pars stop fuel start r hnum h h0 xerror hx
  exact ⟨rep, w, h1, h2, h3, h4, C130_levmar kind nValid nFree _ dev m ftol limitsExist pars stop fuel start r h h0 xerror rep h1⟩

/-- C131: a fit with differential evolution that was broken off is reported, with the statistic of the best vector so far. Missing from the full claim: a fit in which all values of the statistic
are 10²⁰ or more (C25). -/
theorem C131_de_partial (kind : StatKind) (nValid nFree : Int) (nParams : Nat) (toInt : XR → Res Int) (params : List XR) (lims : List (DELim XR)) (tol : XR) (rng : Nat → Nat)
    (lhs : Option (Nat → List Nat)) (fuel : Nat) (energy : List XR → XR) (sig : Nat → Bool) (trial0 : List XR) (r : DEFit XR)
    (h : diffEvolnFit toInt params lims tol rng lhs fuel energy sig trial0 = .ok r) (hs : r.status = 100) (hlow : ∃ p ∈ r.trace, flt (energy p.1) (lit (10 ^ 20)) = true) :
    ∃ rep, reportDiffEvoln kind nValid nFree nParams r = .ok (some rep) ∧ rep.value = energy r.params ∧ ∀ p ∈ r.trace, flt (energy p.1) rep.value = false := by
  obtain ⟨rep, h1, h2, h3, -⟩ := C129_de_partial kind nValid nFree nParams toInt params lims tol rng lhs fuel energy sig trial0 r h (by omega) hlow
  exact ⟨rep, h1, h2, h3⟩

/-- What a run of the library leaves behind is what the fit stores. -/
theorem nmSimplexFit_run {opt : NLopt XR} {huge : XR} {n : Nat} {params : List XR} {lims : List (DELim XR)} {stat : List XR → XR} {sig : Nat → Bool} {fuel count : Nat} {f : NLFit XR}
    (h : nmSimplexFit opt huge n params lims stat sig fuel count = .ok f) :
    ∃ lo hi e, nlRun opt lo hi params (n * 10000) stat sig fuel [] false count = .ok e ∧ f.status = e.status ∧ f.hist = e.hist ∧ f.params = e.x ∧ f.stored = some ⟨e.count, e.minf, stat params⟩ := by
  unfold nmSimplexFit at h
  obtain ⟨b, -, h⟩ := bind_ok h
  obtain ⟨e, he, h⟩ := bind_ok h
  cases h
  exact ⟨_, _, e, he, rfl, rfl, rfl, rfl⟩

/-- C131: if the signal arrives during a fit with an algorithm of the NLopt library that keeps its promises, nothing is printed, whatever has been found. -/
theorem C131_nlopt (solver : Int) (hsol : solver ≠ 1) (kind : StatKind) (nValid nFree : Int) (nParams : Nat) {opt : NLopt XR} (hc : NLoptContract opt) (huge : XR) (n : Nat) (params : List XR)
    (lims : List (DELim XR)) (stat : List XR → XR) (sig : Nat → Bool) (fuel count : Nat) (f : NLFit XR) (h : nmSimplexFit opt huge n params lims stat sig fuel count = .ok f)
    (k : Nat) (hk : k < f.hist.length) (hs : sig k = true) : reportNlopt solver kind nValid nFree nParams f = .ok none := by
  obtain ⟨lo, hi, e, he, h1, h2, -, h4⟩ := nmSimplexFit_run h
  have h5 := (C46_stops hc he k (h2 ▸ hk) (.inr hs)).2
  unfold reportNlopt noteNlopt printResults
  rw [h4]
  dsimp only
  rw [if_neg hsol, h1, h5, if_pos (by decide)]

/-- C131: a fit with an algorithm of the library that succeeds is reported, with the value that the library gives, and in the first fit of a process with the number of its evaluations. There are
no errors, and no value for the start. -/
theorem C131_nlopt_report (solver : Int) (hsol : solver ≠ 1) (kind : StatKind) (nValid nFree : Int) (nParams : Nat) {opt : NLopt XR} (huge : XR) (n : Nat) (params : List XR)
    (lims : List (DELim XR)) (stat : List XR → XR) (sig : Nat → Bool) (fuel : Nat) (f : NLFit XR) (h : nmSimplexFit opt huge n params lims stat sig fuel 0 = .ok f) (hs : 1 ≤ f.status) :
    ∃ lo hi e rep, nlRun opt lo hi params (n * 10000) stat sig fuel [] false 0 = .ok e ∧ reportNlopt solver kind nValid nFree nParams f = .ok (some rep) ∧ f.params = e.x ∧
      rep.value = e.minf ∧ rep.nEvals = f.hist.length ∧ rep.initial = none ∧ rep.errs = none := by
  obtain ⟨lo, hi, e, he, h1, h2, h3, h4⟩ := nmSimplexFit_run h
  obtain ⟨s, g1, g2, -⟩ := C46_count h
  rw [h4] at g1
  cases g1
  unfold reportNlopt noteNlopt printResults
  rw [h4]
  dsimp only
  rw [if_neg hsol, if_neg (by omega)]
  exact ⟨lo, hi, e, _, he, rfl, h3, rfl, by dsimp only at g2 ⊢; omega, rfl, rfl⟩

/-- Nelder-Mead: the user stops the fit after the first evaluation. The statistic of the parameters is known, but nothing is printed. -/
theorem C131_nlopt_false : ∃ (opt : NLopt XR) (f : NLFit XR), NLoptContract opt ∧
    nmSimplexFit opt pinf 1 [fin 1] [⟨false, false, false, fin 0, fin 0⟩] (fun _ => fin 0) (fun _ => true) 2 0 = .ok f ∧ f.params = [fin 1] ∧ f.hist = [([fin 1], fin 0)] ∧
    reportNlopt 3 .chi2 10 1 1 f = .ok none := by
  have hw : Within [ninf] [pinf] [fin 1] := by
    refine ⟨rfl, fun i a b v ha hb hv => ?_⟩
    cases i with
    | zero => simp at ha hb hv; subst ha hb hv; exact ⟨rfl, rfl⟩
    | succ i => simp at ha
  have hrun : nmSimplexFit (toyOpt [fin 1] 5) pinf 1 [fin 1] [⟨false, false, false, fin 0, fin 0⟩] (fun _ => fin 0) (fun _ => true) 2 0 =
      .ok ⟨-5, [fin 1], some ⟨1, fin 0, fin 0⟩, 1, [([fin 1], fin 0)]⟩ := by
    unfold nmSimplexFit
    have e : nlBoundArrays pinf 1 [fin 1] [⟨false, false, false, fin 0, fin 0⟩] = .ok [(ninf, pinf)] := rfl
    rw [e]
    simp only [ok_bind, List.map_cons, List.map_nil]
    simp only [nlRun, toyOpt, hw, if_true]
    simp [ok_bind, pure_eq_ok]
  exact ⟨toyOpt [fin 1] 5, _, C46_contract_possible _ _, hrun, rfl, rfl,
    C131_nlopt 3 (by decide) .chi2 10 1 1 (C46_contract_possible _ _) _ _ _ _ _ _ _ _ _ hrun 0 (by decide) rfl⟩

/-! ## Examples -/

/-- Levenberg-Marquardt, broken off after the first step (`kink_broken`): reported. -/
example : ∃ r rep, levMarFull kinkDev 1 (fin (1 / 10 ^ 8)) false [⟨false, false, false, fin 0, fin 0⟩] (fun _ => true) 2 [fin 1] = .ok r ∧ r.status = MP_SIGINT ∧
    reportLevMar .chi2 1 1 1 r [fin (1 / 2)] = .ok (some rep) ∧ rep.nEvals = r.trace.length := by
  obtain ⟨r, h1, h2, h3⟩ := kink_broken
  have hd : kinkDev [fin 1] = [(-3 : ℝ)].map fin := by
    simp only [kinkDev, List.map_cons, List.map_nil]
    norm_num
  have hn : mpEnorm (kinkDev [fin 1]) ≠ nan := by
    rw [hd, C39_exact_partial [-3] (.inl fun x hx => .inr (by rw [List.mem_singleton.1 hx]; unfold smallSize; norm_num))]
    exact fun h => (by cases h)
  obtain ⟨rep, w, g1, -, -, -, g2⟩ := C131_levmar_partial .chi2 1 1 kinkDev 1 _ false _ _ 2 [fin 1] r hn (h1 2 le_rfl) (by rw [h2]; rfl) [fin (1 / 2)] (by rw [h3]; rfl)
  exact ⟨r, rep, h1 2 le_rfl, by rw [h2]; rfl, by rw [← g1, h3]; rfl, g2⟩

end Imfit
