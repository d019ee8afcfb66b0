import Verif.Model.Report
import Verif.Props.C25
import Verif.Props.C90
import Verif.Props.C43
import Verif.Props.C96
import Verif.Props.C99

/-!
# C129 — What imfit reports after a fit

The statistic that is printed belongs to the parameters that are printed, the reduced value, AIC and BIC belong to the statistic, and nothing is printed for fits that fail.

* The derived numbers are right: `C129_numbers`.
* After differential evolution the statistic is that of the result: `C129_de_partial`; after Levenberg-Marquardt it is that of the result or of the last trial: `C129_levmar_partial`.
* If `mpfit` fails, the statistic 0 and errors of 0 are printed: `C129_failed_false`. The same happens if differential evolution fails for want of limits, since the type of the
  solver has not been noted then: `C129_limits_false`.
-/

namespace Imfit

open Spec XR FP

/-- C129: whatever is printed, the reduced statistic, AIC and BIC belong to the value of the statistic. For the Cash statistic there is no reduced value. -/
theorem C129_numbers (kind : StatKind) (nValid nFree : Int) (nParams : Nat) (status : Int) (res : SolverRes XR) (rep : Report XR)
    (h : printResults kind nValid nFree nParams status res = .ok (some rep)) (v : ℝ) (hv : rep.value = fin v) (h0 : 0 ≤ nFree) (hn : nFree + 1 < nValid) :
    rep.kind = kind ∧ rep.reduced = (if kind = .cash then none else some (fin (v / (nValid - nFree)))) ∧
    rep.aic = fin (v + 2 * nFree + 2 * nFree * (nFree + 1) / (nValid - nFree - 1)) ∧ rep.bic = fin (v + nFree * Real.log nValid) := by
  have hd : ((nValid : ℝ) - nFree) ≠ 0 := by
    have : (nFree : ℝ) + 1 < nValid := by exact_mod_cast hn
    intro e
    linarith
  have hdiv : (fin v : XR) / lit ((nValid - nFree : Int) : ℚ) = fin (v / (nValid - nFree)) := by
    rw [XR.lit_def, fin_div_of_ne (by push_cast; exact hd)]
    push_cast
    rfl
  unfold printResults at h
  split at h
  · cases he : errorsFor nParams res.sigmas with
    | error e => rw [he] at h; cases h
    | ok errs =>
      rw [he, ok_bind] at h
      cases h
      dsimp only at hv ⊢
      rw [hv, C43_aic v nFree nValid true (by omega), C43_bic v nFree nValid true (by omega), hdiv]
      exact ⟨rfl, rfl, by simp [Spec.minus2lnL], by simp [Spec.minus2lnL]⟩
  · split at h
    · cases h
    · cases h
      dsimp only at hv ⊢
      rw [hv, C43_aic v nFree nValid true (by omega), C43_bic v nFree nValid true (by omega), hdiv]
      exact ⟨rfl, rfl, by simp [Spec.minus2lnL], by simp [Spec.minus2lnL]⟩

theorem errorsFor_all {α : Type} [FP α] (errs : List α) (n : Nat) (h : errs.length = n) : errorsFor n errs = .ok errs := by
  unfold errorsFor
  rw [copy_ok errs _ n le_rfl h.le, h, Nat.sub_self, List.replicate_zero, List.append_nil, List.take_of_length_le h.le]

/-- C129: after a fit with Levenberg-Marquardt that did not fail the report gives the statistic at the start, the errors that `mpfit` computed, and the statistic of the result or of the last
trial. Missing from the full claim: it need not be the statistic of the result (C28). -/
theorem C129_levmar_partial (kind : StatKind) (nValid nFree : Int) (dev : List XR → List XR) (m : Nat) (ftol : XR) (limitsExist : Bool) (pars : List (MPPar XR)) (stop : Nat → Bool) (fuel : Nat)
    (start : List XR) (r : LMOut XR) (hnum : mpEnorm (dev start) ≠ nan) (h : levMarFull dev m ftol limitsExist pars stop fuel start = .ok r) (hst : 0 < r.status)
    (xerror : List XR) (hx : xerror.length = r.xall.length) :
    ∃ rep w, reportLevMar kind nValid nFree r.xall.length r xerror = .ok (some rep) ∧ rep.errs = some xerror ∧ rep.initial = some (chiOf dev start) ∧ lastTrial r.trace = some w ∧
      (rep.value = chiOf dev r.xall ∨ rep.value = chiOf dev w) := by
  obtain ⟨outer, inner, h⟩ := fit_refines h
  obtain ⟨h1, w, h2, h3⟩ := C28_reported_partial dev m ftol limitsExist pars outer inner fuel start r hnum h hst
  unfold reportLevMar noteLevMar storeErrors reportedPars printResults
  rw [if_neg (by omega), ← hx, loopMap_list xerror _ id (fun i hi => rd_ok hi), List.map_id, ok_bind, ok_bind]
  simp only [if_true]
  rw [errorsFor_all xerror _ rfl, ok_bind]
  exact ⟨_, w, rfl, rfl, by rw [h1], h2, h3⟩

/-- C129: after a successful fit with differential evolution the report gives the statistic of the result, and no vector that was tried has a lower one. Missing from the full claim: a fit in
which all values of the statistic are 10²⁰ or more (C25). -/
theorem C129_de_partial (kind : StatKind) (nValid nFree : Int) (nParams : Nat) (toInt : XR → Res Int) (params : List XR) (lims : List (DELim XR)) (tol : XR) (rng : Nat → Nat)
    (lhs : Option (Nat → List Nat)) (fuel : Nat) (energy : List XR → XR) (sig : Nat → Bool) (trial0 : List XR) (r : DEFit XR)
    (h : diffEvolnFit toInt params lims tol rng lhs fuel energy sig trial0 = .ok r) (hs : 1 ≤ r.status) (hlow : ∃ p ∈ r.trace, flt (energy p.1) (lit (10 ^ 20)) = true) :
    ∃ rep, reportDiffEvoln kind nValid nFree nParams r = .ok (some rep) ∧ rep.value = energy r.params ∧ (∀ p ∈ r.trace, flt (energy p.1) rep.value = false) ∧ rep.initial = none ∧ rep.errs = none := by
  obtain ⟨e, h1, h2, h3⟩ := C25_fit_partial orderLaws_XR toInt params lims tol rng lhs fuel energy sig trial0 r h (by omega)
  have hk : ∃ k, r.nEvals = some k := by
    unfold diffEvolnFit at h
    split at h
    · cases h
      simp at hs
    · obtain ⟨st, -, h⟩ := bind_ok h
      obtain ⟨q, -, h⟩ := bind_ok h
      cases h
      exact ⟨_, rfl⟩
  obtain ⟨k, hk⟩ := hk
  unfold reportDiffEvoln noteDiffEvoln printResults
  rw [h1, hk]
  simp only
  rw [if_neg (by decide), if_neg (by omega)]
  exact ⟨_, rfl, (h3 hlow).1, h2, rfl, rfl⟩

/-- C129: after a fit with differential evolution nothing is printed unless it succeeded, except for want of limits. -/
theorem C129_de_silent (kind : StatKind) (nValid nFree : Int) (nParams : Nat) (r : DEFit XR) (e : XR) (k : Nat) (h1 : r.best = some e) (h2 : r.nEvals = some k) (hs : r.status < 1) :
    reportDiffEvoln kind nValid nFree nParams r = .ok none := by
  unfold reportDiffEvoln noteDiffEvoln printResults
  rw [h1, h2]
  simp only
  rw [if_neg (by decide), if_pos hs]

/-- If `mpfit` fails, the statistic 0 is printed, and errors of 0, whatever the data. -/
theorem C129_failed (kind : StatKind) (nValid nFree : Int) (x : List XR) (info : Int) (hi : info < 0) (trace : List (Bool × List XR)) (xerror : List XR) :
    ∃ rep, reportLevMar kind nValid nFree x.length (lmFail x info 0 trace) xerror = .ok (some rep) ∧ rep.value = fin 0 ∧ rep.initial = some (fin 0) ∧
      rep.errs = some (List.replicate x.length (fin 0)) := by
  unfold reportLevMar noteLevMar storeErrors reportedPars printResults lmFail
  rw [if_pos hi]
  exact ⟨_, rfl, rfl, rfl, rfl⟩

/-- All parameters are fixed: the statistic is 1, the report says 0 before and after the fit. -/
theorem C129_failed_false : ∃ r rep, levMarFull (fun _ => [fin 1]) 1 (fin (1 / 100)) true [⟨true, false, false, fin 0, fin 0⟩] (fun _ => false) 5 [fin 3] = .ok r ∧ r.status < 0 ∧
    reportLevMar .chi2 1 0 1 r [fin 9] = .ok (some rep) ∧ rep.value = fin 0 ∧ rep.initial = some (fin 0) ∧ chiOf (fun _ => [fin 1]) r.xall = fin 1 := by
  obtain ⟨rep, h1, h2, h3, -⟩ := C129_failed .chi2 1 0 [fin 3] MP_ERR_NFREE (by decide) [] [fin 9]
  refine ⟨lmFail [fin 3] MP_ERR_NFREE 0 [], rep, rfl, by decide, h1, h2, h3, ?_⟩
  have : mpEnorm ([(1 : ℝ)].map fin) = fin 1 := by
    rw [C39_exact_partial [1] (.inl fun x hx => .inr (by rw [List.mem_singleton.1 hx]; unfold smallSize; norm_num))]
    simp [Spec.sumSq]
  unfold chiOf
  rw [show ([fin 1] : List XR) = [(1 : ℝ)].map fin from rfl, this, fin_mul, mul_one]

/-- Differential evolution, and a parameter without limits: there has been no fit, but a report is printed, in the form for Levenberg-Marquardt, with the statistic 0. -/
theorem C129_limits_false : ∃ r rep, diffEvolnFit XR.toInt [fin 3] [⟨false, false, false, fin 0, fin 0⟩] (fin (1 / 1000)) (fun _ => 0) none 5 (fun _ => fin 7) (fun _ => false) [fin 0] = .ok r ∧
    r.status = -2 ∧ reportDiffEvoln .chi2 10 1 1 r = .ok (some rep) ∧ rep.value = fin 0 ∧ rep.initial = some (fin 0) ∧ rep.errs = some [fin 0] ∧ (fun _ : List XR => fin 7) r.params = fin 7 :=
  ⟨⟨-2, [fin 3], none, none, []⟩, _, rfl, rfl, rfl, rfl, rfl, rfl, rfl⟩

/-! ## Examples -/

/-- Ten pixels, three free parameters, chi-squared 14: the reduced value is 2, AIC is 24. -/
example : ∃ rep, printResults .chi2 10 3 5 1 (⟨2, 200, 0, fin 14, [], 0, 0⟩ : SolverRes XR) = .ok (some rep) ∧ rep.reduced = some (fin 2) ∧ rep.aic = fin 24 ∧ rep.nEvals = 200 := by
  refine ⟨_, rfl, ?_⟩
  obtain ⟨-, h1, h2, -⟩ := C129_numbers .chi2 10 3 5 1 ⟨2, 200, 0, fin 14, [], 0, 0⟩ _ rfl 14 rfl (by norm_num) (by norm_num)
  rw [h1, h2, if_neg (by decide)]
  norm_num

/-- A fit that was broken off (`kink_broken`): it began with chi-squared 9, and its result is 4. -/
example : ∃ r rep, levMarFull kinkDev 1 (fin (1 / 10 ^ 8)) false [⟨false, false, false, fin 0, fin 0⟩] (fun _ => true) 2 [fin 1] = .ok r ∧ r.xall = [fin 4] ∧
    reportLevMar .chi2 1 1 1 r [fin (1 / 2)] = .ok (some rep) ∧ rep.initial = some (fin 9) ∧ rep.errs = some [fin (1 / 2)] := by
  obtain ⟨r, h1, h2, h3⟩ := kink_broken
  have hd : kinkDev [fin 1] = [(-3 : ℝ)].map fin := by
    simp only [kinkDev, List.map_cons, List.map_nil]
    norm_num
  have hn : mpEnorm (kinkDev [fin 1]) = fin 3 := by
    rw [hd, C39_exact_partial [-3] (.inl fun x hx => .inr (by rw [List.mem_singleton.1 hx]; unfold smallSize; norm_num))]
    congr 1
    simp only [Spec.sumSq, List.map_cons, List.map_nil, List.sum_cons, List.sum_nil]
    rw [show (-3 : ℝ) ^ 2 + 0 = 3 ^ 2 by norm_num]
    exact Real.sqrt_sq (by norm_num)
  obtain ⟨rep, w, g1, g2, g3, -⟩ := C129_levmar_partial .chi2 1 1 kinkDev 1 _ false _ _ 2 [fin 1] r (by rw [hn]; exact fun h => (by cases h)) (h1 2 le_rfl) (by omega) [fin (1 / 2)] (by rw [h3]; rfl)
  refine ⟨r, rep, h1 2 le_rfl, h3, by rw [← g1, h3]; rfl, ?_, g2⟩
  rw [g3]
  unfold chiOf
  rw [hn, fin_mul]
  norm_num

end Imfit
