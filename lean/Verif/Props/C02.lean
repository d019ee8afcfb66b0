import Verif.Lemmas.FitStats

/-!
# C02 — masked pixels never influence chi-squared
-/

namespace Imfit

open Spec XR

/-- Two inputs that differ only in data and error values at masked pixels give the same setup status, the same deviates and
the same chi-squared for every model image (also one with non-finite values). -/
theorem C02_chi2_ignores_masked (i j : FitInput XR) (h : SameOnGood i j) (c : Chars i) (sh : Shapes i) (sh' : Shapes j)
    (hstat : i.stat ≠ .cash ∧ i.stat ≠ .poissonMLR) :
    ∃ s s' st, runSetup i = .ok (s, st) ∧ runSetup j = .ok (s', st) ∧
      ∀ img : List XR, img.length = padLen i →
        (∃ t t' y, computeDeviates (withModel s img) = .ok (t, y) ∧
          computeDeviates (withModel s' img) = .ok (t', y)) ∧
        (∃ t t' v, getFitStatistic (withModel s img) = .ok (t, v) ∧
          getFitStatistic (withModel s' img) = .ok (t', v)) := by
  refine ⟨runState i c, runState j (charsOf h c), runStatus i c, runSetup_eq sh, ?_, ?_⟩
  · rw [run_status_eq h sh sh']; exact runSetup_eq sh'
  · intro img hl
    have T := run_tabs (c := c) sh img (by rw [run_nModelVals sh]; exact hl)
    have T' := run_tabs (c := charsOf h c) sh' img (by rw [run_nModelVals sh', ← padLen_eq h]; exact hl)
    rw [← imgAt_eq h sh sh', n_eq h] at T'
    have hp : (withModel (runState i c) img).poissonMLR = false := by
      show (postSetup i c).poissonMLR = false
      rw [(setupFacts i c sh).mlr]; simp [hstat.2]
    have hp' : (withModel (runState j (charsOf h c)) img).poissonMLR = false := by
      show (postSetup j (charsOf h c)).poissonMLR = false
      rw [(setupFacts j (charsOf h c) sh').mlr, ← h.stat]; simp [hstat.2]
    have hu : (withModel (runState i c) img).useCash = false := by
      show (postSetup i c).useCash = false
      rw [(setupFacts i c sh).cash]
      cases hs : i.stat <;> simp_all
    have hu' : (withModel (runState j (charsOf h c)) img).useCash = false := by
      show (postSetup j (charsOf h c)).useCash = false
      rw [(setupFacts j (charsOf h c) sh').cash, ← h.stat]
      cases hs : i.stat <;> simp_all
    have e := fun z (hz : z < i.n) => chiTerm_eq h (c := c) sh sh' img (imgAt (runState i c) img) hz
    constructor
    · rw [computeDeviates_eq T hp, computeDeviates_eq T' hp', ← tab_congr e]
      exact ⟨_, _, _, rfl, rfl⟩
    · unfold getFitStatistic
      simp only [hu, hu', Bool.false_eq_true, if_false]
      rw [chiSquared_eq T, chiSquared_eq T', ← tab_congr e]
      exact ⟨_, _, _, rfl, rfl⟩

/-- The example: masked pixel 2 changed from data 3 / error 0 to data +inf / error NaN. -/
example : ∃ s s' st, runSetup exInput = .ok (s, st) ∧ runSetup exInput' = .ok (s', st) := by
  have sh' : Shapes exInput' := by
    refine ⟨exShapes.cols, exShapes.rows, rfl, exShapes.mask, ?_⟩
    intro code h
    exact ⟨rfl, (exShapes.errs code h).2⟩
  obtain ⟨s, s', st, h1, h2, _⟩ := C02_chi2_ignores_masked exInput exInput' exSame exChars exShapes sh'
    (by simp [exInput])
  exact ⟨s, s', st, h1, h2⟩

end Imfit
