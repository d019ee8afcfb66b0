import Verif.Props.C25

/-!
# C51: number of function evaluations reported by differential evolution

`generations` is the index of the last generation when the solver converges or is stopped, and the number of generations only when it runs to the end. So
the number stored is right in the last case only (`C51_max_partial`); otherwise it is short by one population (`C51_count`, `C51_false`).
-/

namespace Imfit

open XR

section
variable {α : Type} [FP α]

theorem oneCandidate_trace {c : DECfg α} {rng : Nat → Nat} {fuel : Nat} {energy : List α → α} {k : Nat} {s t : DESt α}
    (h : oneCandidate c rng fuel energy k s = .ok t) : t.trace.length = s.trace.length + 1 := by
  unfold oneCandidate at h
  obtain ⟨s1, h1, h⟩ := bind_ok h
  obtain ⟨old, h2, h⟩ := bind_ok h
  obtain ⟨s2, h3, h⟩ := bind_ok h
  obtain ⟨s3, h4, h⟩ := bind_ok h
  cases h
  have r := (calcTrial_rest h1).trans (repair_rest h3)
  have e : s3.trace = s2.trace := by
    unfold accept at h4
    obtain ⟨o, _, h4⟩ := bind_ok h4
    split at h4
    · obtain ⟨pe, _, h4⟩ := bind_ok h4
      obtain ⟨pop, _, h4⟩ := bind_ok h4
      cases h4
      unfold keepBest
      split <;> rfl
    · cases h4; rfl
  simp [note, e, r.trace]

theorem oneGeneration_trace {c : DECfg α} {rng : Nat → Nat} {fuel : Nat} {energy : List α → α} {s t : DESt α}
    (h : oneGeneration c rng fuel energy s = .ok t) : t.trace.length = s.trace.length + c.nPop := by
  refine forN_inv c.nPop s t _ (fun z q => q.trace.length = s.trace.length + z) rfl ?_ h
  intro z q q' _ hq hs
  rw [oneCandidate_trace hs, hq]
  omega

theorem generationsLoop_trace {c : DECfg α} {rng : Nat → Nat} {fuel : Nat} {energy : List α → α} {sig : Nat → Bool} {left g : Nat} {v : DEConv α}
    {s : DESt α} {r : DEOut α} (hs : s.trace.length = g * c.nPop) (h : generationsLoop c rng fuel energy sig left g v s = .ok r) :
    (r.status = 5 ∧ r.st.trace.length = r.generations * c.nPop) ∨
    ((r.status = 1 ∨ r.status = 100) ∧ r.st.trace.length = r.generations * c.nPop + c.nPop) := by
  induction left generalizing g v s with
  | zero => simp only [generationsLoop] at h; cases h; exact Or.inl ⟨rfl, hs⟩
  | succ n ih =>
    simp only [generationsLoop] at h
    obtain ⟨s1, h1, h⟩ := bind_ok h
    have e := oneGeneration_trace h1
    rw [hs] at e
    split at h
    · cases h; exact Or.inr ⟨Or.inr rfl, e⟩
    · split at h
      · cases h; exact Or.inr ⟨Or.inl rfl, e⟩
      · exact ih (by rw [e]; ring) h

/-- The number stored, compared with the number of evaluations made: equal if all generations were done (status 5), short by one population if the solver
converged (1) or was stopped by the user (100). -/
theorem C51_count (toInt : α → Res Int) (params : List α) (lims : List (DELim α)) (tol : α) (rng : Nat → Nat)
    (lhs : Option (Nat → List Nat)) (fuel : Nat) (energy : List α → α) (sig : Nat → Bool) (trial0 : List α) (r : DEFit α)
    (h : diffEvolnFit toInt params lims tol rng lhs fuel energy sig trial0 = .ok r) (hs : r.status ≠ -2) :
    ∃ n, r.nEvals = some n ∧ ((r.status = 5 ∧ r.trace.length = n) ∨
      ((r.status = 1 ∨ r.status = 100) ∧ r.trace.length = n + 8 * (lims.filter fun l => !l.fixed).length)) := by
  unfold diffEvolnFit at h
  split at h
  · cases h; exact absurd rfl hs
  · obtain ⟨st, h1, h⟩ := bind_ok h
    obtain ⟨q, h2, h⟩ := bind_ok h
    cases h
    refine ⟨_, rfl, ?_⟩
    have h0 : st.trace = [] := by
      unfold deSetup at h1
      obtain ⟨pop, _, h1⟩ := bind_ok h1
      cases h1
      rfl
    exact generationsLoop_trace (by simp [h0]) h2

/-- If the solver runs to the end, the number stored is right. -/
theorem C51_max_partial (toInt : α → Res Int) (params : List α) (lims : List (DELim α)) (tol : α) (rng : Nat → Nat)
    (lhs : Option (Nat → List Nat)) (fuel : Nat) (energy : List α → α) (sig : Nat → Bool) (trial0 : List α) (r : DEFit α)
    (h : diffEvolnFit toInt params lims tol rng lhs fuel energy sig trial0 = .ok r) (hs : r.status = 5) : r.nEvals = some r.trace.length := by
  obtain ⟨n, h1, h2⟩ := C51_count _ _ _ _ _ _ _ _ _ _ r h (by rw [hs]; decide)
  rcases h2 with ⟨_, h2⟩ | ⟨h2, _⟩
  · rw [h1, h2]
  · rcases h2 with h2 | h2 <;> rw [hs] at h2 <;> cases h2

end

/-- A fit of one parameter that is stopped in the first generation: eight evaluations were made, none is reported. -/
theorem C51_false (energy : List XR → XR) : ∃ r : DEFit XR, diffEvolnFit XR.toInt [fin (3 / 2)] [⟨false, true, true, fin 1, fin 2⟩] (fin (1 / 1000))
    turnStream none 8 energy (fun _ => true) [fin 0] = .ok r ∧ r.nEvals = some 0 ∧ r.trace.length = 8 := by
  have hb : deBounds ([fin (3 / 2)].zip [(⟨false, true, true, fin 1, fin 2⟩ : DELim XR)]) = some ([fin 1], [fin 2]) := rfl
  unfold diffEvolnFit
  rw [hb]
  simp only [List.filter, Bool.not_false, List.length_cons, List.length_nil]
  generalize hc : (⟨0 + 1, 8 * (0 + 1), DEBase.randToBest1, false, lit (7 / 10), 1, fin (1 / 1000), [fin 1], [fin 2], XR.toInt⟩ : DECfg XR) = c
  have hsz : SizesCfg c := by subst hc; constructor <;> norm_num
  have ht : c.toInt = XR.toInt := by subst hc; rfl
  have hp : c.nPop = 8 := by subst hc; rfl
  have hr : ∀ p, turnStream p < 2 ^ 32 - 1 := fun p => by unfold turnStream; omega
  have hcov : Covers c turnStream 8 := by
    intro p i hi
    rw [hp] at hi
    refine ⟨(i + 8 - p % 8) % 8, Nat.mod_lt _ (by norm_num), ?_⟩
    have e : (p + (i + 8 - p % 8) % 8) % 8 = i := by omega
    rw [ht, toInt_draw (by have := hr (p + (i + 8 - p % 8) % 8); omega) hsz.pop]
    unfold turnStream
    rw [e, hp]
    congr 2
    omega
  obtain ⟨st, h1, h2⟩ := deSetup_total (c := c) (lhs := none) (rng := turnStream) (trial0 := [fin 0]) hsz (by simp)
  have h0 : st.trace = [] := by
    unfold deSetup at h1
    obtain ⟨pop, _, h1⟩ := bind_ok h1
    cases h1
    rfl
  obtain ⟨s1, e1, _⟩ := forN_total c.nPop { st with bestE := lit (10 ^ 20) } (fun k st => oneCandidate c turnStream 8 energy k st) (Sizes c)
    ⟨h2.pop, h2.popE, h2.best⟩ (by
      intro z t hz ht'
      obtain ⟨q, hq⟩ := selectSamples_total (goodDraws_of ht hr) hsz.pop hcov (nSamples c.base) [(z : Int)] t.pos (by
        rw [hp]; subst hc; simp [nSamples])
      exact oneCandidate_of_samples hsz (goodDraws_of ht hr) hz ht' hq)
  have e2 : oneGeneration c turnStream 8 energy { st with bestE := lit (10 ^ 20) } = .ok s1 := e1
  have e3 : solve c turnStream 8 energy (fun _ => true) 600 st = .ok ⟨100, 0, s1⟩ := by
    unfold solve generationsLoop
    rw [e2]
    rfl
  rw [h1]
  simp only [ok_bind, e3]
  refine ⟨_, rfl, by simp, ?_⟩
  have := oneGeneration_trace e2
  simp only [h0, hp] at this
  exact this

/-- The fit of the example of C25: what is stored differs from the number of evaluations by 0 or by 8. -/
example : ∃ r : DEFit XR, diffEvolnFit XR.toInt [fin (3 / 2)] [⟨false, true, true, fin 1, fin 2⟩] (fin (1 / 1000)) turnStream
    none 8 (fun v => v.headD nan * v.headD nan) (fun _ => false) [fin 0] = .ok r ∧
    ∃ n, r.nEvals = some n ∧ (r.trace.length = n ∨ r.trace.length = n + 8) := by
  obtain ⟨r, h1, h2, _⟩ := turnStream_fit fun v => v.headD nan * v.headD nan
  obtain ⟨n, h3, h4⟩ := C51_count _ _ _ _ _ _ _ _ _ _ r h1 h2
  refine ⟨r, h1, n, h3, ?_⟩
  rcases h4 with ⟨_, h4⟩ | ⟨_, h4⟩
  · exact Or.inl h4
  · exact Or.inr h4

end Imfit
