import Verif.Lemmas.DESafe

/-!
# C25: differential evolution never gets worse and reports what it found

For every arithmetic whose comparisons are ordered (`OrderLaws`; NaN allowed), every objective, random stream, strategy and number of generations: the best
energy never increases, and no evaluated vector was better than the one reported. That the energy reported is the statistic of the vector returned
holds if some evaluation gave less than 10²⁰, the value that `bestEnergy` starts with; otherwise the solver returns zeros, and 10²⁰ as their statistic
(`C25_false`).
-/

namespace Imfit

open XR

/-- What is used of the comparisons of floating-point numbers (`fle a a` means that `a` is not NaN). -/
structure OrderLaws (α : Type) [FP α] : Prop where
  irrefl : ∀ a : α, flt a a = false
  trans : ∀ a b c : α, flt a b = true → flt b c = true → flt a c = true
  num : ∀ a b : α, flt a b = true → fle a a = true
  negtrans : ∀ a b c : α, fle b b = true → flt a b = false → flt b c = false → flt a c = false
  lit_num : ∀ q : ℚ, fle (lit q : α) (lit q) = true

theorem orderLaws_XR : OrderLaws XR where
  irrefl a := by cases a <;> simp [FP.flt, XR.lt']
  trans a b c := by
    cases a <;> cases b <;> cases c <;> simp [FP.flt, XR.lt']
    exact fun h g => lt_trans h g
  num a b := by cases a <;> cases b <;> simp [FP.flt, FP.fle, XR.lt', XR.le']
  negtrans a b c := by
    cases a <;> cases b <;> cases c <;> simp [FP.flt, FP.fle, XR.lt', XR.le']
    exact fun h g => le_trans g h
  lit_num q := by simp

section
variable {α : Type} [FP α]

/-- Loop invariant for the energies. `E` is the value `bestEnergy` starts with, `z` the vector `bestSolution` starts with. -/
structure EInv (energy : List α → α) (E : α) (z : List α) (st : DESt α) : Prop where
  low : ∀ p ∈ st.trace, flt (energy p.1) st.bestE = false
  mono : ∀ p ∈ st.trace, flt p.2 st.bestE = false
  pair : st.trace.Pairwise fun p q => flt p.2 q.2 = false
  popLow : ∀ x ∈ st.popE, fle x x = true ∧ flt x st.bestE = false
  found : (st.best = z ∧ st.bestE = E) ∨ ∃ p ∈ st.trace, p.1 = st.best ∧ st.bestE = energy st.best

theorem mem_wr {β : Type} {l l' : List β} {k : Nat} {x y : β} (h : wr l k x = .ok l') (hy : y ∈ l') : y ∈ l ∨ y = x := by
  unfold wr at h
  split at h
  · cases h; exact List.mem_or_eq_of_mem_set hy
  · cases h

theorem oneCandidate_energy (hL : OrderLaws α) {c : DECfg α} {rng : Nat → Nat} {fuel : Nat} {energy : List α → α} {E : α} {z : List α} {k : Nat}
    {s t : DESt α} (hi : EInv energy E z s) (h : oneCandidate c rng fuel energy k s = .ok t) : EInv energy E z t := by
  unfold oneCandidate at h
  obtain ⟨s1, h1, h⟩ := bind_ok h
  obtain ⟨old, h2, h⟩ := bind_ok h
  obtain ⟨s2, h3, h⟩ := bind_ok h
  obtain ⟨s3, h4, h⟩ := bind_ok h
  cases h
  have r := (calcTrial_rest h1).trans (repair_rest h3)
  have base : ∀ b, (∀ x, flt x s2.bestE = false → flt x b = false) → (∀ p ∈ s2.trace, flt (energy p.1) b = false) ∧
      (∀ p ∈ s2.trace, flt p.2 b = false) := by
    intro b hb
    rw [r.trace]
    exact ⟨fun p hp => hb _ (by rw [r.bestE]; exact hi.low p hp), fun p hp => hb _ (by rw [r.bestE]; exact hi.mono p hp)⟩
  have hpl : ∀ x ∈ s2.popE, fle x x = true ∧ flt x s2.bestE = false := by rw [r.popE, r.bestE]; exact hi.popLow
  have hpair : s2.trace.Pairwise fun p q => flt p.2 q.2 = false := by rw [r.trace]; exact hi.pair
  have hfound : (s2.best = z ∧ s2.bestE = E) ∨ ∃ p ∈ s2.trace, p.1 = s2.best ∧ s2.bestE = energy s2.best := by
    rw [r.best, r.bestE, r.trace]; exact hi.found
  -- the invariant once the evaluation has been recorded
  have fin : ∀ u : DESt α, u.trace = s2.trace → (∀ x, flt x s2.bestE = false → flt x u.bestE = false) → flt (energy s2.trial) u.bestE = false →
      (∀ x ∈ u.popE, fle x x = true ∧ flt x u.bestE = false) →
      ((u.best = z ∧ u.bestE = E) ∨ ∃ p ∈ s2.trace ++ [(s2.trial, u.bestE)], p.1 = u.best ∧ u.bestE = energy u.best) →
      EInv energy E z (note s2.trial u) := by
    intro u ht hb he hp hf
    obtain ⟨b1, b2⟩ := base u.bestE hb
    refine ⟨?_, ?_, ?_, hp, ?_⟩
    · intro p hp
      simp only [note, ht, List.mem_append, List.mem_singleton] at hp
      rcases hp with hp | rfl
      · exact b1 p hp
      · exact he
    · intro p hp
      simp only [note, ht, List.mem_append, List.mem_singleton] at hp
      rcases hp with hp | rfl
      · exact b2 p hp
      · exact hL.irrefl _
    · simp only [note, ht]
      rw [List.pairwise_append]
      refine ⟨hpair, List.pairwise_singleton _ _, ?_⟩
      intro p hp q hq
      rw [List.mem_singleton] at hq
      subst hq
      exact b2 p hp
    · simp only [note, ht]
      exact hf
  unfold accept at h4
  obtain ⟨o, ho, h4⟩ := bind_ok h4
  obtain ⟨hko, rfl⟩ := rd_eq_ok_iff.1 ho
  have hok := hpl _ (List.getElem_mem hko)
  split at h4
  · rename_i hlt
    obtain ⟨pe, hpe, h4⟩ := bind_ok h4
    obtain ⟨pop, hpop, h4⟩ := bind_ok h4
    cases h4
    unfold keepBest
    split
    · rename_i hlt2
      have hdown : ∀ x, flt x s2.bestE = false → flt x (energy s2.trial) = false := by
        intro x hx
        cases hx' : flt x (energy s2.trial) with
        | false => rfl
        | true => rw [hL.trans _ _ _ hx' hlt2] at hx; cases hx
      refine fin _ rfl hdown (hL.irrefl _) ?_ ?_
      · intro x hx
        rcases mem_wr hpe hx with hx | rfl
        · exact ⟨(hpl x hx).1, hdown x (hpl x hx).2⟩
        · exact ⟨hL.num _ _ hlt, hL.irrefl _⟩
      · exact Or.inr ⟨(s2.trial, energy s2.trial), by simp, rfl, rfl⟩
    · rename_i hlt2
      have hlt2' : flt (energy s2.trial) s2.bestE = false := by simpa using hlt2
      refine fin _ rfl (fun x hx => hx) hlt2' ?_ ?_
      · intro x hx
        rcases mem_wr hpe hx with hx | rfl
        · exact hpl x hx
        · exact ⟨hL.num _ _ hlt, hlt2'⟩
      · rcases hfound with h | ⟨p, hp, h⟩
        · exact Or.inl h
        · exact Or.inr ⟨p, by simp [hp], h⟩
  · rename_i hlt
    cases h4
    refine fin _ rfl (fun x hx => hx) (hL.negtrans _ _ _ hok.1 (by simpa using hlt) hok.2) hpl ?_
    rcases hfound with h | ⟨p, hp, h⟩
    · exact Or.inl h
    · exact Or.inr ⟨p, by simp [hp], h⟩

/-- The invariant at the end of `Solve`. -/
theorem solve_energy (hL : OrderLaws α) {c : DECfg α} {rng : Nat → Nat} {lhs : Option (Nat → List Nat)} {trial0 : List α} {fuel maxGen : Nat}
    {energy : List α → α} {sig : Nat → Bool} {st : DESt α} {r : DEOut α} (hst : deSetup c lhs rng trial0 = .ok st)
    (h : solve c rng fuel energy sig maxGen st = .ok r) : EInv energy (lit (10 ^ 20)) (List.replicate c.nDim 0) r.st := by
  unfold deSetup at hst
  obtain ⟨pop, _, hst⟩ := bind_ok hst
  cases hst
  refine generationsLoop_inv (EInv energy (lit (10 ^ 20)) (List.replicate c.nDim 0)) (fun k s t _ hs ht => oneCandidate_energy hL hs ht) ?_ h
  refine ⟨by simp, by simp, by simp, ?_, Or.inl ⟨rfl, rfl⟩⟩
  intro x hx
  rw [List.eq_of_mem_replicate hx]
  exact ⟨hL.lit_num _, hL.irrefl _⟩

/-- `Solve` after `Setup`. `trace` lists the evaluations: vector, and best energy afterwards.
The best energy never increases; no evaluated vector had a lower statistic than the energy reported; if some evaluation gave less than 10²⁰, the vector
returned is one of the evaluated vectors and the energy reported is its statistic. -/
theorem C25_solve_partial (hL : OrderLaws α) (c : DECfg α) (rng : Nat → Nat) (lhs : Option (Nat → List Nat)) (trial0 : List α) (fuel maxGen : Nat)
    (energy : List α → α) (sig : Nat → Bool) (st : DESt α) (r : DEOut α) (hst : deSetup c lhs rng trial0 = .ok st)
    (h : solve c rng fuel energy sig maxGen st = .ok r) :
    (r.st.trace.Pairwise fun p q => flt p.2 q.2 = false) ∧ (∀ p ∈ r.st.trace, flt (energy p.1) r.st.bestE = false) ∧
    ((∃ p ∈ r.st.trace, flt (energy p.1) (lit (10 ^ 20)) = true) →
      (∃ p ∈ r.st.trace, p.1 = r.st.best) ∧ r.st.bestE = energy r.st.best) := by
  have hi := solve_energy hL hst h
  refine ⟨hi.pair, hi.low, ?_⟩
  rintro ⟨p, hp, hlt⟩
  rcases hi.found with ⟨_, hE⟩ | ⟨q, hq, e1, e2⟩
  · have := hi.low p hp
    rw [hE] at this
    rw [this] at hlt
    cases hlt
  · exact ⟨⟨q, hq, e1⟩, e2⟩

/-- The same for `DiffEvolnFit`: what it stores as best-fit statistic belongs to the parameter values it leaves. -/
theorem C25_fit_partial (hL : OrderLaws α) (toInt : α → Res Int) (params : List α) (lims : List (DELim α)) (tol : α) (rng : Nat → Nat)
    (lhs : Option (Nat → List Nat)) (fuel : Nat) (energy : List α → α) (sig : Nat → Bool) (trial0 : List α) (r : DEFit α)
    (h : diffEvolnFit toInt params lims tol rng lhs fuel energy sig trial0 = .ok r) (hs : r.status ≠ -2) :
    ∃ e, r.best = some e ∧ (∀ p ∈ r.trace, flt (energy p.1) e = false) ∧
      ((∃ p ∈ r.trace, flt (energy p.1) (lit (10 ^ 20)) = true) → e = energy r.params ∧ ∃ p ∈ r.trace, p.1 = r.params) := by
  unfold diffEvolnFit at h
  split at h
  · cases h; exact absurd rfl hs
  · obtain ⟨st, h1, h⟩ := bind_ok h
    obtain ⟨q, h2, h⟩ := bind_ok h
    cases h
    obtain ⟨_, a2, a3⟩ := C25_solve_partial hL _ _ _ _ _ _ _ _ _ _ h1 h2
    refine ⟨q.st.bestE, rfl, a2, ?_⟩
    intro hp
    obtain ⟨b1, b2⟩ := a3 hp
    exact ⟨b2, b1⟩

/-- If no evaluation gives less than 10²⁰, the zeros `bestSolution` starts with are returned. -/
theorem solve_nothing_found {c : DECfg α} {rng : Nat → Nat} {lhs : Option (Nat → List Nat)} {trial0 : List α} {fuel maxGen : Nat}
    {energy : List α → α} {sig : Nat → Bool} {st : DESt α} {r : DEOut α} (he : ∀ v, flt (energy v) (lit (10 ^ 20)) = false)
    (hst : deSetup c lhs rng trial0 = .ok st) (h : solve c rng fuel energy sig maxGen st = .ok r) :
    r.st.best = List.replicate c.nDim 0 ∧ r.st.bestE = lit (10 ^ 20) := by
  unfold deSetup at hst
  obtain ⟨pop, _, hst⟩ := bind_ok hst
  cases hst
  have := generationsLoop_inv (fun s => (s.best = List.replicate c.nDim 0 ∧ s.bestE = lit (10 ^ 20)) ∧ ∀ x ∈ s.popE, x = lit (10 ^ 20))
    (fun k s t _ hs ht => ?_) ⟨⟨rfl, rfl⟩, fun x hx => List.eq_of_mem_replicate hx⟩ h
  · exact this.1
  · unfold oneCandidate at ht
    obtain ⟨s1, h1, ht⟩ := bind_ok ht
    obtain ⟨old, h2, ht⟩ := bind_ok ht
    obtain ⟨s2, h3, ht⟩ := bind_ok ht
    obtain ⟨s3, h4, ht⟩ := bind_ok ht
    cases ht
    have r := (calcTrial_rest h1).trans (repair_rest h3)
    unfold accept at h4
    obtain ⟨o, ho, h4⟩ := bind_ok h4
    obtain ⟨hko, rfl⟩ := rd_eq_ok_iff.1 ho
    have e : s2.popE[k] = lit (10 ^ 20) := hs.2 _ (by rw [← r.popE]; exact List.getElem_mem hko)
    rw [e, he] at h4
    simp only [Bool.false_eq_true, if_false] at h4
    cases h4
    exact ⟨⟨by simp only [note]; rw [r.best]; exact hs.1.1, by simp only [note]; rw [r.bestE]; exact hs.1.2⟩,
      by simp only [note]; rw [r.popE]; exact hs.2⟩

end

/-- A stream that runs through the eight members in turn. -/
def turnStream (p : Nat) : Nat := p % 8 * 536870912 + 1

/-- A fit of one parameter with limits 1 and 2 (exact arithmetic) comes to an end, whatever the objective. -/
theorem turnStream_fit (energy : List XR → XR) : ∃ r, diffEvolnFit XR.toInt [fin (3 / 2)] [⟨false, true, true, fin 1, fin 2⟩] (fin (1 / 1000)) turnStream
    none 8 energy (fun _ => false) [fin 0] = .ok r ∧ r.status ≠ -2 ∧
    ((∀ v, flt (energy v) (fin (10 ^ 20)) = false) → r.params = [fin 0] ∧ r.best = some (fin (10 ^ 20))) := by
  have hb : deBounds ([fin (3 / 2)].zip [(⟨false, true, true, fin 1, fin 2⟩ : DELim XR)]) = some ([fin 1], [fin 2]) := rfl
  unfold diffEvolnFit
  rw [hb]
  simp only [List.filter, Bool.not_false, List.length_cons, List.length_nil]
  generalize hc : (⟨0 + 1, 8 * (0 + 1), DEBase.randToBest1, false, lit (7 / 10), 1, fin (1 / 1000), [fin 1], [fin 2], XR.toInt⟩ : DECfg XR) = c
  have hsz : SizesCfg c := by subst hc; constructor <;> norm_num
  have ht : c.toInt = XR.toInt := by subst hc; rfl
  have hp : c.nPop = 8 := by subst hc; rfl
  have hd : c.nDim = 1 := by subst hc; rfl
  have hr : ∀ p, turnStream p < 2 ^ 32 - 1 := fun p => by unfold turnStream; omega
  have hcov : Covers c turnStream 8 := by
    intro p i hi
    rw [hp] at hi
    refine ⟨(i + 8 - p % 8) % 8, Nat.mod_lt _ (by norm_num), ?_⟩
    have e : (p + (i + 8 - p % 8) % 8) % 8 = i := by omega
    rw [ht, toInt_draw (by have := hr (p + (i + 8 - p % 8) % 8); omega) hsz.pop]
    unfold turnStream
    rw [e, hp]
    congr 2
    omega
  obtain ⟨st, h1, h2⟩ := deSetup_total (c := c) (lhs := none) (rng := turnStream) (trial0 := [fin 0]) hsz (by simp)
  obtain ⟨q, h3⟩ := generationsLoop_total (energy := energy) (sig := fun _ => false) hsz (goodDraws_of ht hr) hcov
    (by subst hc; decide) 600 0 ⟨lit 100, lit 100, lit 100, lit (10 ^ 20)⟩ { st with bestE := lit (10 ^ 20) } ⟨h2.pop, h2.popE, h2.best⟩
  have h3' : solve c turnStream 8 energy (fun _ => false) 600 st = .ok q := h3
  rw [h1]
  simp only [ok_bind, h3']
  refine ⟨_, rfl, ?_, ?_⟩
  · have hstat : ∀ left g v s (q : DEOut XR), generationsLoop c turnStream 8 energy (fun _ => false) left g v s = .ok q → q.status ≠ -2 := by
      intro left
      induction left with
      | zero => intro g v s q h; simp only [generationsLoop] at h; cases h; simp
      | succ n ih =>
        intro g v s q h
        simp only [generationsLoop, Bool.false_eq_true, if_false] at h
        obtain ⟨s1, _, h⟩ := bind_ok h
        split at h
        · cases h; simp
        · exact ih _ _ _ _ h
    exact hstat _ _ _ _ _ h3
  · intro he
    have he' : ∀ v, flt (energy v) (lit (10 ^ 20)) = false := by
      intro v
      have := he v
      simpa using this
    obtain ⟨e1, e2⟩ := solve_nothing_found he' h1 h3'
    exact ⟨by rw [e1, hd]; rfl, by rw [e2]; simp⟩

/-- An objective that is never below 10²⁰ (here 10²¹): the fit comes to an end and reports 10²⁰ for the vector returned, whose statistic is 10²¹. -/
theorem C25_false : ∃ r : DEFit XR, diffEvolnFit XR.toInt [fin (3 / 2)] [⟨false, true, true, fin 1, fin 2⟩] (fin (1 / 1000)) turnStream
    none 8 (fun _ => fin (10 ^ 21)) (fun _ => false) [fin 0] = .ok r ∧ r.best = some (fin (10 ^ 20)) ∧
    (fun _ : List XR => fin (10 ^ 21)) r.params = fin (10 ^ 21) ∧ (fin (10 ^ 20) : XR) ≠ fin (10 ^ 21) := by
  obtain ⟨r, h1, _, h3⟩ := turnStream_fit fun _ => fin (10 ^ 21)
  exact ⟨r, h1, (h3 fun v => by simp [flt_fin]; norm_num).2, rfl, by intro h; have := XR.fin.inj h; norm_num at this⟩

/-- A fit of a parabola: the run exists and what is stored is the statistic of the vector returned. -/
example : ∃ r : DEFit XR, diffEvolnFit XR.toInt [fin (3 / 2)] [⟨false, true, true, fin 1, fin 2⟩] (fin (1 / 1000)) turnStream
    none 8 (fun v => v.headD nan * v.headD nan) (fun _ => false) [fin 0] = .ok r ∧
    ∃ e, r.best = some e ∧ ∀ p ∈ r.trace, flt (p.1.headD nan * p.1.headD nan) e = false := by
  obtain ⟨r, h1, h2, _⟩ := turnStream_fit fun v => v.headD nan * v.headD nan
  obtain ⟨e, h3, h4, _⟩ := C25_fit_partial orderLaws_XR _ _ _ _ _ _ _ _ _ _ r h1 h2
  exact ⟨r, h1, e, h3, h4⟩

end Imfit
