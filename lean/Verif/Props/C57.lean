import Verif.Props.C51

/-!
# C57: differential evolution reports convergence when the best value has settled

The best value found is compared at every tenth generation. The record of all evaluations (`trace`: trial vector and best value known after it) is used to say what
the best value was at the end of a generation.
-/

namespace Imfit

open XR

section
variable {α : Type} [FP α]

/-- The best value at the end of generation `g`, with `n` evaluations in each generation. -/
def bestAfter (n : Nat) (tr : List (List α × α)) (g : Nat) : Option α := (tr[(g + 1) * n - 1]?).map Prod.snd

/-- The relative change of the best value over the ten generations before `g`. -/
def Change (n : Nat) (tr : List (List α × α)) (g : Nat) (d : α) : Prop :=
  ∃ a b, bestAfter n tr (g - 10) = some a ∧ bestAfter n tr g = some b ∧ d = fabs (1 - a / b)

/-- Over the last three times ten generations the best value changed by less than the tolerance. -/
def Settled (n : Nat) (tr : List (List α × α)) (tol : α) (g : Nat) : Prop :=
  ∀ j < 3, ∃ a b, bestAfter n tr (g - 10 * j - 10) = some a ∧ bestAfter n tr (g - 10 * j) = some b ∧ flt (fabs (1 - a / b)) tol = true

omit [FP α] in
theorem bestAfter_append {n : Nat} {tr : List (List α × α)} {g : Nat} {a : α} (h : bestAfter n tr g = some a) (ext : List (List α × α)) :
    bestAfter n (tr ++ ext) g = some a := by
  unfold bestAfter at h ⊢
  rw [Option.map_eq_some_iff] at h ⊢
  obtain ⟨p, h1, h2⟩ := h
  exact ⟨p, by rw [List.getElem?_append_left (List.getElem?_eq_some_iff.1 h1).1, h1], h2⟩

omit [FP α] in
theorem bestAfter_old {n : Nat} (hn : 0 < n) {tr : List (List α × α)} {g g' : Nat} (hl : tr.length = g * n) (hg : g' < g) (ext : List (List α × α)) :
    bestAfter n (tr ++ ext) g' = bestAfter n tr g' := by
  unfold bestAfter
  rw [List.getElem?_append_left]
  rw [hl]
  have : (g' + 1) * n ≤ g * n := Nat.mul_le_mul_right n hg
  have : 0 < (g' + 1) * n := Nat.mul_pos (Nat.succ_pos _) hn
  omega

theorem oneCandidate_ext {c : DECfg α} {rng : Nat → Nat} {fuel : Nat} {energy : List α → α} {k : Nat} {s t : DESt α}
    (h : oneCandidate c rng fuel energy k s = .ok t) : ∃ x, t.trace = s.trace ++ [(x, t.bestE)] := by
  unfold oneCandidate at h
  obtain ⟨s1, h1, h⟩ := bind_ok h
  obtain ⟨old, h2, h⟩ := bind_ok h
  obtain ⟨s2, h3, h⟩ := bind_ok h
  obtain ⟨s3, h4, h⟩ := bind_ok h
  cases h
  have r := (calcTrial_rest h1).trans (repair_rest h3)
  have e : s3.trace = s2.trace := by
    unfold accept at h4
    obtain ⟨o, _, h4⟩ := bind_ok h4
    split at h4
    · obtain ⟨pe, _, h4⟩ := bind_ok h4
      obtain ⟨pop, _, h4⟩ := bind_ok h4
      cases h4
      unfold keepBest
      split <;> rfl
    · cases h4; rfl
  exact ⟨s2.trial, by simp [note, e, r.trace]⟩

theorem oneGeneration_ext {c : DECfg α} {rng : Nat → Nat} {fuel : Nat} {energy : List α → α} {s t : DESt α}
    (h : oneGeneration c rng fuel energy s = .ok t) :
    ∃ ext, t.trace = s.trace ++ ext ∧ ext.length = c.nPop ∧ (0 < c.nPop → ∃ x, ext.getLast? = some (x, t.bestE)) := by
  refine forN_inv c.nPop s t _ (fun z q => ∃ ext, q.trace = s.trace ++ ext ∧ ext.length = z ∧ (0 < z → ∃ x, ext.getLast? = some (x, q.bestE)))
    ⟨[], by simp⟩ ?_ h
  rintro z q q' _ ⟨ext, h1, h2, -⟩ hs
  obtain ⟨x, hx⟩ := oneCandidate_ext hs
  exact ⟨ext ++ [(x, q'.bestE)], by rw [hx, h1, List.append_assoc], by simp [h2], fun _ => ⟨x, by simp⟩⟩

/-- What is known before generation `g`. -/
structure ConvInv (n g : Nat) (v : DEConv α) (tr : List (List α × α)) : Prop where
  len : tr.length = g * n
  last : 1 ≤ g → bestAfter n tr (10 * ((g - 1) / 10)) = some v.last
  d0 : 21 ≤ g → Change n tr (10 * ((g - 1) / 10)) v.d0
  d1 : 31 ≤ g → Change n tr (10 * ((g - 1) / 10) - 10) v.d1
  d2 : 41 ≤ g → Change n tr (10 * ((g - 1) / 10) - 20) v.d2

theorem Change.append {n : Nat} {tr : List (List α × α)} {g : Nat} {d : α} (h : Change n tr g d) (ext : List (List α × α)) : Change n (tr ++ ext) g d := by
  obtain ⟨a, b, h1, h2, h3⟩ := h
  exact ⟨a, b, bestAfter_append h1 ext, bestAfter_append h2 ext, h3⟩

theorem convInv_step {n g : Nat} (hn : 0 < n) {v : DEConv α} {tr ext : List (List α × α)} {e : α} (hi : ConvInv n g v tr) (hl : ext.length = n)
    (hx : ∃ x, ext.getLast? = some (x, e)) : ConvInv n (g + 1) (updateConv g e v) (tr ++ ext) := by
  obtain ⟨x, hx⟩ := hx
  have hb : bestAfter n (tr ++ ext) g = some e := by
    unfold bestAfter
    have : (g + 1) * n - 1 = tr.length + (n - 1) := by rw [hi.len, Nat.add_mul, one_mul]; omega
    rw [this, List.getElem?_append_right (by omega), Nat.add_sub_cancel_left, ← hl, ← List.getLast?_eq_getElem?, hx]
    rfl
  have hlen : (tr ++ ext).length = (g + 1) * n := by rw [List.length_append, hi.len, hl]; ring
  by_cases h10 : g % 10 = 0
  · have em : 10 * ((g + 1 - 1) / 10) = g := by omega
    have eo : 10 ≤ g → 10 * ((g - 1) / 10) = g - 10 := by omega
    have hch : 20 ≤ g → Change n (tr ++ ext) g (fabs (1 - v.last / e)) := fun h =>
      ⟨v.last, e, by rw [← eo (by omega)]; exact bestAfter_append (hi.last (by omega)) ext, hb, rfl⟩
    have hlast : (updateConv g e v).last = e := by
      unfold updateConv
      rw [if_pos h10]
      split_ifs <;> rfl
    have hd0 : 20 ≤ g → (updateConv g e v).d0 = fabs (1 - v.last / e) := fun h => by
      unfold updateConv
      rw [if_pos h10]
      split_ifs <;> first | rfl | omega
    have hd1 : 30 ≤ g → (updateConv g e v).d1 = v.d0 := fun h => by
      unfold updateConv
      rw [if_pos h10]
      split_ifs <;> first | rfl | omega
    have hd2 : 40 ≤ g → (updateConv g e v).d2 = v.d1 := fun h => by
      unfold updateConv
      rw [if_pos h10]
      split_ifs <;> first | rfl | omega
    refine ⟨hlen, ?_, ?_, ?_, ?_⟩ <;> rw [em]
    · exact fun _ => by rw [hlast, hb]
    · exact fun h => by rw [hd0 (by omega)]; exact hch (by omega)
    · intro h
      rw [hd1 (by omega), ← eo (by omega)]
      exact (hi.d0 (by omega)).append ext
    · intro h
      rw [hd2 (by omega), show g - 20 = g - 10 - 10 by omega, ← eo (by omega)]
      exact (hi.d1 (by omega)).append ext
  · have em : 10 * ((g + 1 - 1) / 10) = 10 * ((g - 1) / 10) := by omega
    have hv : updateConv g e v = v := by unfold updateConv; rw [if_neg h10]
    refine ⟨hlen, ?_, ?_, ?_, ?_⟩ <;> rw [em, hv]
    · exact fun _ => bestAfter_append (hi.last (by omega)) ext
    · exact fun _ => (hi.d0 (by omega)).append ext
    · exact fun _ => (hi.d1 (by omega)).append ext
    · exact fun _ => (hi.d2 (by omega)).append ext

theorem converged_iff {n g : Nat} {v : DEConv α} {tr : List (List α × α)} (tol : α) (hi : ConvInv n (g + 1) v tr) :
    converged g tol v = true ↔ 10 ∣ g ∧ 40 ≤ g ∧ Settled n tr tol g := by
  unfold converged
  simp only [Bool.and_eq_true, decide_eq_true_eq, ge_iff_le]
  constructor
  · rintro ⟨⟨h10, h40⟩, ⟨h0, h1⟩, h2⟩
    have em : 10 * ((g + 1 - 1) / 10) = g := by omega
    refine ⟨Nat.dvd_of_mod_eq_zero h10, h40, ?_⟩
    intro j hj
    have c0 := hi.d0 (by omega)
    have c1 := hi.d1 (by omega)
    have c2 := hi.d2 (by omega)
    rw [em] at c0 c1 c2
    obtain rfl | rfl | rfl : j = 0 ∨ j = 1 ∨ j = 2 := by omega
    · obtain ⟨a, b, e1, e2, e3⟩ := c0
      exact ⟨a, b, e1, e2, by rw [← e3]; exact h0⟩
    · obtain ⟨a, b, e1, e2, e3⟩ := c1
      exact ⟨a, b, e1, e2, by rw [← e3]; exact h1⟩
    · obtain ⟨a, b, e1, e2, e3⟩ := c2
      exact ⟨a, b, e1, e2, by rw [← e3]; exact h2⟩
  · rintro ⟨hd, h40, hs⟩
    have h10 : g % 10 = 0 := Nat.mod_eq_zero_of_dvd hd
    have em : 10 * ((g + 1 - 1) / 10) = g := by omega
    have use : ∀ j < 3, ∀ d, Change n tr (g - 10 * j) d → flt d tol = true := by
      rintro j hj d ⟨a, b, e1, e2, e3⟩
      obtain ⟨a', b', f1, f2, f3⟩ := hs j hj
      rw [e1] at f1
      rw [e2] at f2
      cases f1
      cases f2
      rw [e3]
      exact f3
    have c0 := hi.d0 (by omega)
    have c1 := hi.d1 (by omega)
    have c2 := hi.d2 (by omega)
    rw [em] at c0 c1 c2
    exact ⟨⟨h10, h40⟩, ⟨use 0 (by omega) _ c0, use 1 (by omega) _ c1⟩, use 2 (by omega) _ c2⟩

theorem generationsLoop_settled {c : DECfg α} {rng : Nat → Nat} {fuel : Nat} {energy : List α → α} {sig : Nat → Bool} (hn : 0 < c.nPop) {left g : Nat}
    {v : DEConv α} {s : DESt α} {r : DEOut α} (hi : ConvInv c.nPop g v s.trace)
    (hne : ∀ g' < g, 10 ∣ g' → 40 ≤ g' → ¬ Settled c.nPop s.trace c.tol g')
    (h : generationsLoop c rng fuel energy sig left g v s = .ok r) :
    (∀ g' < r.generations, 10 ∣ g' → 40 ≤ g' → ¬ Settled c.nPop r.st.trace c.tol g') ∧
    ((r.status = 1 ∧ 10 ∣ r.generations ∧ 40 ≤ r.generations ∧ Settled c.nPop r.st.trace c.tol r.generations ∧ r.generations < g + left) ∨
      (r.status = 5 ∧ r.generations = g + left) ∨ (r.status = 100 ∧ sig r.generations = true ∧ r.generations < g + left)) := by
  induction left generalizing g v s with
  | zero =>
    simp only [generationsLoop] at h
    cases h
    exact ⟨hne, .inr (.inl ⟨rfl, rfl⟩)⟩
  | succ k ih =>
    simp only [generationsLoop] at h
    obtain ⟨s1, h1, h⟩ := bind_ok h
    obtain ⟨ext, e1, e2, e3⟩ := oneGeneration_ext h1
    have hi' := convInv_step hn hi e2 (e3 hn)
    rw [← e1] at hi'
    have hne' : ∀ g' < g, 10 ∣ g' → 40 ≤ g' → ¬ Settled c.nPop s1.trace c.tol g' := by
      intro g' hg' hd h40 hs
      refine hne g' hg' hd h40 ?_
      intro j hj
      obtain ⟨a, b, f1, f2, f3⟩ := hs j hj
      rw [e1, bestAfter_old hn hi.len (by omega)] at f1
      rw [e1, bestAfter_old hn hi.len (by omega)] at f2
      exact ⟨a, b, f1, f2, f3⟩
    split at h
    · rename_i hsig
      cases h
      exact ⟨hne', .inr (.inr ⟨rfl, hsig, by simp only; omega⟩)⟩
    · split at h
      · rename_i hc
        cases h
        obtain ⟨q1, q2, q3⟩ := (converged_iff c.tol hi').1 hc
        exact ⟨hne', .inl ⟨rfl, q1, q2, q3, by simp only; omega⟩⟩
      · rename_i hc
        have hcn : ¬ (10 ∣ g ∧ 40 ≤ g ∧ Settled c.nPop s1.trace c.tol g) := fun hh => hc ((converged_iff c.tol hi').2 hh)
        obtain ⟨a1, a2⟩ := ih hi' (by
          intro g' hg' hd h40 hs
          rcases Nat.lt_succ_iff_lt_or_eq.1 hg' with h | h
          · exact hne' g' h hd h40 hs
          · subst h
            exact hcn ⟨hd, h40, hs⟩) h
        refine ⟨a1, ?_⟩
        rw [show g + 1 + k = g + (k + 1) by omega] at a2
        exact a2

/-- C57: `Solve` reports convergence exactly at the first tenth generation, from generation 40 on, at whose end the best value has changed by less than the tolerance
over each of the last three times ten generations; otherwise it goes on to the last generation (status 5) or until the user stops it (status 100). -/
theorem C57_settled (c : DECfg α) (rng : Nat → Nat) (fuel : Nat) (energy : List α → α) (sig : Nat → Bool) (maxGen : Nat) (lhs : Option (Nat → List Nat))
    (trial0 : List α) (st : DESt α) (r : DEOut α) (hn : 0 < c.nPop) (hst : deSetup c lhs rng trial0 = .ok st)
    (h : solve c rng fuel energy sig maxGen st = .ok r) :
    (∀ g < r.generations, 10 ∣ g → 40 ≤ g → ¬ Settled c.nPop r.st.trace c.tol g) ∧
    ((r.status = 1 ∧ 10 ∣ r.generations ∧ 40 ≤ r.generations ∧ Settled c.nPop r.st.trace c.tol r.generations ∧ r.generations < maxGen) ∨
      (r.status = 5 ∧ r.generations = maxGen) ∨ (r.status = 100 ∧ sig r.generations = true ∧ r.generations < maxGen)) := by
  have h0 : st.trace = [] := by
    unfold deSetup at hst
    obtain ⟨pop, _, h1⟩ := bind_ok hst
    cases h1
    rfl
  have := generationsLoop_settled (energy := energy) (sig := sig) hn (g := 0) (s := { st with bestE := lit (10 ^ 20) })
    ⟨by simp [h0], by omega, by omega, by omega, by omega⟩ (by omega) h
  simpa using this

/-- C57 for a fit: if the fit reports convergence, then for some generation that was the last one the best value had settled. -/
theorem C57_fit (toInt : α → Res Int) (params : List α) (lims : List (DELim α)) (tol : α) (rng : Nat → Nat)
    (lhs : Option (Nat → List Nat)) (fuel : Nat) (energy : List α → α) (sig : Nat → Bool) (trial0 : List α) (r : DEFit α)
    (h : diffEvolnFit toInt params lims tol rng lhs fuel energy sig trial0 = .ok r) (hs : r.status = 1)
    (hfree : 0 < (lims.filter fun l => !l.fixed).length) :
    ∃ g, 40 ≤ g ∧ 10 ∣ g ∧ g < 600 ∧ r.trace.length = (g + 1) * (8 * (lims.filter fun l => !l.fixed).length) ∧
      Settled (8 * (lims.filter fun l => !l.fixed).length) r.trace tol g := by
  unfold diffEvolnFit at h
  split at h
  · cases h; cases hs
  · obtain ⟨st, h1, h⟩ := bind_ok h
    obtain ⟨q, h2, h⟩ := bind_ok h
    cases h
    have h0 : st.trace = [] := by
      unfold deSetup at h1
      obtain ⟨pop, _, h1⟩ := bind_ok h1
      cases h1
      rfl
    have hl := generationsLoop_trace (by simp [h0]) h2
    obtain ⟨-, hc⟩ := C57_settled _ rng fuel energy sig 600 lhs trial0 st q (by simp only; omega) h1 h2
    have hs' : q.status = 1 := hs
    rcases hc with ⟨-, c1, c2, c3, c4⟩ | ⟨c1, -⟩ | ⟨c1, -⟩
    · refine ⟨q.generations, c2, c1, c4, ?_, c3⟩
      rcases hl with ⟨e, -⟩ | ⟨-, e⟩
      · rw [hs'] at e; cases e
      · show q.st.trace.length = _
        rw [e]
        ring
    · rw [hs'] at c1; cases c1
    · rw [hs'] at c1; cases c1

end

/-! ### An objective that does not change at all -/

/-- What holds throughout with the objective `e` everywhere. -/
structure ConstInv (e : ℝ) (s : DESt XR) : Prop where
  best : ((∀ x ∈ s.popE, x = fin (10 ^ 20)) ∧ s.bestE = fin (10 ^ 20)) ∨ s.bestE = fin e
  trace : ∀ p ∈ s.trace, p.2 = fin e

theorem oneCandidate_const {c : DECfg XR} {rng : Nat → Nat} {fuel : Nat} {e : ℝ} (he : e < 10 ^ 20) {k : Nat} {s t : DESt XR} (hs : ConstInv e s)
    (h : oneCandidate c rng fuel (fun _ => fin e) k s = .ok t) : ConstInv e t := by
  unfold oneCandidate at h
  obtain ⟨s1, h1, h⟩ := bind_ok h
  obtain ⟨old, h2, h⟩ := bind_ok h
  obtain ⟨s2, h3, h⟩ := bind_ok h
  obtain ⟨s3, h4, h⟩ := bind_ok h
  cases h
  have r := (calcTrial_rest h1).trans (repair_rest h3)
  have key : s3.bestE = fin e ∧ s3.trace = s2.trace := by
    unfold accept at h4
    obtain ⟨o, ho, h4⟩ := bind_ok h4
    have hmem : o ∈ s.popE := by
      have := rd_eq_ok_iff.1 ho
      rw [r.popE] at this
      exact List.mem_of_getElem this.2
    rcases hs.best with ⟨ha, hb⟩ | hb
    · rw [ha o hmem, flt_fin, if_pos (by simpa using he)] at h4
      obtain ⟨pe, _, h4⟩ := bind_ok h4
      obtain ⟨pop, _, h4⟩ := bind_ok h4
      cases h4
      unfold keepBest
      rw [if_pos]
      · exact ⟨rfl, rfl⟩
      · simp only [r.bestE, hb, flt_fin]
        simpa using he
    · split at h4
      · obtain ⟨pe, _, h4⟩ := bind_ok h4
        obtain ⟨pop, _, h4⟩ := bind_ok h4
        cases h4
        unfold keepBest
        rw [if_neg]
        · exact ⟨r.bestE.trans hb, rfl⟩
        · simp [r.bestE, hb, flt_fin]
      · cases h4
        exact ⟨r.bestE.trans hb, rfl⟩
  refine ⟨.inr key.1, ?_⟩
  intro p hp
  simp only [note, List.mem_append, List.mem_singleton] at hp
  rcases hp with hp | rfl
  · rw [key.2, r.trace] at hp
    exact hs.trace p hp
  · exact key.1

theorem generationsLoop_const {c : DECfg XR} {rng : Nat → Nat} {fuel : Nat} {e : ℝ} (he : e < 10 ^ 20) {sig : Nat → Bool} {left g : Nat} {v : DEConv XR}
    {s : DESt XR} {r : DEOut XR} (hs : ConstInv e s) (h : generationsLoop c rng fuel (fun _ => fin e) sig left g v s = .ok r) : ConstInv e r.st := by
  induction left generalizing g v s with
  | zero =>
    simp only [generationsLoop] at h
    cases h
    exact hs
  | succ k ih =>
    simp only [generationsLoop] at h
    obtain ⟨s1, h1, h⟩ := bind_ok h
    have hs1 : ConstInv e s1 := forN_inv c.nPop s s1 _ (fun _ q => ConstInv e q) hs (fun _ _ _ _ hq hq' => oneCandidate_const he hq hq') h1
    split at h
    · cases h; exact hs1
    · split at h
      · cases h; exact hs1
      · exact ih hs1 h

theorem bestAfter_const {n : Nat} {tr : List (List XR × XR)} {e a : XR} (ht : ∀ p ∈ tr, p.2 = e) {g : Nat} (h : bestAfter n tr g = some a) : a = e := by
  unfold bestAfter at h
  obtain ⟨p, h1, rfl⟩ := Option.map_eq_some_iff.1 h
  exact ht p (List.mem_of_getElem? h1)

theorem solve_const {c : DECfg XR} {rng : Nat → Nat} {fuel maxGen : Nat} {e : ℝ} (he : e < 10 ^ 20) {sig : Nat → Bool} {lhs : Option (Nat → List Nat)}
    {trial0 : List XR} {st : DESt XR} {r : DEOut XR} (hst : deSetup c lhs rng trial0 = .ok st)
    (h : solve c rng fuel (fun _ => fin e) sig maxGen st = .ok r) : ∀ p ∈ r.st.trace, p.2 = fin e := by
  unfold deSetup at hst
  obtain ⟨pop, _, h1⟩ := bind_ok hst
  cases h1
  refine (generationsLoop_const he ⟨.inl ⟨?_, ?_⟩, by simp⟩ h).trace
  · intro x hx
    rw [List.eq_of_mem_replicate hx]
    simp [lit_def]
  · simp [lit_def]

/-- C57: an objective with the same finite value other than zero everywhere: the best value does not change, and the solver stops at the first opportunity, after
generation 40. -/
theorem C57_constant (c : DECfg XR) (rng : Nat → Nat) (fuel maxGen : Nat) (e t : ℝ) (he : e < 10 ^ 20) (h0 : e ≠ 0) (ht : 0 < t) (htol : c.tol = fin t)
    (hn : 0 < c.nPop) (hm : 40 < maxGen) (lhs : Option (Nat → List Nat)) (trial0 : List XR) (st : DESt XR) (r : DEOut XR)
    (hst : deSetup c lhs rng trial0 = .ok st) (h : solve c rng fuel (fun _ => fin e) (fun _ => false) maxGen st = .ok r) :
    r.status = 1 ∧ r.generations = 40 := by
  have hc := solve_const he hst h
  obtain ⟨a1, a2⟩ := C57_settled c rng fuel _ _ maxGen lhs trial0 st r hn hst h
  have hlen : r.st.trace.length ≥ r.generations * c.nPop := by
    have h00 : st.trace = [] := by
      unfold deSetup at hst
      obtain ⟨pop, _, h1⟩ := bind_ok hst
      cases h1
      rfl
    rcases generationsLoop_trace (by simp [h00]) h with ⟨-, q⟩ | ⟨-, q⟩
    · rw [q]
    · rw [q]; omega
  have hset : ∀ g, 40 ≤ g → g < r.generations → Settled c.nPop r.st.trace c.tol g := by
    intro g hg hgr j hj
    have some' : ∀ k < r.generations, bestAfter c.nPop r.st.trace k = some (fin e) := by
      intro k hk
      have h1 : (k + 1) * c.nPop ≤ r.generations * c.nPop := Nat.mul_le_mul_right _ hk
      have h2 : 0 < (k + 1) * c.nPop := Nat.mul_pos (Nat.succ_pos _) hn
      have h3 : (k + 1) * c.nPop - 1 < r.st.trace.length := by omega
      unfold bestAfter
      rw [List.getElem?_eq_getElem h3, Option.map_some, hc _ (List.getElem_mem h3)]
    refine ⟨fin e, fin e, some' _ (by omega), some' _ (by omega), ?_⟩
    rw [fin_div_of_ne h0, div_self h0, one_def, fin_sub, fabs_fin, htol, flt_fin]
    simpa using ht
  rcases a2 with ⟨b1, b2, b3, -, -⟩ | ⟨-, b2⟩ | ⟨-, b2, -⟩
  · refine ⟨b1, ?_⟩
    by_contra hne
    have : 40 < r.generations := by omega
    exact a1 40 this (by norm_num) le_rfl (hset 40 le_rfl this)
  · exact absurd (hset 40 le_rfl (by omega)) (a1 40 (by omega) (by norm_num) le_rfl)
  · cases b2

/-- C57 fails for a perfect fit: the best value is zero from the first evaluation on and does not change, but the relative change is 0/0, so the solver never reports
convergence; it uses up all its generations, however many there are. -/
theorem C57_zero (c : DECfg XR) (rng : Nat → Nat) (fuel maxGen : Nat) (hn : 0 < c.nPop) (lhs : Option (Nat → List Nat)) (trial0 : List XR) (st : DESt XR)
    (r : DEOut XR) (hst : deSetup c lhs rng trial0 = .ok st) (h : solve c rng fuel (fun _ => fin 0) (fun _ => false) maxGen st = .ok r) :
    r.status = 5 ∧ r.generations = maxGen := by
  have hc := solve_const (by norm_num) hst h
  obtain ⟨-, a2⟩ := C57_settled c rng fuel _ _ maxGen lhs trial0 st r hn hst h
  rcases a2 with ⟨-, -, -, b, -⟩ | b | ⟨-, b2, -⟩
  · obtain ⟨x, y, h1, h2, h3⟩ := b 0 (by norm_num)
    rw [bestAfter_const hc h1, bestAfter_const hc h2, fin_div_zero, infSign_zero] at h3
    cases h3
  · exact b
  · cases b2

/-- The same fit with a constant objective of one converges after generation 40; with a perfect fit it takes all 600 generations and reports that it did not
converge. -/
theorem C57_perfect_false :
    (∃ r : DEFit XR, diffEvolnFit XR.toInt [fin (3 / 2)] [⟨false, true, true, fin 1, fin 2⟩] (fin (1 / 1000)) turnStream none 8 (fun _ => fin 1) (fun _ => false)
      [fin 0] = .ok r ∧ r.status = 1 ∧ r.nEvals = some 320) ∧
    ∃ r : DEFit XR, diffEvolnFit XR.toInt [fin (3 / 2)] [⟨false, true, true, fin 1, fin 2⟩] (fin (1 / 1000)) turnStream none 8 (fun _ => fin 0) (fun _ => false)
      [fin 0] = .ok r ∧ r.status = 5 ∧ (∀ p ∈ r.trace, p.2 = fin 0) ∧ r.nEvals = some 4800 := by
  constructor
  · obtain ⟨r, h, -⟩ := turnStream_fit fun _ => fin 1
    refine ⟨r, h, ?_⟩
    unfold diffEvolnFit at h
    split at h
    · rename_i hb
      simp [deBounds, deLimits] at hb
    · obtain ⟨st, h1, h⟩ := bind_ok h
      obtain ⟨q, h2, h⟩ := bind_ok h
      cases h
      obtain ⟨e1, e2⟩ := C57_constant _ _ _ 600 1 (1 / 1000) (by norm_num) one_ne_zero (by norm_num) rfl (by simp) (by norm_num) _ _ _ q h1 h2
      refine ⟨e1, ?_⟩
      simp [e2]
  · obtain ⟨r, h, -⟩ := turnStream_fit fun _ => fin 0
    refine ⟨r, h, ?_⟩
    unfold diffEvolnFit at h
    split at h
    · rename_i hb
      simp [deBounds, deLimits] at hb
    · obtain ⟨st, h1, h⟩ := bind_ok h
      obtain ⟨q, h2, h⟩ := bind_ok h
      cases h
      obtain ⟨e1, e2⟩ := C57_zero _ _ _ 600 (by simp) _ _ _ q h1 h2
      refine ⟨e1, ?_, ?_⟩
      · exact solve_const (by norm_num) h1 h2
      · simp [e2]

end Imfit
