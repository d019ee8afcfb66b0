import Verif.Props.C25

/-!
# C24: differential evolution respects bounds and fixed parameters

Exact arithmetic. Every vector that is evaluated lies within the limits and has the values of the fixed parameters, for every objective (NaN included), stream
and strategy. The vector returned does too if some evaluation gave less than 10²⁰; otherwise zeros are returned (`C24_limits_false`). With all
parameters fixed the population is empty, nothing is evaluated, and the parameters are overwritten with zeros (`C24_fixed_false`). With rounding, a
repaired value may leave the limits by the error of one operation.
-/

namespace Imfit

open XR

/-- Every strategy: evaluated vectors are within the limits; so is the one returned, if some evaluation gave less than 10²⁰. -/
theorem C24_solve_partial (c : DECfg XR) (lo hi : List ℝ) (hc : BoxCfg c lo hi) (rng : Nat → Nat) (hr : ∀ p, rng p < 2 ^ 32)
    (lhs : Option (Nat → List Nat)) (hperm : ∀ perm, lhs = some perm → ∀ j, ∀ i ∈ perm j, i < c.nPop) (trial0 : List XR) (fuel maxGen : Nat)
    (energy : List XR → XR) (sig : Nat → Bool) (st : DESt XR) (r : DEOut XR) (hst : deSetup c lhs rng trial0 = .ok st)
    (h : solve c rng fuel energy sig maxGen st = .ok r) :
    (∀ p ∈ r.st.trace, Spec.InBox lo hi p.1) ∧
    ((∃ p ∈ r.st.trace, flt (energy p.1) (fin (10 ^ 20)) = true) → Spec.InBox lo hi r.st.best) := by
  have hinv : BoxInv c lo hi r.st := by
    have hst' := hst
    unfold deSetup at hst'
    obtain ⟨pop, hpop, hst'⟩ := bind_ok hst'
    cases hst'
    refine generationsLoop_inv (BoxInv c lo hi) (fun k s t _ hs ht => oneCandidate_box hr hc hs ht) ?_ h
    refine ⟨firstPop_box hr hc hperm hpop, ?_, Or.inl ⟨rfl, by simp⟩, by simp⟩
    intro x hx
    exact ⟨0, List.eq_of_mem_replicate hx⟩
  refine ⟨hinv.trace, ?_⟩
  rintro ⟨p, hp, hlt⟩
  rcases hinv.found with ⟨_, hE⟩ | hb
  · obtain ⟨_, h2, _⟩ := C25_solve_partial orderLaws_XR _ _ _ _ _ _ _ _ _ _ hst h
    have := h2 p hp
    rw [hE, hlt] at this
    cases this
  · exact hb

/-- A parameter: start value, fixed or not, limits. -/
structure FitPar where
  value : ℝ
  fixed : Bool
  b0 : Bool
  b1 : Bool
  lo : ℝ
  hi : ℝ

/-- The parameter has the value of a fixed parameter, or is within its limits. -/
def FitPar.Allows (p : FitPar) (x : XR) : Prop := ∃ r, x = fin r ∧ if p.fixed then r = p.value else p.lo ≤ r ∧ r ≤ p.hi

def FitPar.lim (p : FitPar) : DELim XR := ⟨p.fixed, p.b0, p.b1, fin p.lo, fin p.hi⟩

/-- Every parameter is fixed or has two limits in the right order. -/
def FitPar.Ok (p : FitPar) : Prop := p.fixed = true ∨ (p.b0 = true ∧ p.b1 = true ∧ p.lo ≤ p.hi)

def FitPar.low (p : FitPar) : ℝ := if p.fixed then p.value else p.lo
def FitPar.high (p : FitPar) : ℝ := if p.fixed then p.value else p.hi

theorem deBounds_eq (ps : List FitPar) (h : ∀ p ∈ ps, p.Ok) :
    deBounds ((ps.map fun p => fin p.value).zip (ps.map FitPar.lim)) = some ((ps.map FitPar.low).map fin, (ps.map FitPar.high).map fin) := by
  induction ps with
  | nil => rfl
  | cons p ps ih =>
    have h1 := ih fun q hq => h q (List.mem_cons_of_mem _ hq)
    have h2 : deLimits (fin p.value) p.lim = some (fin p.low, fin p.high) := by
      unfold deLimits FitPar.lim FitPar.low FitPar.high
      rcases h p (by simp) with hf | ⟨hb0, hb1, _⟩
      · simp [hf]
      · cases hf : p.fixed <;> simp [hb0, hb1]
    simp only [List.map_cons, List.zip_cons_cons, deBounds, h1, h2]

theorem inBox_allows (ps : List FitPar) (v : List XR) (h : Spec.InBox (ps.map FitPar.low) (ps.map FitPar.high) v) :
    List.Forall₂ FitPar.Allows ps v := by
  obtain ⟨w, rfl, h1, h2⟩ := h
  induction ps generalizing w with
  | nil => cases h1; exact .nil
  | cons p ps ih =>
    cases h1 with
    | cons a1 b1 =>
      cases h2 with
      | cons a2 b2 =>
        refine .cons ⟨_, rfl, ?_⟩ (ih _ b1 b2)
        unfold FitPar.low FitPar.high at *
        cases hf : p.fixed
        · simp only [hf, Bool.false_eq_true, if_false] at a1 a2 ⊢
          exact ⟨a1, a2⟩
        · simp only [hf, if_true] at a1 a2 ⊢
          exact le_antisymm a2 a1

/-- `DiffEvolnFit`: every vector evaluated keeps to the limits and to the fixed values; so does the vector returned, if some evaluation gave less
than 10²⁰. -/
theorem C24_fit_partial (ps : List FitPar) (hps : ∀ p ∈ ps, p.Ok) (toInt : XR → Res Int) (tol : XR) (rng : Nat → Nat) (hr : ∀ p, rng p < 2 ^ 32)
    (lhs : Option (Nat → List Nat))
    (hperm : ∀ perm, lhs = some perm → ∀ j, ∀ i ∈ perm j, i < 8 * (ps.filter fun p => !p.fixed).length)
    (fuel : Nat) (energy : List XR → XR) (sig : Nat → Bool) (trial0 : List XR) (r : DEFit XR)
    (h : diffEvolnFit toInt (ps.map fun p => fin p.value) (ps.map FitPar.lim) tol rng lhs fuel energy sig trial0 = .ok r) :
    (∀ p ∈ r.trace, List.Forall₂ FitPar.Allows ps p.1) ∧
    ((∃ p ∈ r.trace, flt (energy p.1) (fin (10 ^ 20)) = true) → List.Forall₂ FitPar.Allows ps r.params) := by
  unfold diffEvolnFit at h
  rw [deBounds_eq ps hps] at h
  obtain ⟨st, h1, h⟩ := bind_ok h
  obtain ⟨q, h2, h⟩ := bind_ok h
  cases h
  have hlen : ((ps.map FitPar.lim).filter fun l => !l.fixed).length = (ps.filter fun p => !p.fixed).length := by
    rw [List.filter_map, List.length_map]
    rfl
  obtain ⟨a1, a2⟩ := C24_solve_partial _ (ps.map FitPar.low) (ps.map FitPar.high)
    ⟨rfl, rfl, by simp, by simp, by
      rw [List.forall₂_map_left_iff, List.forall₂_map_right_iff, List.forall₂_same]
      intro p hp
      unfold FitPar.low FitPar.high
      rcases hps p hp with hf | ⟨_, _, hle⟩
      · simp [hf]
      · split
        · exact le_rfl
        · exact hle, ⟨7 / 10, by norm_num⟩⟩ rng hr lhs (by simpa only [hlen] using hperm) trial0 fuel 600 energy sig st q h1 h2
  exact ⟨fun p hp => inBox_allows ps _ (a1 p hp), fun hp => inBox_allows ps _ (a2 hp)⟩

theorem deBounds_none {α : Type} [FP α] (l : List (α × DELim α)) (p : α × DELim α) (hp : p ∈ l) (hf : p.2.fixed = false)
    (hl : p.2.limited0 = false ∨ p.2.limited1 = false) : deBounds l = none := by
  induction l with
  | nil => cases hp
  | cons q l ih =>
    rcases List.mem_cons.1 hp with rfl | hp
    · have : deLimits p.1 p.2 = none := by unfold deLimits; rcases hl with h | h <;> simp [hf, h]
      simp [deBounds, this]
    · simp only [deBounds, ih hp]
      cases deLimits q.1 q.2 <;> rfl

/-- A parameter that is not fixed and lacks a limit: nothing is evaluated, the parameters keep their values, and the status is -2. -/
theorem C24_limits_required {α : Type} [FP α] (toInt : α → Res Int) (params : List α) (lims : List (DELim α)) (tol : α) (rng : Nat → Nat)
    (lhs : Option (Nat → List Nat)) (fuel : Nat) (energy : List α → α) (sig : Nat → Bool) (trial0 : List α)
    (h : ∃ p ∈ params.zip lims, p.2.fixed = false ∧ (p.2.limited0 = false ∨ p.2.limited1 = false)) :
    ∃ r, diffEvolnFit toInt params lims tol rng lhs fuel energy sig trial0 = .ok r ∧ r.status = -2 ∧ r.params = params ∧ r.trace = [] := by
  obtain ⟨p, hp, hf, hl⟩ := h
  exact ⟨⟨-2, params, none, none, []⟩, by unfold diffEvolnFit; rw [deBounds_none _ p hp hf hl], rfl, rfl, rfl⟩

/-- An objective that is always NaN: the value returned, 0, is not between the limits 1 and 2. -/
theorem C24_limits_false : ∃ r : DEFit XR, diffEvolnFit XR.toInt [fin (3 / 2)] [⟨false, true, true, fin 1, fin 2⟩] (fin (1 / 1000)) turnStream
    none 8 (fun _ => nan) (fun _ => false) [fin 0] = .ok r ∧ ¬ List.Forall₂ FitPar.Allows [⟨3 / 2, false, true, true, 1, 2⟩] r.params := by
  obtain ⟨r, h1, _, h3⟩ := turnStream_fit fun _ => nan
  refine ⟨r, h1, ?_⟩
  rw [(h3 fun v => rfl).1]
  intro h
  cases h with
  | cons a _ =>
    obtain ⟨x, hx, h⟩ := a
    cases hx
    norm_num at h

/-- Without candidates nothing happens. -/
theorem generationsLoop_empty {α : Type} [FP α] {c : DECfg α} (hc : c.nPop = 0) (rng : Nat → Nat) (fuel : Nat) (energy : List α → α) (sig : Nat → Bool)
    (left g : Nat) (v : DEConv α) (st : DESt α) : ∃ r, generationsLoop c rng fuel energy sig left g v st = .ok r ∧ r.st = st := by
  induction left generalizing g v with
  | zero => exact ⟨_, rfl, rfl⟩
  | succ n ih =>
    have e : oneGeneration c rng fuel energy st = .ok st := by unfold oneGeneration; rw [hc]; rfl
    simp only [generationsLoop, e, ok_bind]
    split
    · exact ⟨_, rfl, rfl⟩
    · split
      · exact ⟨_, rfl, rfl⟩
      · exact ih _ _

/-- One parameter, fixed at 5: it is set to 0, whatever the objective, the stream and the tolerance; 10²⁰ is reported as its statistic. -/
theorem C24_fixed_false (tol : XR) (rng : Nat → Nat) (fuel : Nat) (energy : List XR → XR) (sig : Nat → Bool) :
    ∃ r : DEFit XR, diffEvolnFit XR.toInt [fin 5] [⟨true, false, false, fin 0, fin 0⟩] tol rng none fuel energy sig [fin 0] = .ok r ∧
      r.params = [fin 0] ∧ r.best = some (fin (10 ^ 20)) ∧ ¬ List.Forall₂ FitPar.Allows [⟨5, true, false, false, 0, 0⟩] r.params := by
  have hb : deBounds ([fin 5].zip [(⟨true, false, false, fin 0, fin 0⟩ : DELim XR)]) = some ([fin 5], [fin 5]) := rfl
  unfold diffEvolnFit
  rw [hb]
  simp only [List.filter, Bool.not_true, List.length_cons, List.length_nil]
  generalize hc : (⟨0 + 1, 8 * 0, DEBase.randToBest1, false, lit (7 / 10), 1, tol, [fin 5], [fin 5], XR.toInt⟩ : DECfg XR) = c
  have hset : deSetup c none rng [fin 0] = .ok ⟨[], [], [fin 0], [fin 0], fin 0, 0, []⟩ := by subst hc; rfl
  have hn : c.nPop = 0 := by subst hc; rfl
  obtain ⟨q, h1, h2⟩ := generationsLoop_empty hn rng fuel energy sig 600 0 ⟨lit 100, lit 100, lit 100, lit (10 ^ 20)⟩
    ⟨[], [], [fin 0], [fin 0], lit (10 ^ 20), 0, []⟩
  have h1' : solve c rng fuel energy sig 600 ⟨[], [], [fin 0], [fin 0], fin 0, 0, []⟩ = .ok q := h1
  rw [hset]
  simp only [ok_bind, h1']
  refine ⟨_, rfl, by rw [h2], by rw [h2]; simp, ?_⟩
  rw [h2]
  intro h
  cases h with
  | cons a _ =>
    obtain ⟨x, hx, h⟩ := a
    cases hx
    simp at h

/-- A fit with a fixed and a free parameter; whatever happens, the vectors evaluated have 5 as first component and the second between 1 and 2. -/
example (rng : Nat → Nat) (hr : ∀ p, rng p < 2 ^ 32) (fuel : Nat) (energy : List XR → XR) (r : DEFit XR)
    (h : diffEvolnFit XR.toInt [fin 5, fin 1] [⟨true, false, false, fin 0, fin 0⟩, ⟨false, true, true, fin 1, fin 2⟩] (fin 1) rng none fuel energy
      (fun _ => false) [] = .ok r) (p : List XR × XR) (hp : p ∈ r.trace) : ∃ y, p.1 = [fin 5, fin y] ∧ 1 ≤ y ∧ y ≤ 2 := by
  have h1 := (C24_fit_partial [⟨5, true, false, false, 0, 0⟩, ⟨1, false, true, true, 1, 2⟩] (by
    intro q hq
    rcases List.mem_cons.1 hq with rfl | hq
    · exact Or.inl rfl
    · rw [List.mem_singleton.1 hq]; exact Or.inr ⟨rfl, rfl, by norm_num⟩) XR.toInt (fin 1) rng hr none (by simp) fuel energy (fun _ => false) [] r h).1 p hp
  generalize p.1 = v at h1
  cases h1 with
  | cons a b =>
    cases b with
    | cons b d =>
      cases d
      obtain ⟨x, rfl, hx⟩ := a
      obtain ⟨y, rfl, hy⟩ := b
      simp at hx hy
      exact ⟨y, by rw [hx], hy⟩

end Imfit
