import Verif.Model.DE
import Verif.Spec.Box
import Verif.Lemmas.Fit

/-!
# Lemmas about the differential-evolution model
-/

namespace Imfit

open XR

/-- A successful sequence: both parts succeed. -/
theorem bind_ok {β γ : Type} {x : Res β} {f : β → Res γ} {r : γ} (h : (x >>= f) = .ok r) : ∃ a, x = .ok a ∧ f a = .ok r := by
  cases x with
  | error e => cases h
  | ok a => exact ⟨a, rfl, h⟩

/-- All entries of a successful `loopAcc` come from a successful turn. -/
theorem loopAcc_get {β σ : Type} {n : Nat} {s : σ} {f : Nat → σ → Res (β × σ)} {r : List β × σ} (h : loopAcc n s f = .ok r) :
    r.1.length = n ∧ ∀ z (hz : z < r.1.length), ∃ s0 s1, f z s0 = .ok (r.1[z], s1) := by
  induction n generalizing r with
  | zero => simp only [loopAcc] at h; cases h; simp
  | succ n ih =>
    simp only [loopAcc] at h
    obtain ⟨p, hp, h⟩ := bind_ok h
    obtain ⟨q, hq, h⟩ := bind_ok h
    cases h
    obtain ⟨hl, hg⟩ := ih hp
    refine ⟨by simp [hl], ?_⟩
    intro z hz
    by_cases hzn : z < p.1.length
    · obtain ⟨s0, s1, h1⟩ := hg z hzn
      exact ⟨s0, s1, by rw [h1]; simp only [List.getElem_append_left hzn]⟩
    · have : z = n := by simp at hz; omega
      subst this
      refine ⟨p.2, q.2, ?_⟩
      rw [hq]
      simp [← hl]

/-- All entries of a successful `loopMap` come from a successful turn. -/
theorem loopMap_elems {β : Type} {n : Nat} {f : Nat → Res β} {r : List β} (h : loopMap n f = .ok r) :
    r.length = n ∧ ∀ z (hz : z < r.length), f z = .ok r[z] := by
  induction n generalizing r with
  | zero => simp only [loopMap] at h; cases h; simp
  | succ n ih =>
    simp only [loopMap] at h
    obtain ⟨p, hp, h⟩ := bind_ok h
    obtain ⟨q, hq, h⟩ := bind_ok h
    cases h
    obtain ⟨hl, hg⟩ := ih hp
    refine ⟨by simp [hl], ?_⟩
    intro z hz
    by_cases hzn : z < p.length
    · rw [hg z hzn]; simp only [List.getElem_append_left hzn]
    · have : z = n := by simp at hz; omega
      subst this
      rw [hq]
      simp [← hl]

/-- Only finite numbers. -/
def AllFin (l : List XR) : Prop := ∀ x ∈ l, ∃ r, x = fin r

theorem rd_fin {l : List XR} (hl : AllFin l) {i : Nat} {x : XR} (h : rd l i = .ok x) : ∃ r, x = fin r := by
  obtain ⟨hi, he⟩ := rd_eq_ok_iff.1 h
  exact hl x (he ▸ List.getElem_mem hi)

theorem rdI_fin {l : List XR} (hl : AllFin l) {i : Int} {x : XR} (h : rdI l i = .ok x) : ∃ r, x = fin r := by
  unfold rdI at h
  split at h
  · cases h
  · exact rd_fin hl h

theorem wrI_fin {l l' : List XR} (hl : AllFin l) {i : Int} {r : ℝ} (h : wrI l i (fin r) = .ok l') : AllFin l' ∧ l'.length = l.length := by
  unfold wrI at h
  split at h
  · cases h
  · unfold wr at h
    split at h
    · cases h
      refine ⟨fun x hx => ?_, by simp⟩
      rcases List.mem_or_eq_of_mem_set hx with hx | rfl
      · exact hl x hx
      · exact ⟨r, rfl⟩
    · cases h

/-- A random number is between 0 and 1. -/
theorem unif_range {rng : Nat → Nat} (hr : ∀ p, rng p < 2 ^ 32) (p : Nat) : ∃ u : ℝ, (unif rng p : XR) = fin u ∧ 0 ≤ u ∧ u ≤ 1 := by
  refine ⟨(rng p : ℝ) / 4294967295, ?_, by positivity, ?_⟩
  · simp only [unif, lit_def, one_def]
    rw [fin_div_of_ne (by norm_num), fin_mul]
    congr 1
    push_cast
    ring
  · rw [div_le_one (by norm_num)]
    have := hr p
    have h : rng p ≤ 4294967295 := by omega
    exact_mod_cast h

theorem randUniform01 {rng : Nat → Nat} (hr : ∀ p, rng p < 2 ^ 32) (p : Nat) :
    ∃ u : ℝ, (randUniform (unif rng p) 0 1 : XR) = fin u ∧ 0 ≤ u ∧ u ≤ 1 := by
  obtain ⟨u, hu, h0, h1⟩ := unif_range hr p
  exact ⟨u, by simp [randUniform, hu], h0, h1⟩

/-- Everything but the trial vector and the place in the stream of random numbers. -/
structure SameRest {α : Type} (s t : DESt α) : Prop where
  pop : t.pop = s.pop
  popE : t.popE = s.popE
  best : t.best = s.best
  bestE : t.bestE = s.bestE
  trace : t.trace = s.trace

theorem SameRest.refl {α : Type} (s : DESt α) : SameRest s s := ⟨rfl, rfl, rfl, rfl, rfl⟩

theorem SameRest.trans {α : Type} {s t u : DESt α} (h : SameRest s t) (g : SameRest t u) : SameRest s u :=
  ⟨g.pop.trans h.pop, g.popE.trans h.popE, g.best.trans h.best, g.bestE.trans h.bestE, g.trace.trans h.trace⟩

section
variable {α : Type} [FP α]

theorem mutate_rest {c : DECfg α} {rs : List Int} {n : Int} {s t : DESt α} (h : mutate c rs n s = .ok t) : SameRest s t := by
  unfold mutate at h
  obtain ⟨v, _, h⟩ := bind_ok h
  obtain ⟨w, _, h⟩ := bind_ok h
  cases h
  exact ⟨rfl, rfl, rfl, rfl, rfl⟩

theorem expLoop_rest {c : DECfg α} {rng : Nat → Nat} {rs : List Int} {left : Nat} {n : Int} {s t : DESt α}
    (h : expLoop c rng rs left n s = .ok t) : SameRest s t := by
  induction left generalizing n s with
  | zero => simp only [expLoop] at h; cases h; exact ⟨rfl, rfl, rfl, rfl, rfl⟩
  | succ k ih =>
    simp only [expLoop] at h
    split at h
    · obtain ⟨u, hu, h⟩ := bind_ok h
      have h2 := mutate_rest hu
      exact SameRest.trans ⟨h2.pop, h2.popE, h2.best, h2.bestE, h2.trace⟩ (ih h)
    · cases h; exact ⟨rfl, rfl, rfl, rfl, rfl⟩

theorem binLoop_rest {c : DECfg α} {rng : Nat → Nat} {rs : List Int} {left : Nat} {n : Int} {s t : DESt α}
    (h : binLoop c rng rs left n s = .ok t) : SameRest s t := by
  induction left generalizing n s with
  | zero => simp only [binLoop] at h; cases h; exact SameRest.refl _
  | succ k ih =>
    simp only [binLoop] at h
    split at h
    · obtain ⟨u, hu, h⟩ := bind_ok h
      have h2 := mutate_rest hu
      exact SameRest.trans ⟨h2.pop, h2.popE, h2.best, h2.bestE, h2.trace⟩ (ih h)
    · have h2 := ih h
      exact ⟨h2.pop, h2.popE, h2.best, h2.bestE, h2.trace⟩

theorem calcTrial_rest {c : DECfg α} {rng : Nat → Nat} {fuel k : Nat} {s t : DESt α} (h : calcTrial c rng fuel k s = .ok t) : SameRest s t := by
  unfold calcTrial at h
  obtain ⟨q, _, h⟩ := bind_ok h
  obtain ⟨n, _, h⟩ := bind_ok h
  obtain ⟨w, _, h⟩ := bind_ok h
  unfold crossover at h
  split at h
  · have h2 := binLoop_rest h
    exact ⟨h2.pop, h2.popE, h2.best, h2.bestE, h2.trace⟩
  · have h2 := expLoop_rest h
    exact ⟨h2.pop, h2.popE, h2.best, h2.bestE, h2.trace⟩

theorem repair_rest {c : DECfg α} {rng : Nat → Nat} {old : List α} {s t : DESt α} (h : repair c rng old s = .ok t) : SameRest s t := by
  unfold repair at h
  obtain ⟨p, _, h⟩ := bind_ok h
  cases h
  exact ⟨rfl, rfl, rfl, rfl, rfl⟩

end

/-! ## Bounds -/

/-- What is assumed of the bounds and of the scale. -/
structure BoxCfg (c : DECfg XR) (lo hi : List ℝ) : Prop where
  lo_eq : c.lo = lo.map fin
  hi_eq : c.hi = hi.map fin
  lo_len : lo.length = c.nDim
  hi_len : hi.length = c.nDim
  le : List.Forall₂ (· ≤ ·) lo hi
  scale : ∃ s, c.scale = fin s

/-- The number is between the limits of parameter `j`. -/
def Between (lo hi : List ℝ) (j : Nat) (x : XR) : Prop := ∃ a l h, x = fin a ∧ lo[j]? = some l ∧ hi[j]? = some h ∧ l ≤ a ∧ a ≤ h

/-- Every member of the population is within the limits. -/
def PopBox (lo hi : List ℝ) (nDim : Nat) (pop : List XR) : Prop := ∀ z (h : z < pop.length), Between lo hi (z % nDim) pop[z]

theorem Between.fin {lo hi : List ℝ} {j : Nat} {x : XR} (h : Between lo hi j x) : ∃ r, x = fin r := by
  obtain ⟨a, _, _, h, _⟩ := h
  exact ⟨a, h⟩

theorem PopBox.fin {lo hi : List ℝ} {nDim : Nat} {pop : List XR} (h : PopBox lo hi nDim pop) : AllFin pop := by
  intro x hx
  obtain ⟨z, hz, rfl⟩ := List.getElem_of_mem hx
  exact (h z hz).fin

/-- Component by component. -/
theorem inBox_of {lo hi : List ℝ} {v : List XR} (hl : v.length = lo.length) (hh : v.length = hi.length)
    (h : ∀ j (hj : j < v.length), Between lo hi j v[j]) : Spec.InBox lo hi v := by
  refine ⟨v.map fun x => match x with | fin r => r | _ => 0, ?_, ?_, ?_⟩
  · apply List.ext_getElem
    · simp
    intro j h1 h2
    obtain ⟨a, _, _, e, _⟩ := h j h1
    simp [e]
  · rw [List.forall₂_iff_get]
    refine ⟨by simp [hl], fun j h1 h2 => ?_⟩
    have hj : j < v.length := by omega
    obtain ⟨a, l, u, e, e1, e2, h3, h4⟩ := h j hj
    rw [List.getElem?_eq_getElem h1] at e1
    simp only [List.get_eq_getElem, List.getElem_map, e]
    cases e1; exact h3
  · rw [List.forall₂_iff_get]
    refine ⟨by simp [hh], fun j h1 h2 => ?_⟩
    have hj : j < v.length := by omega
    obtain ⟨a, l, u, e, e1, e2, h3, h4⟩ := h j hj
    rw [List.getElem?_eq_getElem h2] at e2
    simp only [List.get_eq_getElem, List.getElem_map, e]
    cases e2; exact h4

theorem fin_add' {x y : XR} (hx : ∃ r, x = fin r) (hy : ∃ r, y = fin r) : ∃ r, x + y = fin r := by
  obtain ⟨a, rfl⟩ := hx
  obtain ⟨b, rfl⟩ := hy
  exact ⟨_, fin_add a b⟩

theorem fin_sub' {x y : XR} (hx : ∃ r, x = fin r) (hy : ∃ r, y = fin r) : ∃ r, x - y = fin r := by
  obtain ⟨a, rfl⟩ := hx
  obtain ⟨b, rfl⟩ := hy
  exact ⟨_, fin_sub a b⟩

theorem fin_mul' {x y : XR} (hx : ∃ r, x = fin r) (hy : ∃ r, y = fin r) : ∃ r, x * y = fin r := by
  obtain ⟨a, rfl⟩ := hx
  obtain ⟨b, rfl⟩ := hy
  exact ⟨_, fin_mul a b⟩

theorem newValue_fin {c : DECfg XR} {st : DESt XR} {rs : List Int} {n : Int} {v : XR} (hs : ∃ s, c.scale = fin s) (hp : AllFin st.pop)
    (hb : AllFin st.best) (ht : AllFin st.trial) (h : newValue c st rs n = .ok v) : ∃ r, v = fin r := by
  have he : ∀ {r m x}, elem c st.pop r m = .ok x → ∃ a, x = fin a := fun h => rdI_fin hp h
  unfold newValue at h
  split at h
  · obtain ⟨r1, _, h⟩ := bind_ok h
    obtain ⟨r2, _, h⟩ := bind_ok h
    obtain ⟨b, hbn, h⟩ := bind_ok h
    obtain ⟨a1, h1, h⟩ := bind_ok h
    obtain ⟨a2, h2, h⟩ := bind_ok h
    have fb := rdI_fin hb hbn
    have fa1 := he h1
    have fa2 := he h2
    cases h
    exact fin_add' fb (fin_mul' hs (fin_sub' fa1 fa2))
  · obtain ⟨r1, _, h⟩ := bind_ok h
    obtain ⟨r2, _, h⟩ := bind_ok h
    obtain ⟨r3, _, h⟩ := bind_ok h
    obtain ⟨a1, h1, h⟩ := bind_ok h
    obtain ⟨a2, h2, h⟩ := bind_ok h
    obtain ⟨a3, h3, h⟩ := bind_ok h
    have fa1 := he h1
    have fa2 := he h2
    have fa3 := he h3
    cases h
    exact fin_add' fa1 (fin_mul' hs (fin_sub' fa2 fa3))
  · obtain ⟨r1, _, h⟩ := bind_ok h
    obtain ⟨r2, _, h⟩ := bind_ok h
    obtain ⟨t, htn, h⟩ := bind_ok h
    obtain ⟨b, hbn, h⟩ := bind_ok h
    obtain ⟨a1, h1, h⟩ := bind_ok h
    obtain ⟨a2, h2, h⟩ := bind_ok h
    have ft := rdI_fin ht htn
    have fb := rdI_fin hb hbn
    have fa1 := he h1
    have fa2 := he h2
    cases h
    exact fin_add' ft (fin_add' (fin_mul' hs (fin_sub' fb ft)) (fin_mul' hs (fin_sub' fa1 fa2)))
  · obtain ⟨r1, _, h⟩ := bind_ok h
    obtain ⟨r2, _, h⟩ := bind_ok h
    obtain ⟨r3, _, h⟩ := bind_ok h
    obtain ⟨r4, _, h⟩ := bind_ok h
    obtain ⟨b, hbn, h⟩ := bind_ok h
    obtain ⟨a1, h1, h⟩ := bind_ok h
    obtain ⟨a2, h2, h⟩ := bind_ok h
    obtain ⟨a3, h3, h⟩ := bind_ok h
    obtain ⟨a4, h4, h⟩ := bind_ok h
    have fb := rdI_fin hb hbn
    have fa1 := he h1
    have fa2 := he h2
    have fa3 := he h3
    have fa4 := he h4
    cases h
    exact fin_add' fb (fin_mul' hs (fin_sub' (fin_sub' (fin_add' fa1 fa2) fa3) fa4))
  · obtain ⟨r1, _, h⟩ := bind_ok h
    obtain ⟨r2, _, h⟩ := bind_ok h
    obtain ⟨r3, _, h⟩ := bind_ok h
    obtain ⟨r4, _, h⟩ := bind_ok h
    obtain ⟨r5, _, h⟩ := bind_ok h
    obtain ⟨a1, h1, h⟩ := bind_ok h
    obtain ⟨a2, h2, h⟩ := bind_ok h
    obtain ⟨a3, h3, h⟩ := bind_ok h
    obtain ⟨a4, h4, h⟩ := bind_ok h
    obtain ⟨a5, h5, h⟩ := bind_ok h
    have fa1 := he h1
    have fa2 := he h2
    have fa3 := he h3
    have fa4 := he h4
    have fa5 := he h5
    cases h
    exact fin_add' fa1 (fin_mul' hs (fin_sub' (fin_sub' (fin_add' fa2 fa3) fa4) fa5))

/-- Mutation leaves a trial vector of finite numbers. -/
theorem mutate_fin {c : DECfg XR} {rs : List Int} {n : Int} {s t : DESt XR} (hs : ∃ s, c.scale = fin s) (hp : AllFin s.pop)
    (hb : AllFin s.best) (ht : AllFin s.trial) (h : mutate c rs n s = .ok t) : AllFin t.trial ∧ t.trial.length = s.trial.length := by
  unfold mutate at h
  obtain ⟨v, hv, h⟩ := bind_ok h
  obtain ⟨w, hw, h⟩ := bind_ok h
  cases h
  obtain ⟨r, rfl⟩ := newValue_fin hs hp hb ht hv
  exact wrI_fin ht hw

theorem expLoop_fin {c : DECfg XR} {rng : Nat → Nat} {rs : List Int} {left : Nat} {n : Int} {s t : DESt XR} (hs : ∃ s, c.scale = fin s)
    (hp : AllFin s.pop) (hb : AllFin s.best) (ht : AllFin s.trial) (h : expLoop c rng rs left n s = .ok t) :
    AllFin t.trial ∧ t.trial.length = s.trial.length := by
  induction left generalizing n s with
  | zero => simp only [expLoop] at h; cases h; exact ⟨ht, rfl⟩
  | succ k ih =>
    simp only [expLoop] at h
    split at h
    · obtain ⟨u, hu, h⟩ := bind_ok h
      have h1 := mutate_rest hu
      obtain ⟨h2, h3⟩ := mutate_fin hs (by exact hp) (by exact hb) (by exact ht) hu
      obtain ⟨h4, h5⟩ := ih (by rw [h1.pop]; exact hp) (by rw [h1.best]; exact hb) h2 h
      exact ⟨h4, h5.trans h3⟩
    · cases h; exact ⟨ht, rfl⟩

theorem binLoop_fin {c : DECfg XR} {rng : Nat → Nat} {rs : List Int} {left : Nat} {n : Int} {s t : DESt XR} (hs : ∃ s, c.scale = fin s)
    (hp : AllFin s.pop) (hb : AllFin s.best) (ht : AllFin s.trial) (h : binLoop c rng rs left n s = .ok t) :
    AllFin t.trial ∧ t.trial.length = s.trial.length := by
  induction left generalizing n s with
  | zero => simp only [binLoop] at h; cases h; exact ⟨ht, rfl⟩
  | succ k ih =>
    simp only [binLoop] at h
    split at h
    · obtain ⟨u, hu, h⟩ := bind_ok h
      have h1 := mutate_rest hu
      obtain ⟨h2, h3⟩ := mutate_fin hs (by exact hp) (by exact hb) (by exact ht) hu
      obtain ⟨h4, h5⟩ := ih (by rw [h1.pop]; exact hp) (by rw [h1.best]; exact hb) h2 h
      exact ⟨h4, h5.trans h3⟩
    · exact ih (s := { s with pos := s.pos + 1 }) hp hb ht h

/-- A row of the population. -/
theorem rowOf_box {c : DECfg XR} {lo hi : List ℝ} {pop r : List XR} {k : Nat} (hp : PopBox lo hi c.nDim pop) (h : rowOf c pop k = .ok r) :
    r.length = c.nDim ∧ ∀ j (hj : j < r.length), Between lo hi j r[j] := by
  obtain ⟨hl, hg⟩ := loopMap_elems h
  refine ⟨hl, fun j hj => ?_⟩
  obtain ⟨hi', he⟩ := rd_eq_ok_iff.1 (hg j hj)
  have h1 := hp _ hi'
  rw [he] at h1
  have e : (k * c.nDim + j) % c.nDim = j := by
    rw [Nat.add_comm, Nat.add_mul_mod_self_right]
    exact Nat.mod_eq_of_lt (by omega)
  rwa [e] at h1

theorem calcTrial_fin {c : DECfg XR} {lo hi : List ℝ} {rng : Nat → Nat} {fuel k : Nat} {s t : DESt XR} (hs : ∃ s, c.scale = fin s)
    (hp : PopBox lo hi c.nDim s.pop) (hb : AllFin s.best) (h : calcTrial c rng fuel k s = .ok t) :
    AllFin t.trial ∧ t.trial.length = c.nDim := by
  unfold calcTrial at h
  obtain ⟨q, _, h⟩ := bind_ok h
  obtain ⟨n, _, h⟩ := bind_ok h
  obtain ⟨w, hw, h⟩ := bind_ok h
  obtain ⟨hl, hg⟩ := rowOf_box hp hw
  have hw' : AllFin w := by
    intro x hx
    obtain ⟨z, hz, rfl⟩ := List.getElem_of_mem hx
    exact (hg z hz).fin
  unfold crossover at h
  split at h
  · obtain ⟨h1, h2⟩ := binLoop_fin hs (by exact hp.fin) (by exact hb) (by exact hw') h
    exact ⟨h1, h2.trans hl⟩
  · obtain ⟨h1, h2⟩ := expLoop_fin hs (by exact hp.fin) (by exact hb) (by exact hw') h
    exact ⟨h1, h2.trans hl⟩

/-- After the repair a component is within its limits. -/
theorem repair_one {rng : Nat → Nat} (hr : ∀ p, rng p < 2 ^ 32) {t l h o : ℝ} {pos : Nat} (hlo : l ≤ o) (hoh : o ≤ h) :
    ∃ a, (repairHi rng (fin h) (fin o) (repairLo rng (fin l) (fin o) (fin t, pos))).1 = fin a ∧ l ≤ a ∧ a ≤ h := by
  have hlow : ∃ a q, repairLo rng (fin l) (fin o) (fin t, pos) = (fin a, q) ∧ l ≤ a := by
    unfold repairLo
    by_cases h1 : t < l
    · obtain ⟨u, hu, h0, h1'⟩ := randUniform01 hr pos
      refine ⟨l + u * (o - l), pos + 1, ?_, ?_⟩
      · simp only [flt_fin, h1, decide_true, if_true, hu, fin_sub, fin_mul, fin_add]
      · have := mul_nonneg h0 (sub_nonneg.2 hlo)
        linarith
    · exact ⟨t, pos, by simp [h1], le_of_not_gt h1⟩
  obtain ⟨a, q, e, ha⟩ := hlow
  rw [e]
  unfold repairHi
  by_cases h1 : h < a
  · obtain ⟨u, hu, h0, h1'⟩ := randUniform01 hr q
    refine ⟨h - u * (h - o), ?_, ?_, ?_⟩
    · simp only [flt_fin, h1, decide_true, if_true, hu, fin_sub, fin_mul]
    · have : u * (h - o) ≤ 1 * (h - o) := mul_le_mul_of_nonneg_right h1' (sub_nonneg.2 hoh)
      linarith
    · have := mul_nonneg h0 (sub_nonneg.2 hoh)
      linarith
  · exact ⟨a, by simp [h1], ha, le_of_not_gt h1⟩

theorem repair_box {c : DECfg XR} {lo hi : List ℝ} {rng : Nat → Nat} {old : List XR} {s t : DESt XR} (hr : ∀ p, rng p < 2 ^ 32)
    (hc : BoxCfg c lo hi) (ht : AllFin s.trial) (ho : ∀ j (hj : j < old.length), Between lo hi j old[j]) (h : repair c rng old s = .ok t) :
    t.trial.length = c.nDim ∧ ∀ j (hj : j < t.trial.length), Between lo hi j t.trial[j] := by
  unfold repair at h
  obtain ⟨p, hp, h⟩ := bind_ok h
  cases h
  obtain ⟨hl, hg⟩ := loopAcc_get hp
  refine ⟨hl, fun j hj => ?_⟩
  obtain ⟨s0, s1, e⟩ := hg j hj
  obtain ⟨x, hx, e⟩ := bind_ok e
  obtain ⟨l, hlj, e⟩ := bind_ok e
  obtain ⟨u, huj, e⟩ := bind_ok e
  obtain ⟨o, hoj, e⟩ := bind_ok e
  obtain ⟨tx, rfl⟩ := rd_fin ht hx
  obtain ⟨hj1, e1⟩ := rd_eq_ok_iff.1 hlj
  obtain ⟨hj2, e2⟩ := rd_eq_ok_iff.1 huj
  obtain ⟨hj3, e3⟩ := rd_eq_ok_iff.1 hoj
  have hb := ho j hj3
  rw [e3] at hb
  obtain ⟨a, l', h', rfl, el, eh, h1, h2⟩ := hb
  simp only [hc.lo_eq, hc.hi_eq, List.length_map, List.getElem_map] at hj1 hj2 e1 e2
  rw [List.getElem?_eq_getElem hj1] at el
  rw [List.getElem?_eq_getElem hj2] at eh
  cases el
  cases eh
  subst e1 e2
  obtain ⟨b, e4, h3, h4⟩ := repair_one hr (t := tx) (pos := s0) h1 h2
  have e5 : p.1[j] = fin b := by
    rw [← e4]
    have := Except.ok.inj e
    exact (congrArg Prod.fst this).symm
  exact ⟨b, _, _, e5, List.getElem?_eq_getElem hj1, List.getElem?_eq_getElem hj2, h3, h4⟩

/-- Storing a row. -/
theorem putRow_box {c : DECfg XR} {lo hi : List ℝ} {k : Nat} {v pop pop' : List XR} (hp : PopBox lo hi c.nDim pop)
    (hv : ∀ j (hj : j < v.length), Between lo hi j v[j]) (h : putRow c k v pop = .ok pop') :
    PopBox lo hi c.nDim pop' ∧ pop'.length = pop.length := by
  unfold putRow at h
  refine forN_inv c.nDim pop pop' _ (fun _ q => PopBox lo hi c.nDim q ∧ q.length = pop.length) ⟨hp, rfl⟩ ?_ h
  intro j q q' hj hq hs
  obtain ⟨x, hx, hs⟩ := bind_ok hs
  obtain ⟨hjv, rfl⟩ := rd_eq_ok_iff.1 hx
  unfold wr at hs
  split at hs
  · cases hs
    refine ⟨fun z hz => ?_, by simp [hq.2]⟩
    rw [List.length_set] at hz
    rw [List.getElem_set]
    split
    · rename_i hlt e
      subst e
      have e : (k * c.nDim + j) % c.nDim = j := by
        rw [Nat.add_comm, Nat.add_mul_mod_self_right]
        exact Nat.mod_eq_of_lt hj
      rw [e]
      exact hv j hjv
    · exact hq.1 z hz
  · cases hs

/-- Loop invariant for the bounds. -/
structure BoxInv (c : DECfg XR) (lo hi : List ℝ) (st : DESt XR) : Prop where
  pop : PopBox lo hi c.nDim st.pop
  best : AllFin st.best
  found : (st.best = List.replicate c.nDim (fin 0) ∧ st.bestE = fin (10 ^ 20)) ∨ Spec.InBox lo hi st.best
  trace : ∀ p ∈ st.trace, Spec.InBox lo hi p.1

theorem inBox_fin {lo hi : List ℝ} {v : List XR} (h : Spec.InBox lo hi v) : AllFin v := by
  obtain ⟨w, rfl, _⟩ := h
  intro x hx
  obtain ⟨r, _, rfl⟩ := List.mem_map.1 hx
  exact ⟨r, rfl⟩

theorem accept_box {c : DECfg XR} {lo hi : List ℝ} {energy : List XR → XR} {k : Nat} {s t : DESt XR} (hc : BoxCfg c lo hi)
    (hi' : BoxInv c lo hi s) (hl : s.trial.length = c.nDim) (hv : ∀ j (hj : j < s.trial.length), Between lo hi j s.trial[j])
    (h : accept c energy k s = .ok t) : BoxInv c lo hi t := by
  unfold accept at h
  obtain ⟨o, _, h⟩ := bind_ok h
  split at h
  · obtain ⟨pe, _, h⟩ := bind_ok h
    obtain ⟨pop, hpop, h⟩ := bind_ok h
    cases h
    obtain ⟨hp, _⟩ := putRow_box hi'.pop hv hpop
    have hb : Spec.InBox lo hi s.trial := inBox_of (by rw [hl, hc.lo_len]) (by rw [hl, hc.hi_len]) hv
    unfold keepBest
    split
    · exact ⟨hp, inBox_fin hb, Or.inr hb, hi'.trace⟩
    · exact ⟨hp, hi'.best, hi'.found, hi'.trace⟩
  · cases h; exact hi'

theorem oneCandidate_box {c : DECfg XR} {lo hi : List ℝ} {rng : Nat → Nat} {fuel : Nat} {energy : List XR → XR} {k : Nat} {s t : DESt XR}
    (hr : ∀ p, rng p < 2 ^ 32) (hc : BoxCfg c lo hi) (hi' : BoxInv c lo hi s) (h : oneCandidate c rng fuel energy k s = .ok t) :
    BoxInv c lo hi t := by
  unfold oneCandidate at h
  obtain ⟨s1, h1, h⟩ := bind_ok h
  obtain ⟨old, h2, h⟩ := bind_ok h
  obtain ⟨s2, h3, h⟩ := bind_ok h
  obtain ⟨s3, h4, h⟩ := bind_ok h
  cases h
  have r1 := calcTrial_rest h1
  obtain ⟨f1, l1⟩ := calcTrial_fin hc.scale hi'.pop hi'.best h1
  have hp1 : PopBox lo hi c.nDim s1.pop := by rw [r1.pop]; exact hi'.pop
  obtain ⟨_, ho⟩ := rowOf_box hp1 h2
  obtain ⟨l2, b2⟩ := repair_box hr hc f1 ho h3
  have r2 := r1.trans (repair_rest h3)
  have inv2 : BoxInv c lo hi s2 := ⟨by rw [r2.pop]; exact hi'.pop, by rw [r2.best]; exact hi'.best,
    by rw [r2.best, r2.bestE]; exact hi'.found, by rw [r2.trace]; exact hi'.trace⟩
  have inv3 := accept_box hc inv2 l2 b2 h4
  refine ⟨inv3.pop, inv3.best, inv3.found, ?_⟩
  intro p hp
  rcases List.mem_append.1 hp with hp | hp
  · exact inv3.trace p hp
  · rw [List.mem_singleton] at hp
    subst hp
    exact inBox_of (by rw [l2, hc.lo_len]) (by rw [l2, hc.hi_len]) b2

/-- An invariant of `oneCandidate` holds at the end of `Solve`. -/
theorem generationsLoop_inv {α : Type} [FP α] {c : DECfg α} {rng : Nat → Nat} {fuel : Nat} {energy : List α → α} {sig : Nat → Bool} (I : DESt α → Prop)
    (hstep : ∀ k s t, k < c.nPop → I s → oneCandidate c rng fuel energy k s = .ok t → I t) {left g : Nat} {v : DEConv α} {s : DESt α} {r : DEOut α}
    (hs : I s) (h : generationsLoop c rng fuel energy sig left g v s = .ok r) : I r.st := by
  induction left generalizing g v s with
  | zero => simp only [generationsLoop] at h; cases h; exact hs
  | succ n ih =>
    simp only [generationsLoop] at h
    obtain ⟨s1, h1, h⟩ := bind_ok h
    have i1 : I s1 := forN_inv c.nPop s s1 _ (fun _ q => I q) hs (fun z q q' hz hq hs => hstep z q q' hz hq hs) h1
    split at h
    · cases h; exact i1
    · split at h
      · cases h; exact i1
      · exact ih i1 h

/-- The first population is within the limits. -/
theorem firstPop_box {c : DECfg XR} {lo hi : List ℝ} {lhs : Option (Nat → List Nat)} {rng : Nat → Nat} {pop : List XR} (hr : ∀ p, rng p < 2 ^ 32)
    (hc : BoxCfg c lo hi) (hperm : ∀ perm, lhs = some perm → ∀ j, ∀ i ∈ perm j, i < c.nPop) (h : firstPop c lhs rng = .ok pop) :
    PopBox lo hi c.nDim pop := by
  have hle := List.forall₂_iff_get.1 hc.le
  have bounds : ∀ {j l u}, rd c.lo j = .ok l → rd c.hi j = .ok u →
      ∃ a b, l = fin a ∧ u = fin b ∧ lo[j]? = some a ∧ hi[j]? = some b ∧ a ≤ b := by
    intro j l u h1 h2
    obtain ⟨hj1, e1⟩ := rd_eq_ok_iff.1 h1
    obtain ⟨hj2, e2⟩ := rd_eq_ok_iff.1 h2
    simp only [hc.lo_eq, hc.hi_eq, List.length_map, List.getElem_map] at hj1 hj2 e1 e2
    exact ⟨_, _, e1.symm, e2.symm, List.getElem?_eq_getElem hj1, List.getElem?_eq_getElem hj2, hle.2 j hj1 hj2⟩
  unfold firstPop at h
  cases lhs with
  | none =>
    obtain ⟨hl, hg⟩ := loopMap_elems h
    intro z hz
    obtain ⟨l, h1, e⟩ := bind_ok (hg z hz)
    obtain ⟨u, h2, e⟩ := bind_ok e
    obtain ⟨a, b, rfl, rfl, e1, e2, hab⟩ := bounds h1 h2
    obtain ⟨w, hw, h0, h1'⟩ := unif_range hr (0 + z)
    have e3 := Except.ok.inj e
    simp only [randUniform, hw, fin_sub, fin_mul, fin_add] at e3
    refine ⟨_, a, b, e3.symm, e1, e2, ?_, ?_⟩
    · have := mul_nonneg h0 (sub_nonneg.2 hab); linarith
    · have : w * (b - a) ≤ 1 * (b - a) := mul_le_mul_of_nonneg_right h1' (sub_nonneg.2 hab)
      linarith
  | some perm =>
    obtain ⟨hl, hg⟩ := loopMap_elems h
    intro z hz
    obtain ⟨off, hoff, e⟩ := bind_ok (hg z hz)
    obtain ⟨l, h1, e⟩ := bind_ok e
    obtain ⟨u, h2, e⟩ := bind_ok e
    obtain ⟨a, b, rfl, rfl, e1, e2, hab⟩ := bounds h1 h2
    obtain ⟨w, hw, h0, h1'⟩ := unif_range hr (0 + z)
    obtain ⟨hj, e4⟩ := rd_eq_ok_iff.1 hoff
    have ho : off < c.nPop := hperm perm rfl _ off (e4 ▸ List.getElem_mem hj)
    have hn : (0 : ℝ) < c.nPop := by exact_mod_cast (by omega : 0 < c.nPop)
    have e3 := Except.ok.inj e
    simp only [hw, lit_def, fin_sub, fin_add, Rat.cast_natCast] at e3
    rw [fin_div_of_ne (ne_of_gt hn), fin_mul, fin_add] at e3
    have hd : 0 ≤ (b - a) / (c.nPop : ℝ) := div_nonneg (sub_nonneg.2 hab) hn.le
    refine ⟨_, a, b, e3.symm, e1, e2, ?_, ?_⟩
    · have : 0 ≤ ((off : ℝ) + w) * ((b - a) / (c.nPop : ℝ)) := mul_nonneg (by positivity) hd
      linarith
    · have h5 : (off : ℝ) + w ≤ c.nPop := by
        have : (off : ℝ) + 1 ≤ c.nPop := by exact_mod_cast ho
        linarith
      have h6 := mul_le_mul_of_nonneg_right h5 hd
      rw [mul_div_cancel₀ _ (ne_of_gt hn)] at h6
      linarith

end Imfit
