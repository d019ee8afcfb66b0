import Verif.Lemmas.DreamToy
import Verif.Spec.Box

/-!
# C58: Markov chains stay within the limits

For every arithmetic whose comparisons satisfy two laws of IEEE arithmetic (`CmpLaws`), every likelihood, every number of chains (at least two), parameters and
generations, and whatever the generator draws: if a run of `dream()` that is not resumed returns, then every position held by a chain in any generation is
permitted (`Spec.Permitted`: within the limits, fixed parameters at their value), the likelihood stored with it is the likelihood of that position, and the
likelihood was never computed at any other vector. With exact arithmetic and finite draws the positions are vectors of finite numbers.
-/

namespace Imfit

open XR

section
variable {σ α : Type} [FP α]

/-- All values belong to the class of all values. -/
theorem closed_all (c : DreamCfg α) (R : Rng σ α) : Closed (fun _ => True) c R := by
  constructor <;> intros <;> trivial

theorem Pos.permitted {V : α → Prop} {c : DreamCfg α} (hc : DreamOk c) {row : List α} (h : Pos V c row) : Spec.Permitted c.lock c.lo c.hi row :=
  ⟨by rw [h.1, hc.lock], fun j l a b x hl ha hb hx => (h.2 j x hx).2 l a b hl ha hb⟩

/-- Chains stay within the limits; fixed parameters keep their value; each position is stored with its own likelihood; the likelihood is asked for at permitted
vectors only. `m` is the number of generations done. -/
theorem C58_limits (hL : CmpLaws α) (c : DreamCfg α) (hc : DreamOk c) (h2 : 2 ≤ c.numChains) (hm : 0 < c.maxEvals) (ha : c.append = false) (R : Rng σ α)
    (hR : Spec.GoodRng R) (G : Gsl α) (hG : Spec.GoodGsl G) (F : List α → α) (off : List α) (files : List (Option (List (ChainLine α)))) (fuel : Nat) (s : σ)
    (st : DreamSt σ α) (ex : DreamExit) (h : dream c R G F off files fuel s = .ok (st, ex)) :
    ∃ m, 0 < m ∧ (ex = .maxIterations → m = c.maxEvals) ∧
      (∀ k i, k < m → i < c.numChains → ∃ row, st.state[k * c.numChains + i]? = some (some row) ∧ st.lik[k * c.numChains + i]? = some (some (F row)) ∧
        Spec.Permitted c.lock c.lo c.hi row) ∧
      ∀ row ∈ st.calls, Spec.Permitted c.lock c.lo c.hi row := by
  obtain ⟨m, h1, -, h3, h4⟩ := (dream_may hc h2 hR hG hL (closed_all c R) hm ha files fuel s).get h
  refine ⟨m, h1, ?_, ?_, fun row hr => (h3.calls row hr).permitted hc⟩
  · intro he
    rcases h4 with h4 | h4
    · exact h4.2.1
    · rw [show ex = .converged from h4.1] at he
      cases he
  · intro k i hk hi
    obtain ⟨row, hP, e1, e2⟩ := h3.hist _ (cellIdx_lt hi hk)
    exact ⟨row, e1, e2, hP.1.permitted hc⟩

/-- A run of the integer version: two of the three chains reject what lies outside 0 ... 9 or is worse, the second parameter stays at 5. -/
example : let _ := toyFP
    (((dream toyCfg toyRng toyGsl toyLik [0, 0] [] 3 0).toOption.map fun r => (r.1.state.take 6, r.2)) =
      some ([some [0, 5], some [3, 5], some [6, 5], some [0, 5], some [3, 5], some [2, 5]], .maxIterations)) := by
  decide +kernel

/-- The theorem applies to it. -/
example (st : DreamSt Nat Int) (ex : DreamExit) (h : @dream Nat Int toyFP toyCfg toyRng toyGsl toyLik [0, 0] [] 3 0 = .ok (st, ex)) :
    ∀ row ∈ st.calls, @Spec.Permitted Int toyFP [false, true] [0, 5] [9, 5] row := by
  obtain ⟨m, -, -, -, h4⟩ :=
    @C58_limits Nat Int toyFP toyLaws toyCfg toyCfg_ok (by decide) (by decide) rfl toyRng toyRng_good toyGsl toyGsl_good toyLik _ _ _ _ st ex h
  exact h4

end

/-! ## Exact arithmetic -/

theorem cmpLaws_XR : CmpLaws XR where
  ninf := by
    show fle (-(1 / 0) : XR) (-(1 / 0)) = true
    rw [zero_def, one_def, fin_div_zero, infSign_pos (by norm_num)]
    rfl
  irrefl a := by cases a <;> simp [FP.flt, XR.lt']
  nan_le a b h := by
    cases a with
    | nan => cases b <;> rfl
    | fin r =>
      rw [fle_fin] at h
      simp at h
    | pinf => cases h
    | ninf => cases h
  nan_sub a b x h := by
    cases a with
    | nan => cases b <;> cases x <;> rfl
    | fin r =>
      rw [fle_fin] at h
      simp at h
    | pinf => cases h
    | ninf => cases h

/-- A finite number. -/
def Finite (x : XR) : Prop := ∃ r : ℝ, x = fin r

theorem Finite.add {x y : XR} (hx : Finite x) (hy : Finite y) : Finite (x + y) := by
  obtain ⟨a, rfl⟩ := hx
  obtain ⟨b, rfl⟩ := hy
  exact ⟨_, fin_add a b⟩

theorem Finite.sub {x y : XR} (hx : Finite x) (hy : Finite y) : Finite (x - y) := by
  obtain ⟨a, rfl⟩ := hx
  obtain ⟨b, rfl⟩ := hy
  exact ⟨_, fin_sub a b⟩

theorem Finite.mul {x y : XR} (hx : Finite x) (hy : Finite y) : Finite (x * y) := by
  obtain ⟨a, rfl⟩ := hx
  obtain ⟨b, rfl⟩ := hy
  exact ⟨_, fin_mul a b⟩

theorem finite_lit (q : ℚ) : Finite (lit q) := ⟨_, lit_def q⟩

theorem Finite.divNat {x : XR} (hx : Finite x) {n : Nat} (hn : 0 < n) : Finite (x / lit (n : ℚ)) := by
  obtain ⟨a, rfl⟩ := hx
  rw [lit_def, fin_div_of_ne (by positivity)]
  exact ⟨_, rfl⟩

theorem finite_jump (t : Nat) (upd : Int) (delta : Nat) (hu : 0 < upd) (hd : 0 < delta) : Finite (jump t upd delta) := by
  unfold jump
  split
  · exact ⟨1, one_def⟩
  · have h1 : (0 : ℝ) < ((upd : ℚ) : ℝ) := by exact_mod_cast hu
    have h2 : (0 : ℝ) < ((delta : ℚ) : ℝ) := by exact_mod_cast hd
    have h3 : (0 : ℝ) < ((2 : ℚ) : ℝ) * ((upd : ℚ) : ℝ) * ((delta : ℚ) : ℝ) := by
      have : (0 : ℝ) < ((2 : ℚ) : ℝ) := by norm_num
      positivity
    simp only [lit_def, fin_mul]
    rw [fsqrt_fin_of_nonneg h3.le, fin_div_of_ne (Real.sqrt_ne_zero'.2 h3)]
    exact ⟨_, rfl⟩

/-- Proposals of finite positions with finite draws are finite. -/
theorem closed_finite {σ : Type} {c : DreamCfg XR} (hc : DreamOk c) {R : Rng σ XR} (hu : ∀ s, Finite (R.unif s).1) (hg : ∀ s, Finite (R.gauss c.bstar s).1)
    (hn : Finite c.noise) (hlo : ∀ a ∈ c.lo, Finite a) (hhi : ∀ a ∈ c.hi, Finite a) : Closed Finite c R where
  zero := ⟨0, zero_def⟩
  add _ _ := Finite.add
  sub _ _ := Finite.sub
  step u t upd delta pd g s hpd hu' hg' h1 h2 := by
    obtain ⟨s', rfl⟩ := hg'
    subst hu'
    refine Finite.add (Finite.mul (Finite.mul (Finite.add ⟨1, one_def⟩ (Finite.mul hn (Finite.sub (Finite.mul (finite_lit 2) (hu s)) ⟨1, one_def⟩)))
      (finite_jump t upd delta h1 h2)) hpd) (hg s')
  lo := hlo
  hi := hhi
  first a b k s ha hb := by
    have h3 := Finite.sub (hhi b hb) (hlo a ha)
    exact Finite.add (Finite.add (hlo a ha) (Finite.divNat (Finite.mul (finite_lit _) h3) hc.chains)) (Finite.mul (Finite.divNat h3 hc.chains) (hu s))
  again a b s ha hb := Finite.add (hlo a ha) (Finite.mul (Finite.sub (hhi b hb) (hlo a ha)) (hu s))

/-- With exact arithmetic: if the draws are finite numbers, every position is a vector of finite numbers within the limits. -/
theorem C58_finite {σ : Type} (c : DreamCfg XR) (hc : DreamOk c) (h2 : 2 ≤ c.numChains) (hm : 0 < c.maxEvals) (ha : c.append = false) (lo hi : List ℝ)
    (hlo : c.lo = lo.map fin) (hhi : c.hi = hi.map fin) (R : Rng σ XR) (hR : Spec.GoodRng R) (hu : ∀ s, Finite (R.unif s).1)
    (hg : ∀ s, Finite (R.gauss c.bstar s).1) (hn : Finite c.noise) (G : Gsl XR) (hG : Spec.GoodGsl G) (F : List XR → XR) (off : List XR)
    (files : List (Option (List (ChainLine XR)))) (fuel : Nat) (s : σ) (st : DreamSt σ XR) (ex : DreamExit) (h : dream c R G F off files fuel s = .ok (st, ex)) :
    ∃ m, 0 < m ∧ (ex = .maxIterations → m = c.maxEvals) ∧
      (∀ k i, k < m → i < c.numChains → ∃ row, st.state[k * c.numChains + i]? = some (some row) ∧ Spec.InBox lo hi row) ∧
      ∀ row ∈ st.calls, Spec.InBox lo hi row := by
  have hV : Closed Finite c R := closed_finite hc hu hg hn
    (by rw [hlo]; intro a h; obtain ⟨r, -, rfl⟩ := List.mem_map.1 h; exact ⟨r, rfl⟩) (by rw [hhi]; intro a h; obtain ⟨r, -, rfl⟩ := List.mem_map.1 h; exact ⟨r, rfl⟩)
  have hbox : ∀ row, Pos Finite c row → Spec.InBox lo hi row := by
    intro row hP
    have hex : ∃ w : List ℝ, row = w.map fin := by
      have : ∀ x ∈ row, Finite x := by
        intro x hx
        obtain ⟨j, hj, rfl⟩ := List.getElem_of_mem hx
        exact (hP.2 j _ (by simp [hj])).1
      clear hP h
      induction row with
      | nil => exact ⟨[], rfl⟩
      | cons x xs ih =>
        obtain ⟨r, hr⟩ := this x (by simp)
        obtain ⟨w, hw⟩ := ih fun y hy => this y (by simp [hy])
        exact ⟨r :: w, by rw [hr, hw]; rfl⟩
    obtain ⟨w, rfl⟩ := hex
    have hwl : w.length = c.nvar := by simpa using hP.1
    have hll : lo.length = c.nvar := by have := hc.lo; rw [hlo] at this; simpa using this
    have hhl : hi.length = c.nvar := by have := hc.hi; rw [hhi] at this; simpa using this
    have hlk := hc.lock
    have key : ∀ j (h1 : j < lo.length) (h2 : j < w.length) (h3 : j < hi.length), lo[j] ≤ w[j] ∧ w[j] ≤ hi[j] := by
      intro j h1 h2 h3
      obtain ⟨e1, e2, -⟩ := (hP.2 j (fin w[j]) (by simp [h2])).2 (c.lock[j]'(by omega)) (fin lo[j]) (fin hi[j]) (by simp) (by rw [hlo]; simp [h1]) (by rw [hhi]; simp [h3])
      rw [flt_fin] at e1 e2
      simp only [decide_eq_false_iff_not, not_lt] at e1 e2
      exact ⟨e1, e2⟩
    refine ⟨w, rfl, ?_, ?_⟩
    · rw [List.forall₂_iff_get]
      exact ⟨by omega, fun i h1 h2 => (key i h1 h2 (by omega)).1⟩
    · rw [List.forall₂_iff_get]
      exact ⟨by omega, fun i h1 h2 => (key i (by omega) h1 h2).2⟩
  obtain ⟨m, h1, -, h3, h4⟩ := (dream_may hc h2 hR hG cmpLaws_XR hV hm ha files fuel s).get h
  refine ⟨m, h1, ?_, ?_, fun row hr => hbox row (h3.calls row hr)⟩
  · intro he
    rcases h4 with h4 | h4
    · exact h4.2.1
    · rw [show ex = .converged from h4.1] at he
      cases he
  · intro k i hk hi
    obtain ⟨row, hP, e1, -⟩ := h3.hist _ (cellIdx_lt hi hk)
    exact ⟨row, e1, hbox row hP.1⟩

end Imfit
