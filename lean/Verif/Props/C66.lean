import Verif.Spec.DreamStat
import Verif.Lemmas.Sat
import Verif.Lemmas.DreamStat
import Mathlib.Tactic.Linarith
import Mathlib.Tactic.Positivity
import Mathlib.Tactic.FieldSimp
import Mathlib.Algebra.Order.BigOperators.Group.List

/-!
# C66: the test for convergence is the one of Gelman and Rubin

The number calculated for a free parameter is the potential scale reduction of Gelman and Rubin over the second half of the generations after burn-in (without the
last two); a run is declared converged only if it is below the limit for every free parameter, which bounds the variance of the chain means by the variance
within the chains.

The claim that a converged run has chains that agree with each other is false of the code if the chains do not move: if the variance within the chains is zero the
number is taken to be 1, whatever the positions of the chains.
-/

namespace Imfit

open XR

theorem window_ok (c : DreamCfg XR) (state : List (Option (List XR))) (x : ℕ → ℕ → ℕ → ℝ) (k0 n i j : ℕ) (hi : i < c.numChains) (hj : j < c.nvar)
    (hh : Spec.Holds c state x k0 (k0 + n)) : window c state k0 n i j = .ok ((Spec.values x k0 n i j).map fin) := by
  unfold window Spec.values
  rw [List.map_map]
  refine loopMap_ok n _ _ fun k hk => ?_
  obtain ⟨row, h1, h2⟩ := hh (k0 + k) i (by omega) (by omega) hi
  have hlt : (k0 + k) * c.numChains + i < state.length := by
    by_contra hcon
    rw [List.getElem?_eq_none (by omega)] at h1
    cases h1
  have e1 : getRow c state (k0 + k) i = .ok row := by
    unfold getRow rdU
    obtain ⟨a, ea, hra⟩ := Sat.rd hlt
    rw [h1] at hra
    cases hra
    rw [ea]
    rfl
  rw [e1, val_bind]
  have hlt2 : j < row.length := by
    by_contra hcon
    have := h2 j hj
    rw [List.getElem?_eq_none (by omega)] at this
    cases this
  obtain ⟨a, ea, hra⟩ := Sat.rd hlt2
  rw [h2 j hj] at hra
  cases hra
  exact ea

theorem varAbout_nonneg (l : List ℝ) (m : ℝ) (h : 1 ≤ l.length) : 0 ≤ Spec.varAbout l m := by
  unfold Spec.varAbout
  have : (1 : ℝ) ≤ l.length := by exact_mod_cast h
  refine div_nonneg (List.sum_nonneg ?_) (by linarith)
  intro y hy
  rw [List.mem_map] at hy
  obtain ⟨z, -, rfl⟩ := hy
  positivity

theorem within_nonneg (x : ℕ → ℕ → ℕ → ℝ) (m k0 n j : ℕ) (hn : 1 ≤ n) : 0 ≤ Spec.within (Spec.chainsOf x m k0 n j) := by
  unfold Spec.within Spec.mean
  refine div_nonneg (List.sum_nonneg ?_) (by positivity)
  intro y hy
  simp only [Spec.chainsOf, List.mem_map] at hy
  obtain ⟨z, ⟨i, -, rfl⟩, rfl⟩ := hy
  exact varAbout_nonneg _ _ (by simpa [Spec.values] using hn)

/-- The scale reduction as calculated, for given values. -/
theorem scaleOf_ok (c : DreamCfg XR) (G : Gsl XR) (hG : Spec.ExactGsl G) (x : ℕ → ℕ → ℕ → ℝ) (k0 n j : ℕ) (hn : 2 ≤ n) (hm : 2 ≤ c.numChains) :
    scaleOf c G n (((Spec.chainsOf x c.numChains k0 n j).map fun l => l.map fin).map G.mean)
      (((Spec.chainsOf x c.numChains k0 n j).map fun l => l.map fin).map fun w => G.varM w (G.mean w)) =
      if 0 < Spec.within (Spec.chainsOf x c.numChains k0 n j) then fin (Spec.scaleReduction n (Spec.chainsOf x c.numChains k0 n j)) else fin 1 := by
  have hlen : (Spec.chainsOf x c.numChains k0 n j).length = c.numChains := by simp [Spec.chainsOf]
  have hl : ∀ l ∈ Spec.chainsOf x c.numChains k0 n j, l.length = n := by
    intro l hl
    simp only [Spec.chainsOf, List.mem_map] at hl
    obtain ⟨i, -, rfl⟩ := hl
    simp [Spec.values]
  have hne : ∀ l ∈ Spec.chainsOf x c.numChains k0 n j, l ≠ [] := by
    intro l h1 h2
    have := hl l h1
    rw [h2] at this
    simp at this
    omega
  have hw0 := within_nonneg x c.numChains k0 n j (by omega)
  generalize Spec.chainsOf x c.numChains k0 n j = L at *
  have e1 : (L.map fun l => l.map fin).map G.mean = (L.map Spec.mean).map fin := by
    rw [List.map_map, List.map_map]
    refine List.map_congr_left fun l h => ?_
    exact hG.mean l (hne l h)
  have e2 : ((L.map fun l => l.map fin).map fun w => G.varM w (G.mean w)) = (L.map Spec.var).map fin := by
    rw [List.map_map, List.map_map]
    refine List.map_congr_left fun l h => ?_
    show G.varM (l.map fin) (G.mean (l.map fin)) = _
    rw [hG.mean l (hne l h), hG.varM l _ (by rw [hl l h]; exact hn)]
    rfl
  rw [e1, e2]
  have hL1 : L.map Spec.mean ≠ [] := by
    intro h
    rw [List.map_eq_nil_iff] at h
    rw [h] at hlen
    simp at hlen
    omega
  have hL2 : L.map Spec.var ≠ [] := by
    intro h
    rw [List.map_eq_nil_iff] at h
    rw [h] at hlen
    simp at hlen
    omega
  unfold scaleOf
  rw [hG.mean _ hL1, hG.varM _ _ (by simp [hlen]; exact hm), hG.mean _ hL2]
  have hnn : (n : ℝ) ≠ 0 := by
    have : 0 < n := by omega
    positivity
  have hmm : (c.numChains : ℝ) ≠ 0 := by
    have : 0 < c.numChains := by omega
    positivity
  show (if flt (0 : XR) (fin (Spec.within L)) then _ else _) = _
  have eb : Spec.varAbout (L.map Spec.mean) (Spec.mean (L.map Spec.mean)) = Spec.between L := rfl
  have ew : Spec.mean (L.map Spec.var) = Spec.within L := rfl
  rw [eb, ew, zero_def, flt_fin]
  by_cases hw : 0 < Spec.within L
  · rw [if_pos hw, if_pos (by simpa using hw)]
    simp only [lit_def, one_def, Rat.cast_natCast, fin_sub, fin_div_of_ne hnn, fin_mul, fin_add, fin_div_of_ne hmm, fin_div_of_ne hw.ne']
    have hb : 0 ≤ Spec.between L := varAbout_nonneg _ _ (by simp [hlen]; omega)
    have h1 : (1 : ℝ) ≤ n := by
      have : 1 ≤ n := by omega
      exact_mod_cast this
    have hnon : 0 ≤ (((n : ℝ) - 1) / n * Spec.within L + Spec.between L + Spec.between L / c.numChains) / Spec.within L := by
      refine div_nonneg ?_ hw0
      have : 0 ≤ ((n : ℝ) - 1) / n := div_nonneg (by linarith) (by linarith)
      positivity
    rw [fsqrt_fin_of_nonneg hnon]
    unfold Spec.scaleReduction
    rw [hlen]
    congr 3
    ring
  · rw [if_neg hw, if_neg (by simpa using hw)]
    rfl

theorem gelmanRubin_ok (c : DreamCfg XR) (hc : c.lock.length = c.nvar) (G : Gsl XR) (hG : Spec.ExactGsl G) (state : List (Option (List XR))) (old : List XR)
    (ho : old.length = c.nvar) (x : ℕ → ℕ → ℕ → ℝ) (first t : ℕ) (hm : 2 ≤ c.numChains) (hn : first + 5 ≤ t)
    (hh : Spec.Holds c state x ((t + first) / 2) (t - 1)) :
    ∃ s, gelmanRubin c G state old first t = .ok s ∧ s.length = c.nvar ∧ ∀ (j : Nat), c.lock[j]? = some false →
      s[j]? = some (if 0 < Spec.within (Spec.chainsOf x c.numChains ((t + first) / 2) (t - (t + first) / 2 - 1) j) then
        fin (Spec.scaleReduction (t - (t + first) / 2 - 1) (Spec.chainsOf x c.numChains ((t + first) / 2) (t - (t + first) / 2 - 1) j)) else fin 1) := by
  unfold gelmanRubin
  rw [if_neg (by omega)]
  have hsat := Sat.loopMap (n := c.nvar) (f := fun j => scaleVar c G state ((t + first) / 2) (t - (t + first) / 2 - 1) old j)
    (Q := fun j a => c.lock[j]? = some false →
      a = if 0 < Spec.within (Spec.chainsOf x c.numChains ((t + first) / 2) (t - (t + first) / 2 - 1) j) then
        fin (Spec.scaleReduction (t - (t + first) / 2 - 1) (Spec.chainsOf x c.numChains ((t + first) / 2) (t - (t + first) / 2 - 1) j)) else fin 1) (by
    intro j hj
    unfold scaleVar
    obtain ⟨l, el, hl⟩ := Sat.rd (l := c.lock) (i := j) (by omega)
    rw [el, val_bind]
    cases l with
    | true =>
      rw [if_pos rfl]
      refine (Sat.rd (by omega)).mono fun a _ h => ?_
      rw [hl] at h
      cases h
    | false =>
      rw [if_neg (by decide)]
      have ew : loopMap c.numChains (fun i => window c state ((t + first) / 2) (t - (t + first) / 2 - 1) i j) =
          .ok ((Spec.chainsOf x c.numChains ((t + first) / 2) (t - (t + first) / 2 - 1) j).map fun l => l.map fin) := by
        unfold Spec.chainsOf
        rw [List.map_map]
        refine loopMap_ok _ _ _ fun i hi => ?_
        refine window_ok c state x _ _ i j hi hj ?_
        rwa [show (t + first) / 2 + (t - (t + first) / 2 - 1) = t - 1 by omega]
      rw [ew, val_bind]
      refine Sat.ok fun _ => ?_
      exact scaleOf_ok c G hG x _ _ j (by omega) hm)
  obtain ⟨s, es, hl, hs⟩ := hsat
  refine ⟨s, es, hl, ?_⟩
  intro j hj
  have hj' : j < s.length := by
    rw [hl, ← hc]
    by_contra hcon
    rw [List.getElem?_eq_none (by omega)] at hj
    cases hj
  rw [List.getElem?_eq_getElem hj', hs j _ (List.getElem?_eq_getElem hj') hj]

/-- The number calculated is the scale reduction of Gelman and Rubin for the generations from half-way between the end of burn-in `first` and now (`t`) to
`t - 2`. -/
theorem C66_textbook (c : DreamCfg XR) (hc : c.lock.length = c.nvar) (G : Gsl XR) (hG : Spec.ExactGsl G) (state : List (Option (List XR))) (old : List XR)
    (ho : old.length = c.nvar) (x : ℕ → ℕ → ℕ → ℝ) (first t : ℕ) (hm : 2 ≤ c.numChains) (hn : first + 5 ≤ t)
    (hh : Spec.Holds c state x ((t + first) / 2) (t - 1)) (j : Nat) (hj : c.lock[j]? = some false)
    (hw : 0 < Spec.within (Spec.chainsOf x c.numChains ((t + first) / 2) (t - (t + first) / 2 - 1) j)) :
    ∃ s, gelmanRubin c G state old first t = .ok s ∧
      s[j]? = some (fin (Spec.scaleReduction (t - (t + first) / 2 - 1) (Spec.chainsOf x c.numChains ((t + first) / 2) (t - (t + first) / 2 - 1) j))) := by
  obtain ⟨s, e, -, h⟩ := gelmanRubin_ok c hc G hG state old ho x first t hm hn hh
  have := h j hj
  rw [if_pos hw] at this
  exact ⟨s, e, this⟩

/-- Two chains with the values 0, 2 and 1, 3. -/
example : Spec.scaleReduction 2 [[0, 2], [1, 3]] = Real.sqrt (7 / 8) := by
  unfold Spec.scaleReduction Spec.within Spec.between Spec.var Spec.mean Spec.varAbout
  norm_num

/-- The statistics functions exist. -/
example : ∃ G, Spec.ExactGsl G := ⟨exactGsl, exactGsl_exact⟩

theorem allConverged_iff (c : DreamCfg XR) (hc : c.lock.length = c.nvar) (s : List XR) (hs : s.length = c.nvar) :
    ∃ b, allConverged c s = .ok b ∧ (b = true ↔ ∀ (j : Nat) v, c.lock[j]? = some false → s[j]? = some v → flt v c.crit = true) := by
  unfold allConverged
  have hsat := Sat.loopMap (n := c.nvar) (f := fun j => do
    let l ← rd c.lock j
    let s ← rd s j
    .ok (l || flt s c.crit)) (Q := fun j b => ∃ l v, c.lock[j]? = some l ∧ s[j]? = some v ∧ b = (l || flt v c.crit)) (by
    intro j hj
    obtain ⟨l, el, hl⟩ := Sat.rd (l := c.lock) (i := j) (by omega)
    obtain ⟨v, ev, hv⟩ := Sat.rd (l := s) (i := j) (by omega)
    rw [el, val_bind, ev, val_bind]
    exact Sat.ok ⟨l, v, hl, hv, rfl⟩)
  obtain ⟨b, eb, hl, hb⟩ := hsat
  rw [eb, val_bind]
  refine ⟨_, rfl, ?_⟩
  rw [List.all_eq_true]
  constructor
  · intro h j v hj hv
    have hj' : j < b.length := by
      rw [hl, ← hc]
      by_contra hcon
      rw [List.getElem?_eq_none (by omega)] at hj
      cases hj
    obtain ⟨l, v', h1, h2, h3⟩ := hb j _ (List.getElem?_eq_getElem hj')
    have h4 := h _ (List.getElem_mem hj')
    rw [hj] at h1
    cases h1
    rw [hv] at h2
    cases h2
    rw [h3] at h4
    simpa using h4
  · intro h y hy
    obtain ⟨j, hj, rfl⟩ := List.mem_iff_getElem.1 hy
    obtain ⟨l, v, h1, h2, h3⟩ := hb j _ (List.getElem?_eq_getElem hj)
    rw [h3]
    cases l with
    | true => rfl
    | false => simpa using h j v h1 h2

/-- If the run is declared converged, for every free parameter that varies within the chains the chain means differ little: their variance is bounded by a multiple
of the variance within the chains that is small if the limit is near 1. What is missing: parameters that do not vary within the chains. -/
theorem C66_converged_partial {σ : Type} (c : DreamCfg XR) (hc : c.lock.length = c.nvar) (G : Gsl XR) (hG : Spec.ExactGsl G) (st st' : DreamSt σ XR)
    (ho : st.scaleRed.length = c.nvar) (x : ℕ → ℕ → ℕ → ℝ) (t : ℕ) (hm : 2 ≤ c.numChains) (hn : st.burnStart + c.burnIn + 5 ≤ t)
    (hh : Spec.Holds c st.state x ((t + (st.burnStart + c.burnIn)) / 2) (t - 1)) (r : ℝ) (hr : c.crit = fin r)
    (hconv : convergence c G t st = .ok (st', true)) (j : Nat) (hj : c.lock[j]? = some false) (L : List (List ℝ)) (n : ℕ)
    (hn' : n = t - (t + (st.burnStart + c.burnIn)) / 2 - 1) (hL : L = Spec.chainsOf x c.numChains ((t + (st.burnStart + c.burnIn)) / 2) n j)
    (hw : 0 < Spec.within L) :
    st.inBurn = false ∧ Spec.scaleReduction n L < r ∧
      (1 + 1 / (c.numChains : ℝ)) * Spec.between L < (r ^ 2 - ((n : ℝ) - 1) / n) * Spec.within L := by
  subst hn' hL
  unfold convergence at hconv
  obtain ⟨s, es, hl, hs⟩ := gelmanRubin_ok c hc G hG st.state st.scaleRed ho x (st.burnStart + c.burnIn) t hm hn hh
  obtain ⟨b, eb, hb⟩ := allConverged_iff c hc s hl
  cases hburn : st.inBurn with
  | true =>
    rw [hburn, if_pos rfl] at hconv
    split at hconv <;> simp at hconv
  | false =>
    rw [hburn, if_neg (by decide)] at hconv
    split at hconv
    · rw [es, val_bind, eb, val_bind] at hconv
      cases b with
      | false => simp at hconv
      | true =>
        have h1 := hs j hj
        rw [if_pos hw] at h1
        have h2 := hb.1 rfl j _ hj h1
        rw [hr, flt_fin, decide_eq_true_eq] at h2
        refine ⟨rfl, h2, ?_⟩
        generalize hLL : Spec.chainsOf x c.numChains ((t + (st.burnStart + c.burnIn)) / 2) (t - (t + (st.burnStart + c.burnIn)) / 2 - 1) j = L at *
        have hlen : L.length = c.numChains := by rw [← hLL]; simp [Spec.chainsOf]
        generalize t - (t + (st.burnStart + c.burnIn)) / 2 - 1 = n at *
        unfold Spec.scaleReduction at h2
        rw [hlen] at h2
        have h3 := (Real.sqrt_lt' (lt_of_le_of_lt (Real.sqrt_nonneg _) h2)).1 h2
        rw [div_lt_iff₀ hw] at h3
        linarith
    · simp at hconv

/-- If no chain moves, the number is 1 wherever the chains are, and the run is declared converged if the limit is above 1. -/
theorem C66_stuck_false {σ : Type} (c : DreamCfg XR) (hc : c.lock.length = c.nvar) (G : Gsl XR) (hG : Spec.ExactGsl G) (st : DreamSt σ XR)
    (ho : st.scaleRed.length = c.nvar) (x : ℕ → ℕ → ℝ) (t : ℕ) (hm : 2 ≤ c.numChains) (hn : st.burnStart + c.burnIn + 5 ≤ t)
    (hh : Spec.Holds c st.state (fun _ => x) ((t + (st.burnStart + c.burnIn)) / 2) (t - 1)) (r : ℝ) (hr : c.crit = fin r) (hr1 : 1 < r)
    (hb : st.inBurn = false) (hg : c.gelmanEvals ≤ st.curRun + 1) : ∃ st', convergence c G t st = .ok (st', true) := by
  obtain ⟨s, es, hl, hs⟩ := gelmanRubin_ok c hc G hG st.state st.scaleRed ho (fun _ => x) (st.burnStart + c.burnIn) t hm hn hh
  obtain ⟨b, eb, hb'⟩ := allConverged_iff c hc s hl
  have hz : ∀ k0 n j, 1 ≤ n → Spec.within (Spec.chainsOf (fun _ => x) c.numChains k0 n j) = 0 := by
    intro k0 n j hn1
    have hv : ∀ v ∈ (Spec.chainsOf (fun _ => x) c.numChains k0 n j).map Spec.var, v = 0 := by
      intro v hv
      simp only [Spec.chainsOf, List.mem_map] at hv
      obtain ⟨l, ⟨i, -, rfl⟩, rfl⟩ := hv
      have hval : Spec.values (fun _ => x) k0 n i j = List.replicate n (x i j) := by
        unfold Spec.values
        exact List.map_const' .. |>.trans (by rw [List.length_range])
      have hnn : (n : ℝ) ≠ 0 := by positivity
      have hmean : Spec.mean (List.replicate n (x i j)) = x i j := by
        unfold Spec.mean
        rw [List.sum_replicate, List.length_replicate, nsmul_eq_mul]
        field_simp
      rw [hval]
      unfold Spec.var Spec.varAbout
      rw [hmean, List.map_replicate, sub_self]
      simp
    unfold Spec.within Spec.mean
    have : ((Spec.chainsOf (fun _ => x) c.numChains k0 n j).map Spec.var).sum = 0 := List.sum_eq_zero hv
    rw [this, zero_div]
  have hbt : b = true := by
    refine hb'.2 fun j v hj hv => ?_
    have h1 := hs j hj
    rw [hz _ _ _ (by omega), if_neg (lt_irrefl _), hv] at h1
    cases h1
    rw [hr, flt_fin, decide_eq_true_eq]
    exact hr1
  subst hbt
  unfold convergence
  rw [hb, if_neg (by decide), if_pos hg, es, val_bind, eb, val_bind, if_pos rfl]
  exact ⟨_, rfl⟩

/-- Two chains that stay at 0 and 100 for nine generations, one parameter. -/
noncomputable def stuckCfg : DreamCfg XR where
  maxEvals := 20
  numChains := 2
  nvar := 1
  nfree := 1
  lock := [false]
  lo := [fin 0]
  hi := [fin 100]
  append := false
  burnIn := 0
  recalc := false
  noise := fin 0
  bstar := fin 0
  collapse := true
  gelmanEvals := 1
  loopSteps := 10
  crit := fin (101 / 100)
  deltaMax := 1
  pCRupdate := true
  nCR := 3
  reenter := fin 1

example (st : DreamSt Unit XR) (h1 : st.scaleRed = [fin 0]) (h2 : st.burnStart = 0) (h3 : st.inBurn = false)
    (h4 : st.state = (List.range 20).map fun k => some [fin (if k % 2 = 0 then 0 else 100)]) :
    ∃ st', convergence stuckCfg exactGsl 9 st = .ok (st', true) := by
  refine C66_stuck_false stuckCfg rfl exactGsl exactGsl_exact st (by rw [h1]; rfl) (fun i _ => if i % 2 = 0 then 0 else 100) 9 (le_refl 2)
    (by rw [h2]; decide) ?_ (101 / 100) rfl (by norm_num) h3 (by show 1 ≤ _; omega)
  intro k i h5 h6 hi
  have hi' : i < 2 := hi
  refine ⟨[fin (if i % 2 = 0 then 0 else 100)], ?_, ?_⟩
  · show st.state[k * 2 + i]? = _
    rw [h4, List.getElem?_map, List.getElem?_range (by omega)]
    show some (some [fin (if (k * 2 + i) % 2 = 0 then 0 else 100)]) = _
    rw [show (k * 2 + i) % 2 = i % 2 by omega]
  · intro j hj
    have hj' : j < 1 := hj
    obtain rfl : j = 0 := by omega
    rfl

end Imfit
