import Verif.Lemmas.DreamStat
import Verif.Lemmas.Dream
import Mathlib.Tactic.Linarith
import Mathlib.Tactic.Positivity
import Mathlib.Tactic.FieldSimp

/-!
# C67: only outlier chains are moved, to the best chain

A chain whose mean likelihood over the second half of the run is below the lower quartile of all chains by more than twice the distance of the quartiles is put at
the position of the chain with the highest mean likelihood; no other chain is changed, and that one neither. There are at most a quarter of the chains (and one)
of that kind, and none if there are fewer than four chains. Burn-in starts again if a chain has been moved.

The last part is false of the code without burn-in: chains are then moved during the part of the run that is used.
-/

namespace Imfit

open XR

namespace Spec

/-- The mean likelihood of chain `i` in the second half of the generations before `t`; `y` are the likelihoods by generation and chain. -/
noncomputable def meanLik (y : ℕ → ℕ → ℝ) (t i : ℕ) : ℝ := mean ((List.range (t - t / 2)).map fun k => y (t / 2 + k) i)

/-- Twice the distance of the quartiles below the lower quartile; `s` is sorted. -/
noncomputable def lowLimit (s : List ℝ) : ℝ := quantile s (1 / 4) - 2 * (quantile s (3 / 4) - quantile s (1 / 4))

end Spec

/-! ## Quantiles -/

theorem getD_mono {s : List ℝ} (hs : s.Pairwise (· ≤ ·)) {i j : ℕ} (hij : i ≤ j) (hj : j < s.length) : s.getD i 0 ≤ s.getD j 0 := by
  rw [List.getD_eq_getElem?_getD, List.getD_eq_getElem?_getD, List.getElem?_eq_getElem hj, List.getElem?_eq_getElem (lt_of_le_of_lt hij hj)]
  rcases Nat.eq_or_lt_of_le hij with rfl | h
  · exact le_refl _
  · exact List.pairwise_iff_getElem.1 hs i j (by omega) hj h

/-- The position of a quantile: a place `k` with a successor and a fraction, or there is only one value. -/
theorem quantile_pos (s : List ℝ) (f : ℝ) (hf : 0 ≤ f) (hf1 : f < 1) (hn : 2 ≤ s.length) :
    ∃ (k : ℕ) (d : ℝ), k + 1 < s.length ∧ 0 ≤ d ∧ d < 1 ∧ f * ((s.length : ℝ) - 1) = k + d ∧ k = ⌊f * ((s.length : ℝ) - 1)⌋₊ ∧
      Spec.quantile s f = (1 - d) * s.getD k 0 + d * s.getD (k + 1) 0 := by
  have hn' : (2 : ℝ) ≤ s.length := by exact_mod_cast hn
  have hx0 : 0 ≤ f * ((s.length : ℝ) - 1) := mul_nonneg hf (by linarith)
  have hx1 : f * ((s.length : ℝ) - 1) < (s.length : ℝ) - 1 := by nlinarith
  have h1 := Nat.floor_le hx0
  have h2 := Nat.lt_floor_add_one (f * ((s.length : ℝ) - 1))
  refine ⟨⌊f * ((s.length : ℝ) - 1)⌋₊, f * ((s.length : ℝ) - 1) - ⌊f * ((s.length : ℝ) - 1)⌋₊, ?_, by linarith, by linarith, by ring, rfl, rfl⟩
  have : ((⌊f * ((s.length : ℝ) - 1)⌋₊ + 1 : ℕ) : ℝ) < s.length := by
    push_cast
    linarith
  exact_mod_cast this

theorem quantile_one (s : List ℝ) (f : ℝ) (hn : s.length = 1) : Spec.quantile s f = s.getD 0 0 := by
  unfold Spec.quantile
  rw [hn]
  norm_num

theorem quantile_mono {s : List ℝ} (hs : s.Pairwise (· ≤ ·)) (hne : s ≠ []) {f g : ℝ} (hf : 0 ≤ f) (hfg : f ≤ g) (hg : g < 1) :
    Spec.quantile s f ≤ Spec.quantile s g := by
  have hpos := List.length_pos_iff.2 hne
  by_cases hn : s.length = 1
  · rw [quantile_one s f hn, quantile_one s g hn]
  obtain ⟨k, d, hk, hd0, hd1, hx, hkf, e⟩ := quantile_pos s f hf (by linarith) (by omega)
  obtain ⟨k', d', hk', hd0', hd1', hx', hkf', e'⟩ := quantile_pos s g (by linarith) hg (by omega)
  rw [e, e']
  have hn1 : (1 : ℝ) ≤ s.length := by exact_mod_cast hpos
  have hle : f * ((s.length : ℝ) - 1) ≤ g * ((s.length : ℝ) - 1) := mul_le_mul_of_nonneg_right hfg (by linarith)
  have hkk : k ≤ k' := by
    rw [hkf, hkf']
    exact Nat.floor_mono hle
  have m1 := getD_mono hs (Nat.le_succ k) hk
  have m2 := getD_mono hs (Nat.le_succ k') hk'
  rcases Nat.eq_or_lt_of_le hkk with rfl | h
  · have : d ≤ d' := by linarith
    nlinarith
  · have m3 := getD_mono hs (show k + 1 ≤ k' from h) (by omega)
    nlinarith

theorem quantile_le_next {s : List ℝ} (hs : s.Pairwise (· ≤ ·)) (hn : 2 ≤ s.length) {f : ℝ} (hf : 0 ≤ f) (hf1 : f < 1) :
    ⌊f * ((s.length : ℝ) - 1)⌋₊ + 1 < s.length ∧ Spec.quantile s f ≤ s.getD (⌊f * ((s.length : ℝ) - 1)⌋₊ + 1) 0 := by
  obtain ⟨k, d, hk, hd0, hd1, hx, hkf, e⟩ := quantile_pos s f hf hf1 hn
  rw [← hkf, e]
  have m1 := getD_mono hs (Nat.le_succ k) hk
  exact ⟨hk, by nlinarith⟩

theorem lowLimit_le {s : List ℝ} (hs : s.Pairwise (· ≤ ·)) (hne : s ≠ []) : Spec.lowLimit s ≤ Spec.quantile s (1 / 4) := by
  unfold Spec.lowLimit
  have := quantile_mono hs hne (f := 1 / 4) (g := 3 / 4) (by norm_num) (by norm_num) (by norm_num)
  linarith

/-- The largest value is not below the limit. -/
theorem lowLimit_max {s : List ℝ} (hs : s.Pairwise (· ≤ ·)) (hne : s ≠ []) {v : ℝ} (hv : ∀ x ∈ s, x ≤ v) : Spec.lowLimit s ≤ v := by
  refine (lowLimit_le hs hne).trans ?_
  have hpos := List.length_pos_iff.2 hne
  have hmem : ∀ k, k < s.length → s.getD k 0 ≤ v := by
    intro k hk
    rw [List.getD_eq_getElem?_getD, List.getElem?_eq_getElem hk]
    exact hv _ (List.getElem_mem hk)
  by_cases hn : s.length = 1
  · rw [quantile_one s _ hn]
    exact hmem 0 (by omega)
  · obtain ⟨h1, h2⟩ := quantile_le_next hs (show 2 ≤ s.length by omega) (f := 1 / 4) (by norm_num) (by norm_num)
    exact h2.trans (hmem _ h1)

/-- Not many values are below the limit. -/
theorem C67_count (s : List ℝ) (hs : s.Pairwise (· ≤ ·)) : s.countP (fun v => decide (v < Spec.lowLimit s)) ≤ (s.length - 1) / 4 + 1 := by
  by_cases hn : s.length ≤ 1
  · exact List.countP_le_length.trans (by omega)
  have hn2 : 2 ≤ s.length := by omega
  have hne : s ≠ [] := by
    intro h
    rw [h] at hn2
    simp at hn2
  obtain ⟨h1, h2⟩ := quantile_le_next hs hn2 (f := 1 / 4) (by norm_num) (by norm_num)
  have hfl : ⌊(1 / 4 : ℝ) * ((s.length : ℝ) - 1)⌋₊ = (s.length - 1) / 4 := by
    have hn1 : (2 : ℝ) ≤ s.length := by exact_mod_cast hn2
    rw [Nat.floor_eq_iff (by linarith)]
    have a1 : (((s.length - 1) / 4 * 4 + 1 : ℕ) : ℝ) ≤ s.length := by
      have : (s.length - 1) / 4 * 4 + 1 ≤ s.length := by omega
      exact_mod_cast this
    have a2 : (s.length : ℝ) < (((s.length - 1) / 4 * 4 + 5 : ℕ) : ℝ) := by
      have : s.length < (s.length - 1) / 4 * 4 + 5 := by omega
      exact_mod_cast this
    push_cast at a1 a2
    constructor <;> linarith
  rw [hfl] at h1 h2
  have hlim := (lowLimit_le hs hne).trans h2
  generalize (s.length - 1) / 4 = k at *
  generalize Spec.lowLimit s = L at *
  have hsplit : s.countP (fun v => decide (v < L)) = (s.take (k + 1)).countP (fun v => decide (v < L)) + (s.drop (k + 1)).countP (fun v => decide (v < L)) := by
    rw [← List.countP_append, List.take_append_drop]
  have hz : (s.drop (k + 1)).countP (fun v => decide (v < L)) = 0 := by
    rw [List.countP_eq_zero]
    intro v hv
    obtain ⟨i, hi, rfl⟩ := List.mem_iff_getElem.1 hv
    rw [List.getElem_drop]
    rw [List.length_drop] at hi
    have := getD_mono hs (show k + 1 ≤ k + 1 + i by omega) (by omega)
    rw [List.getD_eq_getElem?_getD (i := k + 1 + i), List.getElem?_eq_getElem (show k + 1 + i < s.length by omega)] at this
    have h3 : s.getD (k + 1) 0 ≤ s[k + 1 + i]'(by omega) := this
    simp only [decide_eq_true_eq, not_lt]
    linarith
  rw [hsplit, hz]
  have := List.countP_le_length (p := fun v => decide (v < L)) (l := s.take (k + 1))
  rw [List.length_take] at this
  omega

/-- With fewer than four chains none is below the limit. -/
theorem C67_few (s : List ℝ) (hs : s.Pairwise (· ≤ ·)) (hn : s.length ≤ 3) : ∀ v ∈ s, ¬ v < Spec.lowLimit s := by
  have f1 : ⌊(1 / 4 : ℝ)⌋₊ = 0 := Nat.floor_eq_zero.2 (by norm_num)
  have f2 : ⌊(3 / 4 : ℝ)⌋₊ = 0 := Nat.floor_eq_zero.2 (by norm_num)
  have f3 : ⌊(1 / 2 : ℝ)⌋₊ = 0 := Nat.floor_eq_zero.2 (by norm_num)
  have f4 : ⌊(3 / 2 : ℝ)⌋₊ = 1 := (Nat.floor_eq_iff (by norm_num)).2 (by norm_num)
  match s, hs, hn with
  | [], _, _ => simp
  | [a], _, _ =>
    intro v hv
    rw [List.mem_singleton] at hv
    subst hv
    unfold Spec.lowLimit
    rw [quantile_one _ _ rfl, quantile_one _ _ rfl]
    simp
  | [a, b], hs, _ =>
    simp only [List.pairwise_cons, List.mem_singleton, forall_eq] at hs
    have hab : a ≤ b := hs.1
    have e1 : Spec.quantile [a, b] (1 / 4) = 3 / 4 * a + 1 / 4 * b := by
      unfold Spec.quantile
      norm_num [f1]
    have e2 : Spec.quantile [a, b] (3 / 4) = 1 / 4 * a + 3 / 4 * b := by
      unfold Spec.quantile
      norm_num [f2]
    intro v hv
    unfold Spec.lowLimit
    rw [e1, e2, not_lt]
    simp only [List.mem_cons, List.not_mem_nil, or_false] at hv
    rcases hv with rfl | rfl <;> linarith
  | [a, b, d], hs, _ =>
    simp only [List.pairwise_cons, List.mem_cons, List.not_mem_nil, or_false, forall_eq_or_imp, forall_eq] at hs
    have hab : a ≤ b := hs.1.1
    have hbd : b ≤ d := hs.2.1
    have e1 : Spec.quantile [a, b, d] (1 / 4) = 1 / 2 * a + 1 / 2 * b := by
      unfold Spec.quantile
      norm_num [f3]
    have e2 : Spec.quantile [a, b, d] (3 / 4) = 1 / 2 * b + 1 / 2 * d := by
      unfold Spec.quantile
      norm_num [f4]
    intro v hv
    unfold Spec.lowLimit
    rw [e1, e2, not_lt]
    simp only [List.mem_cons, List.not_mem_nil, or_false] at hv
    rcases hv with rfl | rfl | rfl <;> linarith
  | _ :: _ :: _ :: _ :: _, _, hn =>
    simp only [List.length_cons] at hn
    omega

/-- Four chains, one of which is far below the others: the limit is 5/2. -/
example : Spec.lowLimit [0, 10, 10, 10] = 5 / 2 := by
  have f3 : ⌊(3 / 4 : ℝ)⌋₊ = 0 := Nat.floor_eq_zero.2 (by norm_num)
  have f4 : ⌊(9 / 4 : ℝ)⌋₊ = 2 := (Nat.floor_eq_iff (by norm_num)).2 (by norm_num)
  unfold Spec.lowLimit Spec.quantile
  norm_num [f3, f4]

/-! ## The step -/

section
variable {σ : Type}

/-- The outliers as found by the code. -/
theorem checkOutliers_ok (c : DreamCfg XR) (G : Gsl XR) (hG : Spec.ExactGsl G) (t : ℕ) (ht : 0 < t) (lik : List (Option XR)) (y : ℕ → ℕ → ℝ)
    (hlik : ∀ k i, t / 2 ≤ k → k < t → i < c.numChains → lik[k * c.numChains + i]? = some (some (fin (y k i)))) (hm : 0 < c.numChains) :
    ∃ s : List ℝ, s.Perm ((List.range c.numChains).map (Spec.meanLik y t)) ∧ s.Pairwise (· ≤ ·) ∧
      checkOutliers c G t lik = .ok (((List.range c.numChains).map (Spec.meanLik y t)).map fin,
        (List.range c.numChains).map fun i => decide (Spec.meanLik y t i < Spec.lowLimit s)) := by
  unfold checkOutliers
  have e1 : loopMap c.numChains (fun i => do
      let l ← loopMap (t - t / 2) fun k => getLik c lik (t / 2 + k) i
      .ok (G.mean l)) = .ok ((List.range c.numChains).map fun i => fin (Spec.meanLik y t i)) := by
    refine loopMap_ok _ _ _ fun i hi => ?_
    have e2 : loopMap (t - t / 2) (fun k => getLik c lik (t / 2 + k) i) = .ok (((List.range (t - t / 2)).map fun k => y (t / 2 + k) i).map fin) := by
      rw [List.map_map]
      refine loopMap_ok _ _ _ fun k hk => ?_
      have h1 := hlik (t / 2 + k) i (by omega) (by omega) hi
      have hlt : (t / 2 + k) * c.numChains + i < lik.length := by
        by_contra hcon
        rw [List.getElem?_eq_none (by omega)] at h1
        cases h1
      unfold getLik rdU
      obtain ⟨a, ea, hra⟩ := Sat.rd hlt
      rw [h1] at hra
      cases hra
      rw [ea]
      rfl
    rw [e2, val_bind, hG.mean]
    · rfl
    · intro h
      rw [List.map_eq_nil_iff, List.range_eq_nil] at h
      omega
  rw [e1, val_bind]
  have e3 : ((List.range c.numChains).map fun i => fin (Spec.meanLik y t i)) = ((List.range c.numChains).map (Spec.meanLik y t)).map fin := by
    rw [List.map_map]
    rfl
  rw [e3]
  obtain ⟨s, h1, h2, h3⟩ := hG.sort ((List.range c.numChains).map (Spec.meanLik y t))
  have hne : s ≠ [] := by
    intro h
    rw [h] at h2
    have := h2.length_eq
    simp at this
    omega
  refine ⟨s, h2, h3, ?_⟩
  rw [h1]
  simp only [lit_def]
  rw [show (((1 / 4 : ℚ)) : ℝ) = 1 / 4 by norm_num, show (((3 / 4 : ℚ)) : ℝ) = 3 / 4 by norm_num, show (((2 : ℚ)) : ℝ) = 2 by norm_num,
    hG.quantile s _ hne (by norm_num) (by norm_num), hG.quantile s _ hne (by norm_num) (by norm_num)]
  congr 2
  rw [List.map_map, List.map_map]
  refine List.map_congr_left fun i _ => ?_
  show flt (fin (Spec.meanLik y t i)) (fin (Spec.quantile s (1 / 4)) - fin 2 * (fin (Spec.quantile s (3 / 4)) - fin (Spec.quantile s (1 / 4)))) = _
  rw [fin_sub, fin_mul, fin_sub, flt_fin]
  rfl

/-- State after the first `z` chains have been looked at. -/
structure Moved (c : DreamCfg XR) (t best : ℕ) (out : ℕ → Prop) (st : DreamSt σ XR) (z : ℕ) (st' : DreamSt σ XR) : Prop where
  moved : ∀ i, i < c.numChains → i < z → out i →
    st'.state[t * c.numChains + i]? = st.state[t * c.numChains + best]? ∧ st'.lik[t * c.numChains + i]? = st.lik[t * c.numChains + best]?
  kept : ∀ q, (∀ i, i < c.numChains → i < z → out i → q ≠ t * c.numChains + i) → st'.state[q]? = st.state[q]? ∧ st'.lik[q]? = st.lik[q]?
  burn : 0 < c.burnIn → (∃ i, i < c.numChains ∧ i < z ∧ out i) → st'.inBurn = true
  stay : st.inBurn = true → st'.inBurn = true
  noburn : c.burnIn = 0 → st'.inBurn = st.inBurn
  none : (∀ i, i < c.numChains → i < z → ¬ out i) → st' = st

/-- Which chains are moved, where to, and what happens to burn-in; `y` are the likelihoods by generation and chain. -/
theorem C67_moved (c : DreamCfg XR) (G : Gsl XR) (hG : Spec.ExactGsl G) (t : ℕ) (ht : 0 < t) (st : DreamSt σ XR) (y : ℕ → ℕ → ℝ) (hm : 0 < c.numChains)
    (hon : c.collapse = true) (hact : flt (lit (t : ℚ)) (c.reenter * lit (c.maxEvals : ℚ)) = true)
    (hlik : ∀ k i, t / 2 ≤ k → k < t → i < c.numChains → st.lik[k * c.numChains + i]? = some (some (fin (y k i))))
    (hcur : ∀ i, i < c.numChains → ∃ row v, st.state[t * c.numChains + i]? = some (some row) ∧ st.lik[t * c.numChains + i]? = some (some v)) :
    ∃ st' s best, collapse c G t st = .ok st' ∧ s.Perm ((List.range c.numChains).map (Spec.meanLik y t)) ∧ s.Pairwise (· ≤ ·) ∧
      best < c.numChains ∧ (∀ i, i < c.numChains → Spec.meanLik y t i ≤ Spec.meanLik y t best) ∧ ¬ Spec.meanLik y t best < Spec.lowLimit s ∧
      (∀ i, i < c.numChains → Spec.meanLik y t i < Spec.lowLimit s →
        st'.state[t * c.numChains + i]? = st.state[t * c.numChains + best]? ∧ st'.lik[t * c.numChains + i]? = st.lik[t * c.numChains + best]?) ∧
      (∀ q, (∀ i, i < c.numChains → Spec.meanLik y t i < Spec.lowLimit s → q ≠ t * c.numChains + i) → st'.state[q]? = st.state[q]? ∧ st'.lik[q]? = st.lik[q]?) ∧
      (0 < c.burnIn → (∃ i, i < c.numChains ∧ Spec.meanLik y t i < Spec.lowLimit s) → st'.inBurn = true) ∧
      (c.burnIn = 0 → st'.inBurn = st.inBurn) ∧ ((∀ i, i < c.numChains → ¬ Spec.meanLik y t i < Spec.lowLimit s) → st' = st) := by
  obtain ⟨s, hp, hs, eo⟩ := checkOutliers_ok c G hG t ht st.lik y hlik hm
  have hlne : (List.range c.numChains).map (Spec.meanLik y t) ≠ [] := by
    intro h
    rw [List.map_eq_nil_iff, List.range_eq_nil] at h
    omega
  obtain ⟨v, hv1, hv2⟩ := hG.maxIndex ((List.range c.numChains).map (Spec.meanLik y t)) hlne
  generalize hbest : G.maxIndex (((List.range c.numChains).map (Spec.meanLik y t)).map fin) = best at hv1
  have hb : best < c.numChains := by
    by_contra hcon
    rw [List.getElem?_eq_none (by simpa using hcon)] at hv1
    cases hv1
  have hvb : Spec.meanLik y t best = v := by
    rw [List.getElem?_map, List.getElem?_range hb] at hv1
    simpa using hv1
  have hmax : ∀ i, i < c.numChains → Spec.meanLik y t i ≤ Spec.meanLik y t best := by
    intro i hi
    rw [hvb]
    exact hv2 _ (List.mem_map.2 ⟨i, List.mem_range.2 hi, rfl⟩)
  have hsne : s ≠ [] := by
    intro h
    rw [h] at hp
    have := hp.length_eq
    simp at this
    omega
  have hnb : ¬ Spec.meanLik y t best < Spec.lowLimit s := by
    rw [not_lt, hvb]
    refine lowLimit_max hs hsne fun x hx => hv2 x ?_
    exact hp.mem_iff.1 hx
  have hsat : Sat (collapse c G t st) (Moved c t best (fun i => Spec.meanLik y t i < Spec.lowLimit s) st c.numChains) := by
    unfold collapse
    rw [hon, hact, if_pos (by decide), eo, val_bind]
    simp only [hbest]
    refine Sat.forN (I := Moved c t best (fun i => Spec.meanLik y t i < Spec.lowLimit s) st) ?_ ?_
    · refine ⟨fun i _ h => absurd h (by omega), fun q _ => ⟨rfl, rfl⟩, ?_, fun h => h, fun _ => rfl, fun _ => rfl⟩
      rintro - ⟨i, -, h, -⟩
      omega
    · intro z st1 hz h
      obtain ⟨b, eb, hrb⟩ := Sat.rd (l := (List.range c.numChains).map fun i => decide (Spec.meanLik y t i < Spec.lowLimit s)) (i := z) (by simpa using hz)
      rw [eb, val_bind]
      rw [List.getElem?_map, List.getElem?_range hz] at hrb
      have hrb' : decide (Spec.meanLik y t z < Spec.lowLimit s) = b := by simpa using hrb
      by_cases hout : Spec.meanLik y t z < Spec.lowLimit s
      · have hzb : z ≠ best := by
          rintro rfl
          exact hnb hout
        rw [if_pos ⟨by rw [← hrb']; simpa using hout, hzb⟩]
        obtain ⟨rowb, vb, hrow, hvl⟩ := hcur best hb
        obtain ⟨rowz, vz, hrowz, hvz⟩ := hcur z hz
        have kb := h.kept (t * c.numChains + best) (by
          intro i hi _ ho heq
          have : best = i := by omega
          rw [this] at hnb
          exact hnb ho)
        have kz := h.kept (t * c.numChains + z) (by
          intro i hi hiz ho heq
          omega)
        rw [hrow, hvl] at kb
        rw [hrowz, hvz] at kz
        have l1 : t * c.numChains + best < st1.lik.length := by
          by_contra hcon
          have := kb.2
          rw [List.getElem?_eq_none (by omega)] at this
          cases this
        have l2 : t * c.numChains + z < st1.lik.length := by
          by_contra hcon
          have := kz.2
          rw [List.getElem?_eq_none (by omega)] at this
          cases this
        have l3 : t * c.numChains + best < st1.state.length := by
          by_contra hcon
          have := kb.1
          rw [List.getElem?_eq_none (by omega)] at this
          cases this
        have l4 : t * c.numChains + z < st1.state.length := by
          by_contra hcon
          have := kz.1
          rw [List.getElem?_eq_none (by omega)] at this
          cases this
        have g1 : getLik c st1.lik t best = .ok vb := by
          unfold getLik rdU
          obtain ⟨a, ea, hra⟩ := Sat.rd l1
          rw [kb.2] at hra
          cases hra
          rw [ea]
          rfl
        have g2 : getRow c st1.state t best = .ok rowb := by
          unfold getRow rdU
          obtain ⟨a, ea, hra⟩ := Sat.rd l3
          rw [kb.1] at hra
          cases hra
          rw [ea]
          rfl
        unfold moveChain
        rw [g1, val_bind]
        have w1 : setLik c st1.lik t z vb = .ok (st1.lik.set (t * c.numChains + z) (some vb)) := by
          unfold setLik
          exact wr_ok l2
        have w2 : setRow c st1.state t z rowb = .ok (st1.state.set (t * c.numChains + z) (some rowb)) := by
          unfold setRow
          exact wr_ok l4
        rw [w1, val_bind, g2, val_bind, w2, val_bind]
        have key : ∀ (st2 : DreamSt σ XR), st2.state = st1.state.set (t * c.numChains + z) (some rowb) → st2.lik = st1.lik.set (t * c.numChains + z) (some vb) →
            (0 < c.burnIn → st2.inBurn = true) → (st1.inBurn = true → st2.inBurn = true) → (c.burnIn = 0 → st2.inBurn = st1.inBurn) →
            Moved c t best (fun i => Spec.meanLik y t i < Spec.lowLimit s) st (z + 1) st2 := by
          intro st2 e1 e2 b1 b2 b3
          refine ⟨?_, ?_, fun h0 _ => b1 h0, fun h0 => b2 (h.stay h0), fun h0 => (b3 h0).trans (h.noburn h0), ?_⟩
          · intro i hi hiz ho
            rw [e1, e2]
            by_cases hiz' : i = z
            · subst hiz'
              rw [List.getElem?_set_self l4, List.getElem?_set_self l2, hrow, hvl]
              exact ⟨rfl, rfl⟩
            · rw [List.getElem?_set_ne (by omega), List.getElem?_set_ne (by omega)]
              exact h.moved i hi (by omega) ho
          · intro q hq
            have hqz := hq z hz (by omega) hout
            rw [e1, e2, List.getElem?_set_ne (fun h => hqz h.symm), List.getElem?_set_ne (fun h => hqz h.symm)]
            exact h.kept q fun i hi hiz ho => hq i hi (by omega) ho
          · intro hno
            exact absurd hout (hno z hz (by omega))
        split
        · rename_i hbi
          simp only [Bool.and_eq_true, Bool.not_eq_true', decide_eq_true_eq] at hbi
          exact Sat.ok (key _ rfl rfl (fun _ => rfl) (fun _ => rfl) (fun h0 => by omega))
        · rename_i hbi
          simp only [Bool.and_eq_true, Bool.not_eq_true', decide_eq_true_eq, not_and] at hbi
          refine Sat.ok (key _ rfl rfl (fun h0 => ?_) (fun h0 => h0) (fun _ => rfl))
          show st1.inBurn = true
          cases hi : st1.inBurn with
          | true => rfl
          | false => exact absurd h0 (hbi hi)
      · rw [if_neg (by rw [← hrb']; simpa using fun h => absurd h hout)]
        refine Sat.ok ⟨?_, ?_, ?_, h.stay, h.noburn, ?_⟩
        · intro i hi hiz ho
          have : i ≠ z := by
            rintro rfl
            exact hout ho
          exact h.moved i hi (by omega) ho
        · intro q hq
          exact h.kept q fun i hi hiz ho => hq i hi (by omega) ho
        · rintro h0 ⟨i, hi, hiz, ho⟩
          have : i ≠ z := by
            rintro rfl
            exact hout ho
          exact h.burn h0 ⟨i, hi, by omega, ho⟩
        · intro hno
          exact h.none fun i hi hiz => hno i hi (by omega)
  obtain ⟨st', e, h⟩ := hsat
  refine ⟨st', s, best, e, hp, hs, hb, hmax, hnb, fun i hi ho => h.moved i hi hi ho, fun q hq => h.kept q fun i hi _ ho => hq i hi ho, ?_, h.noburn, ?_⟩
  · rintro h0 ⟨i, hi, ho⟩
    exact h.burn h0 ⟨i, hi, hi, ho⟩
  · intro hno
    exact h.none fun i hi _ => hno i hi

/-- Without burn-in an outlier is moved in the part of the run that is used, and the run goes on as if nothing had happened. -/
theorem C67_noburnin_false (c : DreamCfg XR) (G : Gsl XR) (hG : Spec.ExactGsl G) (t : ℕ) (ht : 0 < t) (st : DreamSt σ XR) (y : ℕ → ℕ → ℝ)
    (hon : c.collapse = true) (hact : flt (lit (t : ℚ)) (c.reenter * lit (c.maxEvals : ℚ)) = true)
    (hlik : ∀ k i, t / 2 ≤ k → k < t → i < c.numChains → st.lik[k * c.numChains + i]? = some (some (fin (y k i))))
    (hcur : ∀ i, i < c.numChains → ∃ row v, st.state[t * c.numChains + i]? = some (some row) ∧ st.lik[t * c.numChains + i]? = some (some v))
    (h4 : c.numChains = 4) (hy : ∀ k, y k 0 = 0 ∧ y k 1 = 10 ∧ y k 2 = 10 ∧ y k 3 = 10) (hb : c.burnIn = 0) (hi : st.inBurn = false) :
    ∃ st' best, collapse c G t st = .ok st' ∧ 0 < best ∧ best < 4 ∧ st'.state[t * 4]? = st.state[t * 4 + best]? ∧ st'.inBurn = false := by
  obtain ⟨st', s, best, e, hp, hs, hbest, hmax, hnb, hmv, -, -, hno, -⟩ := C67_moved c G hG t ht st y (by omega) hon hact hlik hcur
  have hmean : ∀ i v, (∀ k, y k i = v) → Spec.meanLik y t i = v := by
    intro i v hv
    unfold Spec.meanLik Spec.mean
    simp only [hv]
    rw [List.map_const', List.length_range, List.sum_replicate, List.length_replicate, nsmul_eq_mul]
    have : ((t - t / 2 : ℕ) : ℝ) ≠ 0 := by
      have : t - t / 2 ≠ 0 := by omega
      exact_mod_cast this
    field_simp
  have m0 := hmean 0 0 fun k => (hy k).1
  have m1 := hmean 1 10 fun k => (hy k).2.1
  have m2 := hmean 2 10 fun k => (hy k).2.2.1
  have m3 := hmean 3 10 fun k => (hy k).2.2.2
  have hl : (List.range c.numChains).map (Spec.meanLik y t) = [0, 10, 10, 10] := by
    rw [h4]
    simp [List.range_succ, m0, m1, m2, m3]
  rw [hl] at hp
  have hse : s = [0, 10, 10, 10] := by
    refine hp.eq_of_pairwise (le := (· ≤ ·)) (fun a b _ _ h1 h2 => le_antisymm h1 h2) hs ?_
    norm_num
  have hlim : Spec.lowLimit s = 5 / 2 := by
    rw [hse]
    have f3 : ⌊(3 / 4 : ℝ)⌋₊ = 0 := Nat.floor_eq_zero.2 (by norm_num)
    have f4 : ⌊(9 / 4 : ℝ)⌋₊ = 2 := (Nat.floor_eq_iff (by norm_num)).2 (by norm_num)
    unfold Spec.lowLimit Spec.quantile
    norm_num [f3, f4]
  have hb0 : best ≠ 0 := by
    rintro rfl
    rw [hlim, m0] at hnb
    norm_num at hnb
  have := (hmv 0 (by omega) (by rw [hlim, m0]; norm_num)).1
  rw [h4, Nat.add_zero] at this
  exact ⟨st', best, e, by omega, by omega, this, (hno hb).trans hi⟩

end

end Imfit
