import Verif.Lemmas.LmPar

/-!
# `mp_covar`
-/

namespace Imfit
open XR Finset Matrix

noncomputable section

/-- Column `k` of the inverse. -/
theorem invCol_fin {k : ℕ} {R T : ℕ → ℕ → ℝ} {r : Arr2 XR} (hT : ∀ i j, i ≤ j → j < k → r i j = fin (T i j))
    (hR : ∀ i, i ≤ k → r i k = fin (R i k)) (h0 : R k k ≠ 0) :
    invCol r k k = fin (1 / R k k) ∧ ∀ i, i < k → invCol r k i = fin (-(1 / R k k) * ∑ j ∈ Ico i k, T i j * R j k) := by
  suffices H : ∀ t, t ≤ k → ((List.range t).foldl (invColStep r k) (Function.update (fun i => r i k) k (1 / r k k))) k = fin (1 / R k k) ∧
      ∀ i, i < k → ((List.range t).foldl (invColStep r k) (Function.update (fun i => r i k) k (1 / r k k))) i =
        if i < t then fin (-(1 / R k k) * ∑ j ∈ Ico i t, T i j * R j k) else fin (R i k) by
    obtain ⟨h1, h2⟩ := H k le_rfl
    exact ⟨h1, fun i hi => by unfold invCol; rw [h2 i hi, if_pos hi]⟩
  intro t
  induction t with
  | zero =>
    refine fun _ => ⟨?_, fun i hi => ?_⟩
    · simp only [List.range_zero, List.foldl_nil]
      rw [Function.update_self, hR k le_rfl, one_def, fin_div_of_ne h0]
    · simp only [List.range_zero, List.foldl_nil]
      rw [Function.update_of_ne (by omega), if_neg (Nat.not_lt_zero i)]
      exact hR i (by omega)
  | succ t ih =>
    intro ht
    obtain ⟨h1, h2⟩ := ih (by omega)
    rw [List.range_succ, List.foldl_append, List.foldl_cons, List.foldl_nil]
    generalize (List.range t).foldl (invColStep r k) (Function.update (fun i => r i k) k (1 / r k k)) = c at h1 h2
    have hct : c t = fin (R t k) := by rw [h2 t (by omega), if_neg (lt_irrefl t)]
    unfold invColStep
    rw [h1, hct, fin_mul, fin_neg]
    refine ⟨?_, fun i hi => ?_⟩
    · rw [if_neg (by omega), Function.update_of_ne (by omega), h1]
    · by_cases hit : i ≤ t
      · rw [if_pos hit, if_pos (by omega), hT i t hit (by omega), fin_mul, Finset.sum_Ico_succ_top hit]
        by_cases e : i = t
        · rw [e, Function.update_self, zero_def, fin_add, Finset.Ico_self, Finset.sum_empty]
          congr 1
          ring
        · rw [Function.update_of_ne e, h2 i hi, if_pos (by omega), fin_add]
          congr 1
          ring
      · rw [if_neg hit, if_neg (by omega), Function.update_of_ne (by omega), h2 i hi, if_neg (by omega)]

/-- What the array holds when the first `k` columns are inverted. -/
structure InvSt (n k : ℕ) (R T : ℕ → ℕ → ℝ) (r : Arr2 XR) : Prop where
  done : ∀ i j, i ≤ j → j < k → r i j = fin (T i j)
  rest : ∀ i j, i ≤ j → k ≤ j → j < n → r i j = fin (R i j)
  inv : ∀ i j, i ≤ j → j < k → ∑ s ∈ Ico i (j + 1), T i s * R s j = if i = j then 1 else 0

/-- The first loop. -/
theorem invLoop_fin {n : ℕ} {R : ℕ → ℕ → ℝ} {tolr : ℝ} (ht : 0 ≤ tolr) : ∀ (left k : ℕ) (r : Arr2 XR) (T : ℕ → ℕ → ℝ), k + left = n → InvSt n k R T r →
    ∃ T', k ≤ (invLoop (fin tolr) left k r).2 ∧ (invLoop (fin tolr) left k r).2 ≤ n ∧
      InvSt n (invLoop (fin tolr) left k r).2 R T' (invLoop (fin tolr) left k r).1 ∧
      (∀ j, k ≤ j → j < (invLoop (fin tolr) left k r).2 → tolr < |R j j|) ∧
      ((invLoop (fin tolr) left k r).2 < n → |R (invLoop (fin tolr) left k r).2 (invLoop (fin tolr) left k r).2| ≤ tolr) := by
  intro left
  induction left with
  | zero =>
    intro k r T hk h
    unfold invLoop
    exact ⟨T, le_rfl, by simp only; omega, h, fun j h1 h2 => absurd h2 (by simp only; omega), fun h1 => absurd h1 (by simp only; omega)⟩
  | succ left ih =>
    intro k r T hk h
    have hkk := h.rest k k le_rfl le_rfl (by omega)
    unfold invLoop
    rw [hkk, fabs_fin, fle_fin]
    by_cases hle : |R k k| ≤ tolr
    · rw [if_pos (by simpa using hle)]
      exact ⟨T, le_rfl, by simp only; omega, h, fun j h1 h2 => absurd h2 (by simp only; omega), fun _ => hle⟩
    · rw [if_neg (by simpa using hle)]
      simp only
      have h0 : R k k ≠ 0 := fun e => hle (by rw [e, abs_zero]; exact ht)
      obtain ⟨hc1, hc2⟩ := invCol_fin h.done (fun i hi => h.rest i k hi le_rfl (by omega)) h0
      obtain ⟨T', g1, g2, g3, g4, g5⟩ := ih (k + 1) (fun i j => if j = k then invCol r k i else r i j)
        (fun i j => if j = k then (if i = k then 1 / R k k else -(1 / R k k) * ∑ s ∈ Ico i k, T i s * R s k) else T i j) (by omega) (by
          refine ⟨fun i j hij hj => ?_, fun i j hij hj hjn => ?_, fun i j hij hj => ?_⟩
          · by_cases e : j = k
            · rw [if_pos e, if_pos e]
              by_cases e2 : i = k
              · rw [if_pos e2, e2, hc1]
              · rw [if_neg e2, hc2 i (by omega)]
            · rw [if_neg e, if_neg e, h.done i j hij (by omega)]
          · rw [if_neg (by omega), h.rest i j hij (by omega) hjn]
          · rw [Finset.sum_Ico_succ_top hij]
            by_cases e : j = k
            · rw [if_pos e, e]
              have e3 : ∀ s ∈ Ico i k, (if s = k then (if i = k then 1 / R k k else -(1 / R k k) * ∑ s ∈ Ico i k, T i s * R s k) else T i s) * R s k =
                  T i s * R s k := fun s hs => by rw [if_neg (by have := Finset.mem_Ico.1 hs; omega)]
              rw [Finset.sum_congr rfl e3]
              by_cases e2 : i = k
              · rw [if_pos e2, if_pos e2, e2, Finset.Ico_self, Finset.sum_empty]
                field_simp
                ring
              · rw [if_neg e2, if_neg e2]
                field_simp
                ring
            · rw [if_neg e]
              rw [Finset.sum_congr (g := fun s => T i s * R s j) rfl fun s hs => by rw [if_neg (by have := Finset.mem_Ico.1 hs; omega)],
                ← Finset.sum_Ico_succ_top hij (fun s => T i s * R s j)]
              exact h.inv i j hij (by omega))
      refine ⟨T', by omega, g2, g3, fun j h1 h2 => ?_, g5⟩
      rcases Nat.lt_or_ge j (k + 1) with hj | hj
      · have : j = k := by omega
        rw [this]
        exact not_le.1 hle
      · exact g4 j hj h2

/-- The second loop. -/
theorem gram_fin {p : ℕ} {T : ℕ → ℕ → ℝ} {r : Arr2 XR} (hT : ∀ i j, i ≤ j → j < p → r i j = fin (T i j)) :
    ∀ t, t ≤ p → ∀ i j, i ≤ j → ((j < t → (List.range t).foldl gramStep r i j = fin (∑ s ∈ Ico j t, T i s * T j s)) ∧
      (t ≤ j → (List.range t).foldl gramStep r i j = r i j)) := by
  intro t
  induction t with
  | zero => exact fun _ i j hij => ⟨fun h => absurd h (Nat.not_lt_zero j), fun _ => rfl⟩
  | succ t ih =>
    intro ht i j hij
    have ih' := ih (by omega)
    rw [List.range_succ, List.foldl_append, List.foldl_cons, List.foldl_nil]
    generalize (List.range t).foldl gramStep r = W at ih'
    have hcol : ∀ i, i ≤ t → W i t = fin (T i t) := fun i hi => by rw [(ih' i t hi).2 le_rfl, hT i t hi (by omega)]
    unfold gramStep
    refine ⟨fun hj => ?_, fun hj => ?_⟩
    · by_cases e : j = t
      · rw [if_neg (by omega), if_pos ⟨e, by omega⟩, hcol i (by omega), hcol t le_rfl, fin_mul, e, Finset.sum_Ico_succ_top le_rfl, Finset.Ico_self,
          Finset.sum_empty, zero_add]
      · rw [if_pos ⟨by omega, hij⟩, (ih' i j hij).1 (by omega), hcol j (by omega), hcol i (by omega), fin_mul, fin_add,
          Finset.sum_Ico_succ_top (by omega)]
        congr 1
        ring
    · rw [if_neg (by omega), if_neg (by omega)]
      exact (ih' i j hij).2 (by omega)

/-! ### Scattering -/

/-- What is on and above the diagonal, and where it has been copied to. -/
structure ScSt (n : ℕ) (ip : ℕ → ℕ) (V G : ℕ → ℕ → XR) (t s : ℕ) (r : Arr2 XR) : Prop where
  up : ∀ i j, i ≤ j → j < n → r i j = if j < t ∨ (j = t ∧ i < s) then V i j else G i j
  low : ∀ i j, i < j → j < n → (j < t ∨ (j = t ∧ i < s)) → r (max (ip i) (ip j)) (min (ip i) (ip j)) = V i j

theorem scatterStep_inv {n : ℕ} {ip inv : ℕ → ℕ} (hp : PermOn n ip inv) {V G : ℕ → ℕ → XR} {sing : Bool} {t s : ℕ} {r : Arr2 XR} (ht : t < n) (hs : s ≤ t)
    (hV : ∀ i, i ≤ t → V i t = if sing then 0 else G i t) (h : ScSt n ip V G t s r) : ScSt n ip V G t (s + 1) (scatterStep ip sing t r s) := by
  have hv : (if sing then 0 else r s t) = V s t := by
    rw [h.up s t hs ht, if_neg (show ¬ (t < t ∨ t = t ∧ s < s) by omega), hV s hs]
  have hne : ∀ a b, a < n → b < n → a ≠ b → ip a ≠ ip b := fun a b ha hb hab e => hab (hp.inj a b ha hb e)
  -- the result in one formula
  have key : ∀ a b, scatterStep ip sing t r s a b =
      if s ≠ t ∧ a = max (ip s) (ip t) ∧ b = min (ip s) (ip t) then V s t else if a = s ∧ b = t then V s t else r a b := by
    intro a b
    unfold scatterStep
    simp only [hv]
    by_cases e : s = t
    · rw [if_neg (show ¬ (s ≠ t ∧ a = max (ip s) (ip t) ∧ b = min (ip s) (ip t)) from fun h1 => h1.1 e), e, if_neg (lt_irrefl _), if_neg (lt_irrefl _)]
    · have hh := hne s t (by omega) ht e
      rcases Nat.lt_or_gt_of_ne hh with h1 | h1
      · rw [if_neg (by omega), if_pos h1, max_eq_right h1.le, min_eq_left h1.le]
        simp only [ne_eq, e, not_false_eq_true, true_and]
      · rw [if_pos h1, max_eq_left h1.le, min_eq_right h1.le]
        simp only [ne_eq, e, not_false_eq_true, true_and]
  refine ⟨fun i j hij hj => ?_, fun i j hij hj hd => ?_⟩
  · rw [key]
    rw [if_neg (show ¬ (s ≠ t ∧ i = max (ip s) (ip t) ∧ j = min (ip s) (ip t)) by
      rintro ⟨h1, h2, h3⟩
      have := hne s t (by omega) ht h1
      omega)]
    by_cases e : i = s ∧ j = t
    · rw [if_pos e, if_pos (by omega), e.1, e.2]
    · rw [if_neg e, h.up i j hij hj]
      by_cases h2 : j < t ∨ (j = t ∧ i < s)
      · rw [if_pos h2, if_pos (by omega)]
      · rw [if_neg h2, if_neg (by omega)]
  · rw [key]
    have hh := hne i j (by omega) hj (by omega)
    by_cases e : i = s ∧ j = t
    · obtain ⟨rfl, rfl⟩ := e
      rw [if_pos ⟨by omega, rfl, rfl⟩]
    · rw [if_neg (show ¬ (s ≠ t ∧ max (ip i) (ip j) = max (ip s) (ip t) ∧ min (ip i) (ip j) = min (ip s) (ip t)) by
        rintro ⟨h1, h2, h3⟩
        have h4 : (ip i = ip s ∧ ip j = ip t) ∨ (ip i = ip t ∧ ip j = ip s) := by omega
        rcases h4 with ⟨h5, h6⟩ | ⟨h5, h6⟩
        · exact e ⟨hp.inj _ _ (by omega) (by omega) h5, hp.inj _ _ hj ht h6⟩
        · have h7 := hp.inj _ _ (by omega) ht h5
          have h8 := hp.inj _ _ hj (by omega) h6
          omega)]
      rw [if_neg (by omega)]
      exact h.low i j hij hj (by omega)

theorem scatterCol_inv {n : ℕ} {ip inv : ℕ → ℕ} (hp : PermOn n ip inv) {V G : ℕ → ℕ → XR} {p t : ℕ} {s : Arr2 XR × (ℕ → XR)} (ht : t < n)
    (hV : ∀ i, i ≤ t → V i t = if p ≤ t then 0 else G i t) (h : ScSt n ip V G t 0 s.1) (hw : ∀ j, j < t → s.2 (ip j) = V j j) :
    ScSt n ip V G (t + 1) 0 (scatterCol ip p s t).1 ∧ ∀ j, j < t + 1 → (scatterCol ip p s t).2 (ip j) = V j j := by
  have hin : ∀ k, k ≤ t + 1 → ScSt n ip V G t k ((List.range k).foldl (scatterStep ip (decide (p ≤ t)) t) s.1) := by
    intro k
    induction k with
    | zero => exact fun _ => h
    | succ k ih =>
      intro hk
      rw [List.range_succ, List.foldl_append, List.foldl_cons, List.foldl_nil]
      exact scatterStep_inv hp ht (by omega) (fun i hi => by simpa using hV i hi) (ih (by omega))
  have hlast := hin (t + 1) le_rfl
  have hst : ScSt n ip V G (t + 1) 0 (scatterCol ip p s t).1 := by
    refine ⟨fun i j hij hj => ?_, fun i j hij hj hd => ?_⟩
    · refine (hlast.up i j hij hj).trans ?_
      by_cases h1 : j < t ∨ (j = t ∧ i < t + 1)
      · rw [if_pos h1, if_pos (by omega)]
      · rw [if_neg h1, if_neg (by omega)]
    · exact hlast.low i j hij hj (by omega)
  refine ⟨hst, fun j hj => ?_⟩
  unfold scatterCol
  simp only
  by_cases e : j = t
  · rw [e, Function.update_self, hlast.up t t le_rfl ht, if_pos (by omega)]
  · rw [Function.update_of_ne (fun h1 => e (hp.inj j t (by omega) ht h1))]
    exact hw j (by omega)

theorem sym_inv {wa : ℕ → XR} {r : Arr2 XR} : ∀ t, (∀ a b, b < a → (List.range t).foldl (symStep wa) r a b = r a b) ∧
    (∀ a b, a < b → b < t → (List.range t).foldl (symStep wa) r a b = r b a) ∧ ∀ a, a < t → (List.range t).foldl (symStep wa) r a a = wa a := by
  intro t
  induction t with
  | zero => exact ⟨fun _ _ _ => rfl, fun _ b _ h => absurd h (Nat.not_lt_zero b), fun a h => absurd h (Nat.not_lt_zero a)⟩
  | succ t ih =>
    rw [List.range_succ, List.foldl_append, List.foldl_cons, List.foldl_nil]
    generalize (List.range t).foldl (symStep wa) r = W at ih ⊢
    obtain ⟨h1, h2, h3⟩ := ih
    unfold symStep
    refine ⟨fun a b hab => ?_, fun a b hab hb => ?_, fun a ha => ?_⟩
    · by_cases e : b = t
      · rw [if_pos e, if_neg (by omega), if_neg (by omega), h1 a b hab]
      · rw [if_neg e, h1 a b hab]
    · by_cases e : b = t
      · rw [if_pos e, if_pos (by omega), e]
        exact h1 t a (by omega)
      · rw [if_neg e]
        exact h2 a b hab (by omega)
    · by_cases e : a = t
      · rw [if_pos e, if_neg (by omega), if_pos e, e]
      · rw [if_neg e]
        exact h3 a (by omega)

/-- `mp_covar`: with `p` columns accepted, the elements of the inverse of the leading block of `Rᵀ R`, at the places given by the permutation. -/
theorem covar_fin {n : ℕ} {ip inv : ℕ → ℕ} (hp : PermOn n ip inv) (hn : 0 < n) {R : ℕ → ℕ → ℝ} {r : Arr2 XR} (hr : ∀ i k, i ≤ k → k < n → r i k = fin (R i k))
    {tol : ℝ} (ht : 0 ≤ tol) (wa0 : ℕ → XR) :
    ∃ (p : ℕ) (T : ℕ → ℕ → ℝ), p ≤ n ∧ (∀ j, j < p → tol * |R 0 0| < |R j j|) ∧ (p < n → |R p p| ≤ tol * |R 0 0|) ∧
      (∀ i j, i ≤ j → j < p → ∑ s ∈ Ico i (j + 1), T i s * R s j = if i = j then 1 else 0) ∧
      ∀ i j, i < n → j < n → covar n r ip (fin tol) wa0 (ip i) (ip j) =
        fin (if i < p ∧ j < p then ∑ s ∈ Ico (max i j) p, T i s * T j s else 0) := by
  have htr : 0 ≤ tol * |R 0 0| := mul_nonneg ht (abs_nonneg _)
  have hinit : InvSt n 0 R (fun _ _ => 0) r :=
    ⟨fun i j _ hj => absurd hj (Nat.not_lt_zero j), fun i j hij _ hj => hr i j hij hj, fun i j _ hj => absurd hj (Nat.not_lt_zero j)⟩
  obtain ⟨T, -, h2, h3, h4, h5⟩ := invLoop_fin htr n 0 r _ (by omega) hinit
  have htolr : fin tol * fabs (r 0 0) = fin (tol * |R 0 0|) := by rw [hr 0 0 le_rfl hn, fabs_fin, fin_mul]
  refine ⟨(invLoop (fin (tol * |R 0 0|)) n 0 r).2, T, h2, fun j hj => h4 j (by omega) hj, h5, h3.inv, ?_⟩
  unfold covar
  simp only [htolr]
  generalize invLoop (fin (tol * |R 0 0|)) n 0 r = io at h2 h3 h4 h5
  obtain ⟨a, p⟩ := io
  simp only at h2 h3 h4 h5 ⊢
  have hg := gram_fin h3.done p le_rfl
  generalize (List.range p).foldl gramStep a = g at hg
  set V : ℕ → ℕ → XR := fun i j => if p ≤ j then 0 else g i j with hV
  have hsc : ∀ t, t ≤ n → ScSt n ip V g t 0 ((List.range t).foldl (scatterCol ip p) (g, wa0)).1 ∧
      ∀ j, j < t → ((List.range t).foldl (scatterCol ip p) (g, wa0)).2 (ip j) = V j j := by
    intro t
    induction t with
    | zero =>
      refine fun _ => ⟨⟨fun i j hij hj => ?_, fun i j _ _ h => absurd h (by omega)⟩, fun j hj => absurd hj (Nat.not_lt_zero j)⟩
      rw [if_neg (by omega)]
      rfl
    | succ t ih =>
      intro ht
      obtain ⟨i1, i2⟩ := ih (by omega)
      rw [List.range_succ, List.foldl_append, List.foldl_cons, List.foldl_nil]
      exact scatterCol_inv hp (by omega) (fun i hi => rfl) i1 i2
  obtain ⟨s1, s2⟩ := hsc n le_rfl
  generalize (List.range n).foldl (scatterCol ip p) (g, wa0) = S at s1 s2
  obtain ⟨y1, y2, y3⟩ := sym_inv (wa := S.2) (r := S.1) n
  generalize (List.range n).foldl (symStep S.2) S.1 = C at y1 y2 y3
  have hVv : ∀ i j, i ≤ j → j < n → V i j = fin (if i < p ∧ j < p then ∑ s ∈ Ico (max i j) p, T i s * T j s else 0) := by
    intro i j hij hj
    simp only [hV]
    by_cases e : p ≤ j
    · rw [if_pos e, if_neg (by omega), zero_def]
    · rw [if_neg e, if_pos (by omega), (hg i j hij).1 (by omega), max_eq_right hij]
  have hlt : ∀ i j, i < j → j < n → C (max (ip i) (ip j)) (min (ip i) (ip j)) = V i j ∧ C (min (ip i) (ip j)) (max (ip i) (ip j)) = V i j := by
    intro i j hij hj
    have hne : ip i ≠ ip j := fun e => by have := hp.inj i j (by omega) hj e; omega
    have hl := s1.low i j hij hj (by omega)
    have b1 := hp.lt i (by omega)
    have b2 := hp.lt j hj
    refine ⟨?_, ?_⟩
    · rw [y1 _ _ (by omega), hl]
    · rw [y2 _ _ (by omega) (by omega), hl]
  intro i j hi hj
  rcases Nat.lt_trichotomy i j with h | h | h
  · have hne : ip i ≠ ip j := fun e => by have := hp.inj i j hi hj e; omega
    rw [← hVv i j h.le hj]
    obtain ⟨l1, l2⟩ := hlt i j h hj
    rcases Nat.lt_or_gt_of_ne hne with h1 | h1
    · rw [max_eq_right h1.le, min_eq_left h1.le] at l2
      exact l2
    · rw [max_eq_left h1.le, min_eq_right h1.le] at l1
      exact l1
  · rw [h, y3 _ (hp.lt j hj), s2 j hj, hVv j j le_rfl hj]
  · have hne : ip i ≠ ip j := fun e => by have := hp.inj i j hi hj e; omega
    have hv := hVv j i h.le hi
    obtain ⟨l1, l2⟩ := hlt j i h hi
    have e3 : (if i < p ∧ j < p then ∑ s ∈ Ico (max i j) p, T i s * T j s else 0) = if j < p ∧ i < p then ∑ s ∈ Ico (max j i) p, T j s * T i s else 0 := by
      rw [max_comm i j]
      by_cases e : i < p ∧ j < p
      · rw [if_pos e, if_pos e.symm]
        exact Finset.sum_congr rfl fun s _ => mul_comm _ _
      · rw [if_neg e, if_neg fun e' => e e'.symm]
    rw [e3, ← hv]
    rcases Nat.lt_or_gt_of_ne hne with h1 | h1
    · rw [max_eq_left h1.le, min_eq_right h1.le] at l2
      exact l2
    · rw [max_eq_right h1.le, min_eq_left h1.le] at l1
      exact l1

end

end Imfit
