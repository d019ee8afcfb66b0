import Verif.Lemmas.QRSolv

/-!
# `mp_lmpar`
-/

namespace Imfit
open XR Finset

noncomputable section

/-- `ip` is a permutation of the numbers below `n`, with inverse `inv`. -/
structure PermOn (n : ℕ) (ip inv : ℕ → ℕ) : Prop where
  lt : ∀ j, j < n → ip j < n
  lt' : ∀ l, l < n → inv l < n
  left : ∀ j, j < n → inv (ip j) = j
  right : ∀ l, l < n → ip (inv l) = l

theorem PermOn.inj {n : ℕ} {ip inv : ℕ → ℕ} (h : PermOn n ip inv) : ∀ a b, a < n → b < n → ip a = ip b → a = b := fun a b ha hb e => by
  rw [← h.left a ha, ← h.left b hb, e]

/-- `mp_enorm` of finite numbers. -/
theorem vecNorm_fin {n : ℕ} {w : ℕ → XR} {u : ℕ → ℝ} (hw : ∀ l, l < n → w l = fin (u l)) :
    ∃ r : ℝ, vecNorm n w = fin r ∧ 0 ≤ r ∧ (r = 0 ↔ ∀ l, l < n → u l = 0) ∧ r ^ 2 ≤ ∑ l ∈ range n, u l ^ 2 := by
  obtain ⟨r, h1, h2, h3, -, h5⟩ := C39_bounds_partial ((List.range n).map u)
  refine ⟨r, ?_, h2, ?_, ?_⟩
  · rw [← h1, List.map_map]
    unfold vecNorm
    rw [List.map_congr_left (g := fin ∘ u) fun l hl => hw l (List.mem_range.1 hl)]
  · rw [h5]
    simp only [List.mem_map, List.mem_range, forall_exists_index, and_imp, forall_apply_eq_imp_iff₂]
  · refine h3.trans (le_of_eq ?_)
    unfold Spec.sumSq
    rw [List.map_map, ← sum_list_range]
    rfl

theorem mp_dmax_fin (a b : ℝ) : dmax (fin a) (fin b) = fin (max a b) := by
  unfold dmax
  rw [fle_fin]
  by_cases h : b ≤ a
  · rw [if_pos (by simpa using h), max_eq_left h]
  · rw [if_neg (by simpa using h), max_eq_right (not_le.1 h).le]

theorem mp_dmin_fin (a b : ℝ) : dmin (fin a) (fin b) = fin (min a b) := by
  unfold dmin
  rw [fle_fin]
  by_cases h : a ≤ b
  · rw [if_pos (by simpa using h), min_eq_left h]
  · rw [if_neg (by simpa using h), min_eq_right (not_le.1 h).le]

/-! ### Substitutions -/

/-- The first zero on the diagonal. -/
theorem firstZero_spec {n : ℕ} {d : ℕ → XR} {D : ℕ → ℝ} (hd : ∀ j, j < n → d j = fin (D j)) :
    firstZero n d ≤ n ∧ (∀ j, j < firstZero n d → D j ≠ 0) ∧ (firstZero n d < n → D (firstZero n d) = 0) := by
  unfold firstZero
  cases h : (List.range n).find? fun j => feq (d j) 0 with
  | none =>
    simp only [Option.getD_none]
    refine ⟨le_rfl, fun j hj h0 => ?_, fun hn => absurd hn (lt_irrefl n)⟩
    have := List.find?_eq_none.1 h j (List.mem_range.2 hj)
    rw [hd j hj, zero_def, feq_fin] at this
    simp [h0] at this
  | some k =>
    simp only [Option.getD_some]
    have hk := List.mem_range.1 (List.mem_of_find?_eq_some h)
    have h1 := List.find?_some h
    rw [hd k hk, zero_def, feq_fin] at h1
    refine ⟨hk.le, fun j hj h0 => ?_, fun _ => by simpa using h1⟩
    obtain ⟨-, as, bs, e, hn⟩ := List.find?_eq_some_iff_append.1 h
    have hjm : j ∈ as := by
      have hlen : as.length = k := by
        have h3 := congrArg (fun l => l[as.length]?) e
        simp only [List.getElem?_append_right (le_refl _), Nat.sub_self, List.getElem?_cons_zero] at h3
        have hlt : as.length < n := by
          have := congrArg List.length e
          simp at this
          omega
        rw [List.getElem?_range hlt] at h3
        exact Option.some.inj h3
      have h3 := congrArg (fun l => l[j]?) e
      rw [List.getElem?_append_left (by omega), List.getElem?_range (by omega)] at h3
      exact List.mem_of_getElem? h3.symm
    have := hn j hjm
    rw [hd j (by omega), zero_def, feq_fin] at this
    simp [h0] at this

/-- A triangular system with right-hand side zero. -/
theorem tri_zero {ns : ℕ} {S : ℕ → ℕ → ℝ} {w : ℕ → ℝ} (h0 : ∀ j, j < ns → S j j ≠ 0) (h : ∀ j, j < ns → ∑ b ∈ Ico j ns, S j b * w b = 0) :
    ∀ j, j < ns → w j = 0 := by
  suffices H : ∀ t, t ≤ ns → ∀ j, ns - t ≤ j → j < ns → w j = 0 from fun j hj => H ns le_rfl j (by omega) hj
  intro t
  induction t with
  | zero => exact fun _ j h1 h2 => absurd h2 (by omega)
  | succ t ih =>
    intro ht j h1 h2
    have hlater : ∀ b ∈ Ico (j + 1) ns, S j b * w b = 0 := fun b hb => by
      have := Finset.mem_Ico.1 hb
      rw [ih (by omega) b (by omega) this.2, mul_zero]
    have e := h j h2
    rw [Finset.sum_eq_sum_Ico_succ_bot h2, Finset.sum_eq_zero hlater, add_zero] at e
    exact (mul_eq_zero.1 e).resolve_left (h0 j h2)

/-- The Gauss-Newton back substitution. -/
theorem gn_fin {ns n : ℕ} (hns : ns ≤ n) {R : ℕ → ℕ → ℝ} {c : ℕ → ℝ} {r : Arr2 XR} {w0 : ℕ → XR} (hr : ∀ i k, i ≤ k → k < n → r i k = fin (R i k))
    (h0 : ∀ k, k < ns → R k k ≠ 0) (hw : ∀ k, k < n → w0 k = if ns ≤ k then fin 0 else fin (c k)) :
    ∃ w : ℕ → ℝ, (∀ i, i < n → (List.range ns).foldl (gnStep ns r) w0 i = fin (w i)) ∧ (∀ i, ns ≤ i → w i = 0) ∧
      ∀ j, j < ns → ∑ i ∈ Ico j ns, R j i * w i = c j := by
  suffices H : ∀ t, t ≤ ns → ∃ w : ℕ → ℝ, (∀ i, i < n → (List.range t).foldl (gnStep ns r) w0 i =
      if ns ≤ i then fin 0 else if ns - t ≤ i then fin (w i) else fin (c i - ∑ b ∈ Ico (ns - t) ns, R i b * w b)) ∧
      ∀ j, j < ns → ns - t ≤ j → ∑ i ∈ Ico j ns, R j i * w i = c j by
    obtain ⟨w, h1, h2⟩ := H ns le_rfl
    refine ⟨fun i => if ns ≤ i then 0 else w i, fun i hi => ?_, fun i hi => if_pos hi, fun j hj => ?_⟩
    · rw [h1 i hi]
      simp only
      split
      · rfl
      · rw [if_pos (by omega)]
    · rw [← h2 j hj (by omega)]
      refine Finset.sum_congr rfl fun i hi => ?_
      have := Finset.mem_Ico.1 hi
      simp only
      rw [if_neg (by omega)]
  intro t
  induction t with
  | zero =>
    refine fun _ => ⟨fun _ => 0, fun i hi => ?_, fun j h1 h2 => absurd h1 (by omega)⟩
    simp only [List.range_zero, List.foldl_nil]
    rw [hw i hi]
    split
    · rfl
    · rw [if_neg (by omega)]
      simp
  | succ t ih =>
    intro ht
    obtain ⟨w, h1, h2⟩ := ih (by omega)
    rw [List.range_succ, List.foldl_append, List.foldl_cons, List.foldl_nil]
    generalize (List.range t).foldl (gnStep ns r) w0 = W at h1 ⊢
    obtain ⟨j, hj⟩ : ∃ j, j = ns - t - 1 := ⟨_, rfl⟩
    have hjn : j < ns := by omega
    set v := (c j - ∑ b ∈ Ico (j + 1) ns, R j b * w b) / R j j with hv
    have hjs : ns - t = j + 1 := by omega
    have hjs' : ns - (t + 1) = j := by omega
    have e : ∀ i, ∑ b ∈ Ico (j + 1) ns, R i b * Function.update w j v b = ∑ b ∈ Ico (j + 1) ns, R i b * w b := fun i =>
      Finset.sum_congr rfl fun b hb => by
        have := Finset.mem_Ico.1 hb
        rw [Function.update_of_ne (show b ≠ j by omega)]
    have hWj : W j = fin (c j - ∑ b ∈ Ico (j + 1) ns, R j b * w b) := by
      rw [h1 j (by omega), if_neg (by omega), if_neg (by omega), hjs]
    have hdiv : W j / r j j = fin v := by rw [hWj, hr j j le_rfl (by omega), fin_div_of_ne (h0 j hjn)]
    refine ⟨Function.update w j v, fun i hi => ?_, fun k hk hk2 => ?_⟩
    · unfold gnStep
      rw [← hj, hjs']
      rw [hdiv]
      by_cases e1 : i = j
      · rw [if_pos e1, if_neg (by omega), if_pos (by omega), e1, Function.update_self]
      · rw [if_neg e1]
        by_cases e2 : i < j
        · rw [if_pos e2, if_neg (by omega), if_neg (by omega), h1 i hi, if_neg (by omega), if_neg (by omega), hr i j e2.le (by omega), fin_mul,
            fin_sub, Finset.sum_eq_sum_Ico_succ_bot hjn, Function.update_self, e, hjs]
          congr 1
          ring
        · rw [if_neg e2, h1 i hi]
          split
          · rfl
          · rw [if_pos (by omega), if_pos (by omega), Function.update_of_ne e1]
    · by_cases hkj : k = j
      · rw [hkj, Finset.sum_eq_sum_Ico_succ_bot hjn, Function.update_self, e, hv, mul_div_cancel₀ _ (h0 j hjn)]
        ring
      · rw [← h2 k hk (by omega)]
        refine Finset.sum_congr rfl fun i hi => ?_
        have := Finset.mem_Ico.1 hi
        rw [Function.update_of_ne (show i ≠ j by omega)]

/-- Forward substitution with `R` transposed: finite, and not zero for a right-hand side that is not zero. -/
theorem fwd_fin {n : ℕ} {R : ℕ → ℕ → ℝ} {y : ℕ → ℝ} {r : Arr2 XR} {w0 : ℕ → XR} (hr : ∀ i k, i ≤ k → k < n → r i k = fin (R i k))
    (h0 : ∀ k, k < n → R k k ≠ 0) (hw : ∀ k, k < n → w0 k = fin (y k)) :
    ∃ u : ℕ → ℝ, (∀ i, i < n → (List.range n).foldl (fwdStep r) w0 i = fin (u i)) ∧ ∀ j, j < n → ∑ i ∈ range (j + 1), R i j * u i = y j := by
  suffices H : ∀ t, t ≤ n → ∃ u : ℕ → ℝ, (∀ i, i < n → (List.range t).foldl (fwdStep r) w0 i = if i < t then fin (u i) else fin (y i)) ∧
      ∀ j, j < t → ∑ i ∈ range (j + 1), R i j * u i = y j by
    obtain ⟨u, h1, h2⟩ := H n le_rfl
    exact ⟨u, fun i hi => by rw [h1 i hi, if_pos hi], h2⟩
  intro t
  induction t with
  | zero => exact fun _ => ⟨y, fun i hi => by rw [if_neg (Nat.not_lt_zero i)]; exact hw i hi, fun j hj => absurd hj (Nat.not_lt_zero j)⟩
  | succ t ih =>
    intro ht
    obtain ⟨u, h1, h2⟩ := ih (by omega)
    rw [List.range_succ, List.foldl_append, List.foldl_cons, List.foldl_nil]
    generalize (List.range t).foldl (fwdStep r) w0 = W at h1 ⊢
    set v := (y t - ∑ i ∈ Ico 0 t, R i t * u i) / R t t with hv
    refine ⟨Function.update u t v, fun i hi => ?_, fun j hj => ?_⟩
    · unfold fwdStep
      rw [sumFrom_fin 0 t _ (fun i => R i t * u i) fun i _ g2 => by rw [hr i t g2.le (by omega), h1 i (by omega), if_pos g2, fin_mul]]
      rw [Function.update_apply]
      by_cases e : i = t
      · rw [if_pos e, if_pos (by omega), e, Function.update_self, h1 t (by omega), if_neg (by omega), hr t t le_rfl (by omega), fin_sub,
          fin_div_of_ne (h0 t (by omega))]
      · rw [if_neg e, h1 i hi, Function.update_of_ne e]
        by_cases e2 : i < t
        · rw [if_pos e2, if_pos (by omega)]
        · rw [if_neg e2, if_neg (by omega)]
    · by_cases e : j = t
      · rw [e, Finset.sum_range_succ, Function.update_self, hv, mul_div_cancel₀ _ (h0 t (by omega)), ← Finset.range_eq_Ico]
        rw [Finset.sum_congr (g := fun i => R i t * u i) rfl fun i hi => by
          rw [Function.update_of_ne (Nat.ne_of_lt (Finset.mem_range.1 hi))]]
        ring
      · rw [← h2 j (by omega)]
        refine Finset.sum_congr rfl fun i hi => ?_
        have := Finset.mem_range.1 hi
        rw [Function.update_of_ne (by omega)]

/-- Forward substitution with `S` transposed. -/
theorem newton_fin {n : ℕ} {S : ℕ → ℕ → ℝ} {y : ℕ → ℝ} {r : Arr2 XR} {sdiag w0 : ℕ → XR} (hr : ∀ i k, k < i → i < n → r i k = fin (S k i))
    (hs : ∀ k, k < n → sdiag k = fin (S k k)) (h0 : ∀ k, k < n → S k k ≠ 0) (hw : ∀ k, k < n → w0 k = fin (y k)) :
    ∃ u : ℕ → ℝ, (∀ i, i < n → (List.range n).foldl (newtonStep r sdiag) w0 i = fin (u i)) ∧ ∀ j, j < n → ∑ i ∈ range (j + 1), S i j * u i = y j := by
  suffices H : ∀ t, t ≤ n → ∃ u : ℕ → ℝ, (∀ i, i < n → (List.range t).foldl (newtonStep r sdiag) w0 i =
      if i < t then fin (u i) else fin (y i - ∑ b ∈ range t, S b i * u b)) ∧
      ∀ j, j < t → ∑ i ∈ range (j + 1), S i j * u i = y j by
    obtain ⟨u, h1, h2⟩ := H n le_rfl
    exact ⟨u, fun i hi => by rw [h1 i hi, if_pos hi], h2⟩
  intro t
  induction t with
  | zero =>
    refine fun _ => ⟨y, fun i hi => ?_, fun j hj => absurd hj (Nat.not_lt_zero j)⟩
    rw [if_neg (Nat.not_lt_zero i)]
    simp [hw i hi]
  | succ t ih =>
    intro ht
    obtain ⟨u, h1, h2⟩ := ih (by omega)
    rw [List.range_succ, List.foldl_append, List.foldl_cons, List.foldl_nil]
    generalize (List.range t).foldl (newtonStep r sdiag) w0 = W at h1 ⊢
    set v := (y t - ∑ b ∈ range t, S b t * u b) / S t t with hv
    have hdiv : W t / sdiag t = fin v := by
      rw [h1 t (by omega), if_neg (by omega), hs t (by omega), fin_div_of_ne (h0 t (by omega))]
    have e : ∀ i s, s ≤ t → ∑ b ∈ range s, S b i * Function.update u t v b = ∑ b ∈ range s, S b i * u b := fun i s hs =>
      Finset.sum_congr rfl fun b hb => by
        have := Finset.mem_range.1 hb
        rw [Function.update_of_ne (show b ≠ t by omega)]
    refine ⟨Function.update u t v, fun i hi => ?_, fun j hj => ?_⟩
    · unfold newtonStep
      rw [hdiv]
      by_cases e1 : i = t
      · rw [if_pos e1, if_pos (by omega), e1, Function.update_self]
      · rw [if_neg e1]
        by_cases e2 : t < i
        · rw [if_pos e2, if_neg (by omega), h1 i hi, if_neg (by omega), hr i t e2 hi, fin_mul, fin_sub, Finset.sum_range_succ, Function.update_self,
            e i t le_rfl]
          congr 1
          ring
        · rw [if_neg e2, h1 i hi, if_pos (by omega), if_pos (by omega), Function.update_of_ne e1]
    · by_cases e1 : j = t
      · rw [e1, Finset.sum_range_succ, Function.update_self, e t t le_rfl, hv, mul_div_cancel₀ _ (h0 t (by omega))]
        ring
      · rw [e j (j + 1) (by omega)]
        exact h2 j (by omega)

/-! ### The parameter -/

/-- The arguments of `mp_lmpar`. -/
structure LmCtx (n : ℕ) (ip inv : ℕ → ℕ) (R : ℕ → ℕ → ℝ) (c dd : ℕ → ℝ) (delta : ℝ) (d qtb : ℕ → XR) : Prop where
  perm : PermOn n ip inv
  tri : ∀ k a, a < k → R k a = 0
  rank : ∀ k, k < n → R k k = 0 → ∀ s, k ≤ s → s < n → ∀ b, b < n → R s b = 0
  eq : ∀ j, j < n → qtb j = fin (c j)
  ed : ∀ l, l < n → d l = fin (dd l)
  dpos : ∀ l, l < n → 0 < dd l
  delta_pos : 0 < delta

/-- The damped normal equations, with the columns in the order of the factorisation. -/
def Solves (n : ℕ) (ip : ℕ → ℕ) (R : ℕ → ℕ → ℝ) (c dd : ℕ → ℝ) (lam : ℝ) (w : ℕ → ℝ) : Prop :=
  ∀ a, a < n → ∑ b ∈ range n, (∑ r ∈ range n, R r a * R r b) * w b + lam * dd (ip a) ^ 2 * w a = ∑ r ∈ range n, R r a * c r

/-- The gradient is zero. -/
def GradZero (n : ℕ) (R : ℕ → ℕ → ℝ) (c : ℕ → ℝ) : Prop := ∀ a, a < n → ∑ r ∈ range n, R r a * c r = 0

variable {n : ℕ} {ip inv : ℕ → ℕ} {R : ℕ → ℕ → ℝ} {c dd : ℕ → ℝ} {delta : ℝ} {d qtb : ℕ → XR}

theorem LmCtx.gn (h : LmCtx n ip inv R c dd delta d qtb) {r : Arr2 XR} (hr : ∀ i k, i ≤ k → k < n → r i k = fin (R i k)) (x : ℕ → XR) :
    ∃ w : ℕ → ℝ, (∀ j, j < n → gaussNewton n r ip qtb x (ip j) = fin (w j)) ∧ Solves n ip R c dd 0 w ∧
      (GradZero n R c → ∀ j, j < n → w j = 0) := by
  obtain ⟨hns, hnz, hz⟩ := firstZero_spec (n := n) (d := fun j => r j j) (D := fun j => R j j) fun j hj => hr j j le_rfl hj
  unfold gaussNewton
  generalize firstZero n (fun j => r j j) = ns at hns hnz hz
  obtain ⟨w, h1, h2, h3⟩ := gn_fin (w0 := fun j => if ns ≤ j then 0 else qtb j) hns hr hnz (fun k hk => by
    rw [zero_def]
    split
    · rfl
    · exact h.eq k hk)
  have hrow : ∀ s, ns ≤ s → s < n → ∀ b, b < n → R s b = 0 := fun s h4 h5 b hb =>
    h.rank ns (by omega) (hz (by omega)) s h4 h5 b hb
  have hRw : ∀ s, s < ns → ∑ b ∈ range n, R s b * w b = c s := by
    intro s hs
    rw [sum_tri (by omega) (h.tri s), ← h3 s hs]
    rw [← Finset.sum_Ico_consecutive _ hs.le hns]
    rw [Finset.sum_eq_zero (s := Ico ns n) fun b hb => by rw [h2 b (Finset.mem_Ico.1 hb).1, mul_zero], add_zero]
  have hsolve : ∀ a, a < n → ∑ b ∈ range n, (∑ r ∈ range n, R r a * R r b) * w b = ∑ r ∈ range n, R r a * c r := by
    intro a ha
    have e3 : ∀ b ∈ range n, (∑ r ∈ range n, R r a * R r b) * w b = ∑ r ∈ range n, R r a * (R r b * w b) := by
      intro b _
      rw [Finset.sum_mul]
      exact Finset.sum_congr rfl fun r _ => by ring
    rw [Finset.sum_congr rfl e3, Finset.sum_comm]
    refine Finset.sum_congr rfl fun s hs => ?_
    have hsn := Finset.mem_range.1 hs
    rw [← Finset.mul_sum]
    rcases Nat.lt_or_ge s ns with h4 | h4
    · rw [hRw s h4]
    · rw [hrow s h4 hsn a ha, zero_mul, zero_mul]
  refine ⟨w, fun j hj => by rw [permute_apply h.perm.inj _ _ hj, h1 j hj], fun a ha => by rw [hsolve a ha]; ring, fun hg j hj => ?_⟩
  -- the gradient is zero: so is R w
  have hq : ∑ s ∈ range n, (∑ b ∈ range n, R s b * w b) ^ 2 = 0 := by
    have e : ∑ a ∈ range n, w a * ∑ b ∈ range n, (∑ r ∈ range n, R r a * R r b) * w b = 0 :=
      Finset.sum_eq_zero fun a ha => by rw [hsolve a (Finset.mem_range.1 ha), hg a (Finset.mem_range.1 ha), mul_zero]
    rw [← e]
    have e1 : ∀ s ∈ range n, (∑ b ∈ range n, R s b * w b) ^ 2 = ∑ a ∈ range n, ∑ b ∈ range n, R s a * w a * (R s b * w b) := by
      intro s _
      rw [sq, Finset.sum_mul_sum]
    rw [Finset.sum_congr rfl e1, Finset.sum_comm]
    refine Finset.sum_congr rfl fun a _ => ?_
    rw [Finset.sum_comm, Finset.mul_sum]
    refine Finset.sum_congr rfl fun b _ => ?_
    rw [Finset.sum_mul, Finset.mul_sum]
    exact Finset.sum_congr rfl fun s _ => by ring
  rw [Finset.sum_eq_zero_iff_of_nonneg fun s _ => sq_nonneg _] at hq
  rcases Nat.lt_or_ge j ns with h4 | h4
  · refine tri_zero hnz (fun k hk => ?_) j h4
    rw [h3 k hk, ← hRw k hk]
    exact pow_eq_zero_iff two_ne_zero |>.1 (hq k (Finset.mem_range.2 (by omega)))
  · exact h2 j h4

/-- The norm of the scaled step. -/
theorem LmCtx.norm (h : LmCtx n ip inv R c dd delta d qtb) {x : ℕ → XR} {w : ℕ → ℝ} (hx : ∀ j, j < n → x (ip j) = fin (w j)) :
    (∀ l, l < n → d l * x l = fin (dd l * w (inv l))) ∧
    ∃ dx : ℝ, vecNorm n (fun l => d l * x l) = fin dx ∧ 0 ≤ dx ∧ (dx = 0 ↔ ∀ j, j < n → w j = 0) := by
  have hx' : ∀ l, l < n → d l * x l = fin (dd l * w (inv l)) := fun l hl => by
    have := hx (inv l) (h.perm.lt' l hl)
    rw [h.perm.right l hl] at this
    rw [this, h.ed l hl, fin_mul]
  refine ⟨hx', ?_⟩
  obtain ⟨dx, h1, h2, h3, -⟩ := vecNorm_fin hx'
  refine ⟨dx, h1, h2, h3.trans ⟨fun h4 j hj => ?_, fun h4 l hl => ?_⟩⟩
  · have := h4 (ip j) (h.perm.lt j hj)
    rw [h.perm.left j hj] at this
    exact (mul_eq_zero.1 this).resolve_left (h.dpos _ (h.perm.lt j hj)).ne'
  · rw [h4 (inv l) (h.perm.lt' l hl), mul_zero]

/-- The direction whose norm gives the Newton correction. -/
theorem LmCtx.scaled (h : LmCtx n ip inv R c dd delta d qtb) {wa2 : ℕ → XR} {w : ℕ → ℝ} {dx : ℝ}
    (hx : ∀ l, l < n → wa2 l = fin (dd l * w (inv l))) (hdx : dx ≠ 0) :
    ∀ j, j < n → scaledDir ip d wa2 (fin dx) j = fin (dd (ip j) * (dd (ip j) * w j / dx)) := fun j hj => by
  unfold scaledDir
  have hl := h.perm.lt j hj
  rw [h.ed _ hl, hx _ hl, h.perm.left j hj, fin_div_of_ne hdx, fin_mul]

/-- The quotient in `parl` and `parc`. -/
theorem LmCtx.quot (h : LmCtx n ip inv R c dd delta d qtb) {v : ℕ → XR} {u y : ℕ → ℝ} {T : ℕ → ℕ → ℝ} {w : ℕ → ℝ} {dx fp : ℝ}
    (hv : ∀ i, i < n → v i = fin (u i)) (hu : ∀ j, j < n → ∑ i ∈ range (j + 1), T i j * u i = y j)
    (hy : ∀ j, y j = dd (ip j) * (dd (ip j) * w j / dx)) (hdx : dx ≠ 0) (hne : ¬ ∀ j, j < n → w j = 0) :
    ∃ t : ℝ, 0 < t ∧ vecNorm n v = fin t ∧ ((fin fp / fin delta) / vecNorm n v) / vecNorm n v = fin (fp / delta / t / t) := by
  obtain ⟨t, h1, h2, h3, -⟩ := vecNorm_fin hv
  have ht : t ≠ 0 := by
    intro h0
    refine hne fun j hj => ?_
    have hz := h3.1 h0
    have := hu j hj
    rw [Finset.sum_eq_zero fun i hi => by rw [hz i (by have := Finset.mem_range.1 hi; omega), mul_zero], hy] at this
    have hd := (h.dpos _ (h.perm.lt j hj)).ne'
    have h4 := (mul_eq_zero.1 this.symm).resolve_left hd
    have h5 := (div_eq_zero_iff.1 h4).resolve_right hdx
    exact (mul_eq_zero.1 h5).resolve_left hd
  refine ⟨t, lt_of_le_of_ne h2 (Ne.symm ht), h1, ?_⟩
  rw [h1, fin_div_of_ne h.delta_pos.ne', fin_div_of_ne ht, fin_div_of_ne ht]

/-- `gnorm` -/
theorem LmCtx.gnorm (h : LmCtx n ip inv R c dd delta d qtb) {r : Arr2 XR} (hr : ∀ i k, i ≤ k → k < n → r i k = fin (R i k)) :
    ∃ g : ℝ, lmGnorm n r ip d qtb = fin g ∧ 0 ≤ g ∧ (g = 0 ↔ GradZero n R c) := by
  have hv : ∀ j, j < n → sumFrom 0 (j + 1) (fun i => r i j * qtb i) / d (ip j) = fin ((∑ r ∈ range n, R r j * c r) / dd (ip j)) := by
    intro j hj
    have hl := h.perm.lt j hj
    rw [sumFrom_fin 0 (j + 1) _ (fun i => R i j * c i) fun i _ g2 => by rw [hr i j (by omega) hj, h.eq i (by omega), fin_mul], h.ed _ hl,
      fin_div_of_ne (h.dpos _ hl).ne']
    congr 2
    rw [← Finset.range_eq_Ico, range_split (show j + 1 ≤ n by omega), Finset.sum_eq_zero (s := Ico (j + 1) n), add_zero]
    intro i hi
    rw [h.tri i j (by have := Finset.mem_Ico.1 hi; omega), zero_mul]
  obtain ⟨g, h1, h2, h3, -⟩ := vecNorm_fin hv
  refine ⟨g, h1, h2, h3.trans ⟨fun h4 a ha => ?_, fun h4 a ha => ?_⟩⟩
  · exact (div_eq_zero_iff.1 (h4 a ha)).resolve_right (h.dpos _ (h.perm.lt a ha)).ne'
  · rw [h4 a ha, zero_div]

/-- The iteration. The result fulfils the damped normal equations for a positive parameter. -/
theorem LmCtx.loop (h : LmCtx n ip inv R c dd delta d qtb) (hg : ¬ GradZero n R c) (left : ℕ) :
    ∀ (r : Arr2 XR) (x sdiag : ℕ → XR) (par parl paru fp : ℝ), (∀ i k, i ≤ k → k < n → r i k = fin (R i k)) → 0 ≤ par → 0 ≤ parl → 0 < paru →
    ∃ (p : ℝ) (w : ℕ → ℝ), 0 < p ∧ (lmparLoop n ip d qtb (fin delta) (left + 1) r x sdiag (fin par) (fin parl) (fin paru) (fin fp)).1 = fin p ∧
      (∀ j, j < n → (lmparLoop n ip d qtb (fin delta) (left + 1) r x sdiag (fin par) (fin parl) (fin paru) (fin fp)).2.1 (ip j) = fin (w j)) ∧
      Solves n ip R c dd p w ∧
      (∀ i k, i ≤ k → k < n → (lmparLoop n ip d qtb (fin delta) (left + 1) r x sdiag (fin par) (fin parl) (fin paru) (fin fp)).2.2 i k = fin (R i k)) := by
  induction left with
  | zero => ?_
  | succ left ih => ?_
  all_goals
    intro r x sdiag par parl paru fp hr hp hl hu
    obtain ⟨p, hp0, hpe⟩ : ∃ p : ℝ, 0 < p ∧
        (if feq (fin par) 0 then dmax (lit MPDWARF) (lit (1 / 1000) * fin paru) else fin par) = fin p := by
      rw [zero_def, feq_fin]
      by_cases h0 : par = 0
      · rw [if_pos (by simpa using h0), lit_def, lit_def, fin_mul, mp_dmax_fin]
        refine ⟨_, lt_of_lt_of_le ?_ (le_max_left _ _), rfl⟩
        unfold MPDWARF
        norm_num
      · rw [if_neg (by simpa using h0)]
        exact ⟨par, lt_of_le_of_ne hp (Ne.symm h0), rfl⟩
    unfold lmparLoop
    simp only [hpe]
    have hD : ∀ j, j < n → fsqrt (fin p) * d (ip j) = fin (Real.sqrt p * dd (ip j)) := fun j hj => by
      rw [fsqrt_fin_of_nonneg hp0.le, h.ed _ (h.perm.lt j hj), fin_mul]
    obtain ⟨S, w, hs⟩ := qrsolv_fin (n := n) (ip := ip) (R := R) (c := c) (D := fun j => Real.sqrt p * dd (ip j)) (r := r)
      (diag := fun j => fsqrt (fin p) * d j) (qtb := qtb) (x := x) (sdiag := sdiag) h.perm.inj hr h.tri hD
      (fun j hj => mul_ne_zero (Real.sqrt_pos.2 hp0).ne' (h.dpos _ (h.perm.lt j hj)).ne') h.eq
    generalize qrsolv n r ip (fun j => fsqrt (fin p) * d j) qtb x sdiag = out at hs ⊢
    have hsol : Solves n ip R c dd p w := fun a ha => by
      have := hs.normal a ha
      rw [mul_pow, Real.sq_sqrt hp0.le] at this
      exact this
    have hne : ¬ ∀ j, j < n → w j = 0 := by
      intro hz
      refine hg fun a ha => ?_
      have := hsol a ha
      rw [hz a ha, Finset.sum_eq_zero fun b hb => by rw [hz b (Finset.mem_range.1 hb), mul_zero]] at this
      rw [← this]
      ring
    obtain ⟨hx', dx, hdx, hdx0, hdxz⟩ := h.norm hs.x
    have hdxne : dx ≠ 0 := fun e => hne (hdxz.1 e)
  · simp only [beq_self_eq_true, Bool.or_true, if_true]
    exact ⟨p, w, hp0, rfl, hs.x, hsol, hs.up⟩
  · split
    · exact ⟨p, w, hp0, rfl, hs.x, hsol, hs.up⟩
    · simp only [hdx, fin_sub]
      obtain ⟨u, hu1, hu2⟩ := newton_fin (y := fun j => dd (ip j) * (dd (ip j) * w j / dx)) hs.low hs.diag hs.nz
        (h.scaled (wa2 := fun j => d j * out.2.2 j) hx' hdxne)
      obtain ⟨t, ht, -, hq⟩ := h.quot (fp := dx - delta) hu1 hu2 (fun _ => rfl) hdxne hne
      rw [hq, zero_def, flt_fin, flt_fin, mp_dmax_fin, mp_dmin_fin, fin_add]
      obtain ⟨parl', hpl0, hpl⟩ : ∃ parl' : ℝ, 0 ≤ parl' ∧ (if decide (0 < dx - delta) = true then fin (max parl p) else fin parl) = fin parl' := by
        split
        · exact ⟨_, le_max_of_le_left hl, rfl⟩
        · exact ⟨_, hl, rfl⟩
      obtain ⟨paru', hpu0, hpu⟩ : ∃ paru' : ℝ, 0 < paru' ∧ (if decide (dx - delta < 0) = true then fin (min paru p) else fin paru) = fin paru' := by
        split
        · exact ⟨_, lt_min hu hp0, rfl⟩
        · exact ⟨_, hu, rfl⟩
      rw [hpl, hpu, mp_dmax_fin]
      exact ih out.1 out.2.2 out.2.1 _ parl' paru' _ hs.up (le_max_of_le_left hpl0) hpl0 hpu0

/-- `mp_lmpar`. -/
theorem LmCtx.lmpar (h : LmCtx n ip inv R c dd delta d qtb) {r : Arr2 XR} (hr : ∀ i k, i ≤ k → k < n → r i k = fin (R i k)) {par0 : ℝ} (hp : 0 ≤ par0)
    (x0 sdiag0 : ℕ → XR) :
    ∃ (p : ℝ) (w : ℕ → ℝ), 0 ≤ p ∧ (lmpar n r ip d qtb (fin delta) (fin par0) x0 sdiag0).1 = fin p ∧
      (∀ j, j < n → (lmpar n r ip d qtb (fin delta) (fin par0) x0 sdiag0).2.1 (ip j) = fin (w j)) ∧
      Solves n ip R c dd p w ∧
      (∀ i k, i ≤ k → k < n → (lmpar n r ip d qtb (fin delta) (fin par0) x0 sdiag0).2.2 i k = fin (R i k)) ∧
      (p = 0 → ∃ dx : ℝ, vecNorm n (fun l => d l * (lmpar n r ip d qtb (fin delta) (fin par0) x0 sdiag0).2.1 l) = fin dx ∧ dx ≤ 11 / 10 * delta) := by
  obtain ⟨w, hw, hsol, hgz⟩ := h.gn hr x0
  unfold Imfit.lmpar
  simp only
  generalize gaussNewton n r ip qtb x0 = x at hw
  obtain ⟨hx', dx, hdx, hdx0, hdxz⟩ := h.norm hw
  simp only [hdx, fin_sub, lit_def, fin_mul, fle_fin]
  by_cases hacc : dx - delta ≤ ((1 / 10 : ℚ) : ℝ) * delta
  · rw [if_pos (by simpa using hacc)]
    refine ⟨0, w, le_rfl, rfl, hw, hsol, hr, fun _ => ⟨dx, hdx, ?_⟩⟩
    push_cast at hacc
    linarith
  · rw [if_neg (by simpa using hacc)]
    have hacc' : delta < dx := by
      push Not at hacc
      push_cast at hacc
      linarith [h.delta_pos]
    have hdxne : dx ≠ 0 := (h.delta_pos.trans hacc').ne'
    have hne : ¬ ∀ j, j < n → w j = 0 := fun e => hdxne (hdxz.2 e)
    have hg : ¬ GradZero n R c := fun e => hne (hgz e)
    obtain ⟨g, hg1, hg2, hg3⟩ := h.gnorm hr
    have hgpos : 0 < g := lt_of_le_of_ne hg2 fun e => hg (hg3.1 e.symm)
    obtain ⟨parl, hl0, hl⟩ : ∃ parl : ℝ, 0 ≤ parl ∧ lmParl n r ip d (fun j => d j * x j) (fin dx) (fin (dx - delta)) (fin delta) = fin parl := by
      unfold lmParl
      obtain ⟨hns, hnz, -⟩ := firstZero_spec (n := n) (d := fun j => r j j) (D := fun j => R j j) fun j hj => hr j j le_rfl hj
      split
      · exact ⟨0, le_rfl, zero_def⟩
      · have hall : ∀ k, k < n → R k k ≠ 0 := fun k hk => hnz k (by omega)
        obtain ⟨u, hu1, hu2⟩ := fwd_fin (y := fun j => dd (ip j) * (dd (ip j) * w j / dx)) hr hall (h.scaled hx' hdxne)
        obtain ⟨t, ht, -, hq⟩ := h.quot (fp := dx - delta) hu1 hu2 (fun _ => rfl) hdxne hne
        simp only
        rw [hq]
        have : 0 ≤ dx - delta := by linarith
        exact ⟨_, div_nonneg (div_nonneg (div_nonneg this h.delta_pos.le) ht.le) ht.le, rfl⟩
    rw [hl, hg1, fin_div_of_ne h.delta_pos.ne', zero_def, feq_fin]
    have hgd : ¬ (decide (g / delta = 0) = true) := by simpa using (div_pos hgpos h.delta_pos).ne'
    rw [if_neg hgd, mp_dmax_fin, mp_dmin_fin, feq_fin, fin_div_of_ne hdxne]
    obtain ⟨par, hpar0, hpar⟩ : ∃ par : ℝ, 0 ≤ par ∧
        (if decide (min (max par0 parl) (g / delta) = 0) = true then fin (g / dx) else fin (min (max par0 parl) (g / delta))) = fin par := by
      split
      · exact ⟨_, div_nonneg hg2 hdx0, rfl⟩
      · exact ⟨_, le_min (le_max_of_le_left hp) (div_nonneg hg2 h.delta_pos.le), rfl⟩
    rw [hpar]
    obtain ⟨p, w', hp0, h1, h2, h3, h4⟩ := h.loop hg 9 r x sdiag0 par parl (g / delta) (dx - delta) hr hpar0 hl0 (div_pos hgpos h.delta_pos)
    exact ⟨p, w', hp0.le, h1, h2, h3, h4, fun e => absurd e hp0.ne'⟩

end

end Imfit
