import Verif.Lemmas.Householder
import Mathlib.GroupTheory.Perm.Basic
import Mathlib.Tactic.Push

/-!
# The loop of `mp_qrfac`
-/

namespace Imfit
open XR Finset

noncomputable section

/-- State of the factorisation of `A` after `t` turns. From column `lo` on, `rd` holds the norms of the remaining columns. -/
structure QrInv (m n : ℕ) (A : ℕ → ℕ → ℝ) (t lo : ℕ) (st : QrSt XR) (B : ℕ → ℕ → ℝ) (rd wa : ℕ → ℝ) (σ : Equiv.Perm ℕ) : Prop where
  ea : ∀ i k, i < m → k < n → st.a i k = fin (B i k)
  erd : ∀ k, k < n → st.rdiag k = fin (rd k)
  ewa : ∀ k, k < n → st.wa k = fin (wa k)
  eip : ∀ k, k < n → st.ipvt k = σ k
  perm : ∀ k, k < n → σ k < n
  hv : ∀ k, k < t → HouseVec m k fun i => B i k
  hM : ∀ i k, i < m → k < n → houseSeq m B t (fun r => A r (σ k)) i =
    if k < t then (if i < k then B i k else if i = k then rd k else 0) else B i k
  hrd : ∀ k, lo ≤ k → k < n → rd k = Real.sqrt (∑ i ∈ Ico t m, B i k ^ 2)
  hwa : ∀ k, lo ≤ k → k < n → rd k ≠ 0 → wa k ≠ 0
  mono : ∀ k l, k < t → k < l → l < n → |rd l| ≤ |rd k|
  dom : ∀ k l, k < t → k < l → l < n → ∑ i ∈ Ico k m, houseSeq m B t (fun r => A r (σ l)) i ^ 2 ≤ rd k ^ 2

/-- A transformation keeps the norm from any row before its own on. -/
theorem hous_norm {m j k : ℕ} {v : ℕ → ℝ} (hv : HouseVec m j v) (hj : j ≤ m) (hk : k ≤ j) (w : ℕ → ℝ) :
    ∑ i ∈ Ico k m, hous m j v w i ^ 2 = ∑ i ∈ Ico k m, w i ^ 2 := by
  have e := hous_dot hv hj w w
  rw [range_split (hk.trans hj), range_split (hk.trans hj)] at e
  have e1 : ∑ i ∈ range k, hous m j v w i * hous m j v w i = ∑ i ∈ range k, w i * w i :=
    Finset.sum_congr rfl fun i hi => by rw [hous_lt _ _ (lt_of_lt_of_le (Finset.mem_range.1 hi) hk)]
  rw [e1] at e
  have e2 := add_left_cancel e
  calc ∑ i ∈ Ico k m, hous m j v w i ^ 2 = ∑ i ∈ Ico k m, hous m j v w i * hous m j v w i := Finset.sum_congr rfl fun i _ => by ring
    _ = ∑ i ∈ Ico k m, w i * w i := e2
    _ = _ := Finset.sum_congr rfl fun i _ => by ring

/-- The columns are short enough for `mp_enorm` to be exact. -/
def Moderate (m n : ℕ) (A : ℕ → ℕ → ℝ) : Prop := ∀ k, k < n → ∑ i ∈ range m, A i k ^ 2 < (largeSize / m) ^ 2

theorem largeSize_pos : 0 < largeSize := by unfold largeSize; norm_num

/-- Keeping the norm keeps the entries small. -/
theorem QrInv.small {m n t lo : ℕ} {A B : ℕ → ℕ → ℝ} {st : QrSt XR} {rd wa : ℕ → ℝ} {σ : Equiv.Perm ℕ} (h : QrInv m n A t lo st B rd wa σ)
    (hA : Moderate m n A) (ht : t ≤ m) {k : ℕ} (hk : k < n) (htk : t ≤ k) :
    ∑ i ∈ range m, B i k ^ 2 < (largeSize / m) ^ 2 := by
  have e : ∑ i ∈ range m, B i k ^ 2 = ∑ i ∈ range m, A i (σ k) ^ 2 := by
    have := houseSeq_dot t ht h.hv (fun r => A r (σ k)) (fun r => A r (σ k))
    calc ∑ i ∈ range m, B i k ^ 2 = ∑ i ∈ range m, houseSeq m B t (fun r => A r (σ k)) i * houseSeq m B t (fun r => A r (σ k)) i := by
          refine Finset.sum_congr rfl fun i hi => ?_
          rw [h.hM i k (Finset.mem_range.1 hi) hk, if_neg (by omega)]
          ring
      _ = ∑ i ∈ range m, A i (σ k) * A i (σ k) := this
      _ = _ := Finset.sum_congr rfl fun i _ => by ring
  rw [e]
  exact hA _ (h.perm k hk)

theorem abs_lt_of_sum {m : ℕ} {w : ℕ → ℝ} (h : ∑ i ∈ range m, w i ^ 2 < (largeSize / m) ^ 2) {i : ℕ} (hi : i < m) :
    |w i| < largeSize / m := by
  have h1 : w i ^ 2 ≤ ∑ i ∈ range m, w i ^ 2 :=
    Finset.single_le_sum (f := fun i => w i ^ 2) (fun i _ => sq_nonneg (w i)) (Finset.mem_range.2 hi)
  have h2 : 0 ≤ largeSize / m := div_nonneg largeSize_pos.le (Nat.cast_nonneg m)
  exact abs_lt_of_sq_lt_sq (lt_of_le_of_lt h1 h) h2

/-- The start. -/
theorem qrInit_inv {m n : ℕ} {A : ℕ → ℕ → ℝ} {a : Arr2 XR} (ha : ∀ i k, i < m → k < n → a i k = fin (A i k)) (hA : Moderate m n A) :
    QrInv m n A 0 0 (qrInit m a) A (fun k => Real.sqrt (∑ i ∈ range m, A i k ^ 2)) (fun k => Real.sqrt (∑ i ∈ range m, A i k ^ 2)) 1 := by
  have hn : ∀ k, k < n → colNorm a k 0 m = fin (Real.sqrt (∑ i ∈ range m, A i k ^ 2)) := by
    intro k hk
    rw [colNorm_fin a k 0 m (fun i => A i k) (fun i _ hi => ha i k hi hk) (fun i _ hi => abs_lt_of_sum (w := fun i => A i k) (hA k hk) hi),
      Finset.range_eq_Ico]
  exact {
    ea := ha
    erd := hn
    ewa := hn
    eip := fun _ _ => rfl
    perm := fun _ h => h
    hv := fun _ h => absurd h (Nat.not_lt_zero _)
    hM := fun i k _ _ => by rw [if_neg (Nat.not_lt_zero k)]; rfl
    hrd := fun k _ _ => by rw [Finset.range_eq_Ico]
    hwa := fun _ _ _ h => h
    mono := fun _ _ h => absurd h (Nat.not_lt_zero _)
    dom := fun _ _ h => absurd h (Nat.not_lt_zero _) }

/-- The pivot is a column with the largest norm. -/
theorem qrPivot_max {n j : ℕ} {rdiag : ℕ → XR} {rd : ℕ → ℝ} (h : ∀ k, k < n → rdiag k = fin (rd k)) (hj : j < n) :
    j ≤ qrPivot n j rdiag ∧ qrPivot n j rdiag < n ∧ ∀ k, j ≤ k → k < n → rd k ≤ rd (qrPivot n j rdiag) := by
  unfold qrPivot
  suffices H : ∀ (l : List ℕ) (s : ℕ), (∀ k ∈ l, j ≤ k ∧ k < n) → j ≤ s → s < n →
      let r := l.foldl (fun kmax k => if flt (rdiag kmax) (rdiag k) then k else kmax) s
      j ≤ r ∧ r < n ∧ rd s ≤ rd r ∧ ∀ k ∈ l, rd k ≤ rd r by
    have := H (List.range' j (n - j)) j (fun k hk => by
      rw [List.mem_range'] at hk
      obtain ⟨i, hi, rfl⟩ := hk
      exact ⟨by omega, by omega⟩) le_rfl hj
    refine ⟨this.1, this.2.1, fun k h1 h2 => this.2.2.2 k ?_⟩
    rw [List.mem_range']
    exact ⟨k - j, by omega, by omega⟩
  intro l
  induction l with
  | nil => exact fun s _ h1 h2 => ⟨h1, h2, le_rfl, fun k hk => by simp at hk⟩
  | cons x l ih =>
    intro s hl h1 h2
    have hx := hl x (by simp)
    simp only [List.foldl_cons]
    rw [h s h2, h x hx.2, flt_fin]
    by_cases hlt : rd s < rd x
    · rw [if_pos (by simpa using hlt)]
      obtain ⟨a, b, c, d⟩ := ih x (fun k hk => hl k (by simp [hk])) hx.1 hx.2
      refine ⟨a, b, hlt.le.trans c, fun k hk => ?_⟩
      rcases List.mem_cons.1 hk with rfl | hk
      · exact c
      · exact d k hk
    · rw [if_neg (by simpa using hlt)]
      obtain ⟨a, b, c, d⟩ := ih s (fun k hk => hl k (by simp [hk])) h1 h2
      refine ⟨a, b, c, fun k hk => ?_⟩
      rcases List.mem_cons.1 hk with rfl | hk
      · exact (not_lt.1 hlt).trans c
      · exact d k hk

/-- What the Householder step needs to know about column `t`. -/
structure PivotIs (m n t : ℕ) (B : ℕ → ℕ → ℝ) (rd : ℕ → ℝ) : Prop where
  above : ∀ l, t < l → l < n → rd l ≤ Real.sqrt (∑ i ∈ Ico t m, B i t ^ 2)
  below : ∀ k, k < t → Real.sqrt (∑ i ∈ Ico t m, B i t ^ 2) ≤ |rd k|

theorem qrSwap_inv {m n t kmax : ℕ} {A B : ℕ → ℕ → ℝ} {st : QrSt XR} {rd wa : ℕ → ℝ} {σ : Equiv.Perm ℕ} (h : QrInv m n A t t st B rd wa σ)
    (htm : t ≤ m) (ht : t < kmax) (hk : kmax < n) (hmax : ∀ k, t ≤ k → k < n → rd k ≤ rd kmax) :
    ∃ B' rd' wa' σ', QrInv m n A t (t + 1) (qrSwap t kmax st) B' rd' wa' σ' ∧ PivotIs m n t B' rd' := by
  have ht' : t < n := by omega
  refine ⟨fun i k => if k = t then B i kmax else if k = kmax then B i t else B i k, Function.update rd kmax (rd t), Function.update wa kmax (wa t),
    σ * Equiv.swap t kmax, ?_, ?_⟩
  · have hσ : ∀ k, (σ * Equiv.swap t kmax) k = if k = t then σ kmax else if k = kmax then σ t else σ k := by
      intro k
      rw [Equiv.Perm.mul_apply, Equiv.swap_apply_def]
      split
      · rfl
      · split <;> rfl
    have hB : ∀ k, k < t → ∀ i, (if k = t then B i kmax else if k = kmax then B i t else B i k) = B i k := by
      intro k hk' i
      rw [if_neg (by omega), if_neg (by omega)]
    have hseq : ∀ w i, i < m → houseSeq m (fun i k => if k = t then B i kmax else if k = kmax then B i t else B i k) t w i = houseSeq m B t w i :=
      fun w => houseSeq_congr t htm (fun k hk' i _ _ => hB k hk' i) fun _ _ => rfl
    have hrd' : ∀ k, t < k → k < n → Function.update rd kmax (rd t) k =
        Real.sqrt (∑ i ∈ Ico t m, (if k = t then B i kmax else if k = kmax then B i t else B i k) ^ 2) := by
      intro k h1 h2
      rw [Function.update_apply]
      by_cases hkk : k = kmax
      · rw [if_pos hkk, h.hrd t le_rfl ht']
        refine congrArg Real.sqrt (Finset.sum_congr rfl fun i _ => ?_)
        rw [if_neg (by omega), if_pos hkk]
      · rw [if_neg hkk, h.hrd k h1.le h2]
        refine congrArg Real.sqrt (Finset.sum_congr rfl fun i _ => ?_)
        rw [if_neg (by omega), if_neg hkk]
    exact {
      ea := fun i k hi hk' => by
        simp only [qrSwap]
        split
        · exact h.ea i kmax hi hk
        · split
          · exact h.ea i t hi ht'
          · exact h.ea i k hi hk'
      erd := fun k hk' => by
        simp only [qrSwap, Function.update_apply]
        split
        · exact h.erd t ht'
        · exact h.erd k hk'
      ewa := fun k hk' => by
        simp only [qrSwap, Function.update_apply]
        split
        · exact h.ewa t ht'
        · exact h.ewa k hk'
      eip := fun k hk' => by
        rw [hσ]
        simp only [qrSwap]
        split
        · exact h.eip kmax hk
        · split
          · exact h.eip t ht'
          · exact h.eip k hk'
      perm := fun k hk' => by
        rw [hσ]
        split
        · exact h.perm kmax hk
        · split
          · exact h.perm t ht'
          · exact h.perm k hk'
      hv := fun k hk' => by
        have := h.hv k hk'
        simp only [hB k hk']
        exact this
      hM := fun i k hi hk' => by
        rw [hseq _ i hi, hσ]
        by_cases h1 : k = t
        · rw [if_pos h1, if_neg (by omega), if_pos h1, h.hM i kmax hi hk, if_neg (by omega)]
        · by_cases h2 : k = kmax
          · rw [if_neg h1, if_pos h2, if_neg (by omega), if_neg h1, if_pos h2, h.hM i t hi ht', if_neg (by omega)]
          · rw [if_neg h1, if_neg h2, h.hM i k hi hk', if_neg h1, if_neg h2, Function.update_apply, if_neg h2]
      hrd := fun k h1 h2 => hrd' k (by omega) h2
      hwa := fun k h1 h2 => by
        rw [Function.update_apply, Function.update_apply]
        split
        · exact h.hwa t le_rfl ht'
        · exact h.hwa k (by omega) h2
      mono := fun k l h1 h2 h3 => by
        rw [Function.update_apply, Function.update_apply, if_neg (show k ≠ kmax by omega)]
        split
        · exact h.mono k t h1 h1 ht'
        · exact h.mono k l h1 h2 h3
      dom := fun k l h1 h2 h3 => by
        rw [Function.update_apply, if_neg (show k ≠ kmax by omega)]
        rw [Finset.sum_congr rfl fun i hi => by rw [hseq _ i (Finset.mem_Ico.1 hi).2]]
        rw [hσ l]
        split
        · exact h.dom k kmax h1 (by omega) hk
        · split
          · exact h.dom k t h1 h1 ht'
          · exact h.dom k l h1 h2 h3 }
  · have e : Real.sqrt (∑ i ∈ Ico t m, (if t = t then B i kmax else if t = kmax then B i t else B i t) ^ 2) = rd kmax := by
      rw [h.hrd kmax ht.le hk]
      refine congrArg Real.sqrt (Finset.sum_congr rfl fun i _ => ?_)
      rw [if_pos rfl]
    refine ⟨fun l h1 h2 => ?_, fun k h1 => ?_⟩
    · rw [e, Function.update_apply]
      split
      · exact hmax t le_rfl ht'
      · exact hmax l h1.le h2
    · rw [e, Function.update_apply, if_neg (by omega)]
      refine le_trans (le_abs_self _) (h.mono k kmax h1 (by omega) hk)

/-- The norm of a remaining column after the step, updated or computed anew. -/
theorem qrNorm_fin {m j k : ℕ} {a : Arr2 XR} {C : ℕ → ℝ} {r w : ℝ} (hjm : j < m) (ha : ∀ i, j ≤ i → i < m → a i k = fin (C i))
    (hb : ∀ i, j + 1 ≤ i → i < m → |C i| < largeSize / m) (hr : r = Real.sqrt (∑ i ∈ Ico j m, C i ^ 2)) (hw : r ≠ 0 → w ≠ 0) :
    ∃ w', qrNorm m j a k (fin r) (fin w) = (fin (Real.sqrt (∑ i ∈ Ico (j + 1) m, C i ^ 2)), fin w') ∧
      (Real.sqrt (∑ i ∈ Ico (j + 1) m, C i ^ 2) ≠ 0 → w' ≠ 0) := by
  have hsp : ∑ i ∈ Ico j m, C i ^ 2 = C j ^ 2 + ∑ i ∈ Ico (j + 1) m, C i ^ 2 := Finset.sum_eq_sum_Ico_succ_bot hjm _
  have hQ : 0 ≤ ∑ i ∈ Ico (j + 1) m, C i ^ 2 := Finset.sum_nonneg fun i _ => sq_nonneg _
  set Q := ∑ i ∈ Ico (j + 1) m, C i ^ 2 with hQd
  unfold qrNorm
  rw [zero_def, feq_fin]
  by_cases h0 : r = 0
  · rw [if_pos (by simpa using h0)]
    have : Q = 0 := by
      have h1 : C j ^ 2 + Q ≤ 0 := by rw [← hsp]; exact Real.sqrt_eq_zero'.1 (hr ▸ h0)
      nlinarith [sq_nonneg (C j)]
    rw [this, Real.sqrt_zero, h0]
    exact ⟨w, rfl, fun h => absurd rfl h⟩
  · rw [if_neg (by simpa using h0)]
    have hP : 0 ≤ C j ^ 2 + Q := add_nonneg (sq_nonneg _) hQ
    have hr2 : r * r = C j ^ 2 + Q := by rw [hr, hsp, Real.mul_self_sqrt hP]
    have hpos : 0 < r := lt_of_le_of_ne (hr ▸ Real.sqrt_nonneg _) (Ne.symm h0)
    have ht : 1 - C j / r * (C j / r) = Q / (r * r) := by
      rw [hr2]
      have : C j ^ 2 + Q ≠ 0 := by rw [← hr2]; positivity
      rw [div_mul_div_comm, hr2]
      field_simp
      ring
    have htn : 0 ≤ Q / (r * r) := div_nonneg hQ (mul_self_nonneg r)
    have hrd : r * Real.sqrt (Q / (r * r)) = Real.sqrt Q := by
      rw [Real.sqrt_div hQ, Real.sqrt_mul_self hpos.le]
      field_simp
    have hmax : dmax (fin 0) (fin (Q / (r * r))) = fin (Q / (r * r)) := by
      unfold dmax
      rw [fle_fin]
      by_cases hz : Q / (r * r) ≤ 0
      · rw [if_pos (by simpa using hz), le_antisymm hz htn]
      · rw [if_neg (by simpa using hz)]
    simp only [ha j le_rfl hjm, fin_div_of_ne h0, fin_mul, one_def, fin_sub, ht, hmax, fsqrt_fin_of_nonneg htn, hrd, fin_div_of_ne (hw h0),
      lit_def, fle_fin]
    split
    · rw [colNorm_fin a k (j + 1) m C (fun i h1 h2 => ha i (by omega) h2) hb]
      exact ⟨_, rfl, id⟩
    · exact ⟨w, rfl, fun _ => hw h0⟩

/-- The step for a column of zeros. -/
theorem qrZero_inv {m n t : ℕ} {A B : ℕ → ℕ → ℝ} {st : QrSt XR} {rd wa : ℕ → ℝ} {σ : Equiv.Perm ℕ} (h : QrInv m n A t (t + 1) st B rd wa σ)
    (hp : PivotIs m n t B rd) (htn : t < n) (htm : t < m) (h0 : Real.sqrt (∑ i ∈ Ico t m, B i t ^ 2) = 0) :
    QrInv m n A (t + 1) (t + 1) { st with rdiag := Function.update st.rdiag t (fin 0) } B (Function.update rd t 0) wa σ := by
  have hz : ∀ k, (t < k ∨ k = t) → k < n → ∀ i, t ≤ i → i < m → B i k = 0 := by
    intro k hk hkn i h1 h2
    have hs : Real.sqrt (∑ i ∈ Ico t m, B i k ^ 2) ≤ 0 := by
      rcases hk with hk | hk
      · rw [← h.hrd k hk hkn, ← h0]
        exact hp.above k hk hkn
      · rw [hk, h0]
    have := Real.sqrt_eq_zero'.1 (le_antisymm hs (Real.sqrt_nonneg _))
    have h3 := (Finset.sum_eq_zero_iff_of_nonneg (fun i _ => sq_nonneg (B i k))).1 (le_antisymm this (Finset.sum_nonneg fun i _ => sq_nonneg _)) i
      (Finset.mem_Ico.2 ⟨h1, h2⟩)
    exact pow_eq_zero_iff (two_ne_zero) |>.1 h3
  have hseq : ∀ w i, i < m → houseSeq m B (t + 1) w i = houseSeq m B t w i := by
    intro w i hi
    simp only [houseSeq, hous]
    split
    · rename_i h1
      rw [hz t (Or.inr rfl) htn i h1 hi]
      ring
    · rfl
  exact {
    ea := h.ea
    erd := fun k hk => by
      simp only [Function.update_apply]
      split
      · rfl
      · exact h.erd k hk
    ewa := h.ewa
    eip := h.eip
    perm := h.perm
    hv := fun k hk => by
      by_cases hkt : k = t
      · unfold HouseVec dotIco
        beta_reduce
        rw [hkt, hz t (Or.inr rfl) htn t le_rfl htm]
        rw [Finset.sum_eq_zero fun i hi => by
          have := Finset.mem_Ico.1 hi
          rw [hz t (Or.inr rfl) htn i this.1 this.2, mul_zero]]
        ring
      · exact h.hv k (by omega)
    hM := fun i k hi hk => by
      rw [hseq _ i hi, h.hM i k hi hk, Function.update_apply]
      by_cases h1 : k < t
      · rw [if_pos h1, if_pos (show k < t + 1 by omega), if_neg (show k ≠ t by omega)]
      · rw [if_neg h1]
        by_cases h2 : k = t
        · rw [if_pos (show k < t + 1 by omega), if_pos h2]
          by_cases h3 : i < k
          · rw [if_pos h3]
          · rw [if_neg h3, hz k (Or.inr h2) hk i (by omega) hi]
            split <;> rfl
        · rw [if_neg (by omega)]
    hrd := fun k h1 h2 => by
      rw [Function.update_apply, if_neg (by omega), h.hrd k h1 h2]
      congr 1
      rw [Finset.sum_eq_sum_Ico_succ_bot htm, hz k (Or.inl h1) h2 t le_rfl htm]
      ring
    hwa := fun k h1 h2 => by
      rw [Function.update_apply, if_neg (by omega)]
      exact h.hwa k h1 h2
    mono := fun k l h1 h2 h3 => by
      rw [Function.update_apply, Function.update_apply]
      by_cases hkt : k = t
      · rw [if_neg (by omega), if_pos hkt]
        have hl := hp.above l (by omega) h3
        rw [h0] at hl
        rw [h.hrd l (by omega) h3] at hl ⊢
        rw [le_antisymm hl (Real.sqrt_nonneg _)]
      · rw [if_neg hkt]
        split
        · rw [abs_zero]; exact abs_nonneg _
        · exact h.mono k l (by omega) h2 h3
    dom := fun k l h1 h2 h3 => by
      rw [Function.update_apply, Finset.sum_congr rfl fun i hi => by rw [hseq _ i (Finset.mem_Ico.1 hi).2]]
      by_cases hkt : k = t
      · rw [if_pos hkt, hkt, Finset.sum_eq_zero]
        · norm_num
        · intro i hi
          have := Finset.mem_Ico.1 hi
          rw [h.hM i l this.2 h3, if_neg (by omega), hz l (Or.inl (by omega)) h3 i this.1 this.2]
          ring
      · rw [if_neg hkt]
        exact h.dom k l (by omega) h2 h3 }

/-- The Householder step. -/
theorem qrHouse_inv {m n t : ℕ} {A B : ℕ → ℕ → ℝ} {st : QrSt XR} {rd wa : ℕ → ℝ} {σ : Equiv.Perm ℕ} (h : QrInv m n A t (t + 1) st B rd wa σ)
    (hA : Moderate m n A) (hp : PivotIs m n t B rd) (htn : t < n) (htm : t < m) (s : ℝ) (hs : s ^ 2 = ∑ i ∈ Ico t m, B i t ^ 2) (hs0 : s ≠ 0)
    (hsg : 0 ≤ B t t / s) :
    ∃ B' rd' wa', QrInv m n A (t + 1) (t + 1) (qrHouse m t (fin s) st) B' rd' wa' σ := by
  have habs : |s| = Real.sqrt (∑ i ∈ Ico t m, B i t ^ 2) := by rw [← hs, Real.sqrt_sq_eq_abs]
  set v : ℕ → ℝ := fun i => if i = t then B i t / s + 1 else B i t / s with hv
  have hvt : v t = B t t / s + 1 := by simp [hv]
  have hvt0 : v t ≠ 0 := by rw [hvt]; positivity
  obtain ⟨hH, hcol⟩ := hous_column htm (fun i => B i t) s hs hs0 v (fun i _ _ => rfl)
  obtain ⟨hc1, hc2⟩ := hcol hvt0
  set B' : ℕ → ℕ → ℝ := fun i k =>
    if k = t ∧ t ≤ i then v i else if t < k ∧ t ≤ i then B i k - dotIco t m v (fun r => B r k) / v t * v i else B i k with hB'
  have hB'lt : ∀ k i, k < t → B' i k = B i k := by
    intro k i hk
    simp only [hB']
    rw [if_neg (by omega), if_neg (by omega)]
  have hB'row : ∀ k i, i < t → B' i k = B i k := by
    intro k i hk
    simp only [hB']
    rw [if_neg (by omega), if_neg (by omega)]
  have hB't : ∀ i, t ≤ i → B' i t = v i := by
    intro i hi
    change (if t = t ∧ t ≤ i then v i else _) = _
    rw [if_pos ⟨rfl, hi⟩]
  have hB'gt : ∀ k i, t < k → B' i k = hous m t v (fun r => B r k) i := by
    intro k i hk
    simp only [hB', hous]
    by_cases hi : t ≤ i
    · rw [if_neg (by omega), if_pos ⟨hk, hi⟩, if_pos hi]
    · rw [if_neg (by omega), if_neg (by omega), if_neg hi]
  -- the array after the two loops
  have hvec : ∀ i, t ≤ i → i < m → qrVec t (fin s) st.a i t = fin (v i) := by
    intro i h1 h2
    unfold qrVec
    rw [if_pos ⟨rfl, h1⟩, h.ea i t h2 htn, fin_div_of_ne hs0]
    simp only [hv]
    split
    · rw [one_def, fin_add]
    · rfl
  have hvec' : ∀ i k, i < m → k < n → k ≠ t → qrVec t (fin s) st.a i k = fin (B i k) := by
    intro i k h1 h2 h3
    unfold qrVec
    rw [if_neg (by tauto), h.ea i k h1 h2]
  have hsum : ∀ k, k < n → k ≠ t → sumFrom t m (fun r => qrVec t (fin s) st.a r t * qrVec t (fin s) st.a r k) =
      fin (dotIco t m v fun r => B r k) := by
    intro k hk hkt
    exact sumFrom_fin t m _ (fun i => v i * B i k) fun i h1 h2 => by rw [hvec i h1 h2, hvec' i k h2 hk hkt, fin_mul]
  have happ : ∀ i k, i < m → k < n → qrApply m t (qrVec t (fin s) st.a) i k = fin (B' i k) := by
    intro i k hi hk
    unfold qrApply
    simp only [hB']
    by_cases h1 : t < k ∧ t ≤ i
    · rw [if_pos h1, if_neg (by omega), if_pos h1, hsum k hk (by omega), hvec t le_rfl htm, hvec i h1.2 hi, hvec' i k hi hk (by omega),
        fin_div_of_ne hvt0, fin_mul, fin_sub]
    · rw [if_neg h1]
      by_cases h2 : k = t ∧ t ≤ i
      · rw [if_pos h2, h2.1, hvec i h2.2 hi]
      · rw [if_neg h2, if_neg h1]
        unfold qrVec
        rw [if_neg h2, h.ea i k hi hk]
  -- norms
  have hnorm : ∀ k, t < k → k < n → ∑ i ∈ Ico t m, B' i k ^ 2 = ∑ i ∈ Ico t m, B i k ^ 2 := by
    intro k h1 h2
    have e := hous_dot hH htm.le (fun r => B r k) (fun r => B r k)
    rw [range_split htm.le, range_split htm.le] at e
    have e1 : ∑ i ∈ range t, hous m t v (fun r => B r k) i * hous m t v (fun r => B r k) i = ∑ i ∈ range t, B i k * B i k :=
      Finset.sum_congr rfl fun i hi => by rw [hous_lt _ _ (Finset.mem_range.1 hi)]
    rw [e1] at e
    have e2 := add_left_cancel e
    calc ∑ i ∈ Ico t m, B' i k ^ 2 = ∑ i ∈ Ico t m, hous m t v (fun r => B r k) i * hous m t v (fun r => B r k) i :=
          Finset.sum_congr rfl fun i _ => by rw [hB'gt k i h1]; ring
      _ = ∑ i ∈ Ico t m, B i k * B i k := e2
      _ = _ := Finset.sum_congr rfl fun i _ => by ring
  have hsmall : ∀ k, t < k → k < n → ∀ i, i < m → |B' i k| < largeSize / m := by
    intro k h1 h2 i hi
    have e := h.small hA htm.le h2 (by omega : t ≤ k)
    refine abs_lt_of_sum (w := fun i => B' i k) ?_ hi
    rw [range_split htm.le, hnorm k h1 h2]
    rw [Finset.sum_congr rfl fun i hi => by rw [hB'row k i (Finset.mem_range.1 hi)], ← range_split htm.le fun i => B i k ^ 2]
    exact e
  have hnrm : ∀ k, ∃ w', t < k → k < n → qrNorm m t (qrApply m t (qrVec t (fin s) st.a)) k (st.rdiag k) (st.wa k) =
      (fin (Real.sqrt (∑ i ∈ Ico (t + 1) m, B' i k ^ 2)), fin w') ∧ (Real.sqrt (∑ i ∈ Ico (t + 1) m, B' i k ^ 2) ≠ 0 → w' ≠ 0) := by
    intro k
    by_cases hk : t < k ∧ k < n
    · rw [h.erd k hk.2, h.ewa k hk.2]
      obtain ⟨w', hw'⟩ := qrNorm_fin (a := qrApply m t (qrVec t (fin s) st.a)) (k := k) (C := fun i => B' i k) (r := rd k) (w := wa k) htm
        (fun i _ h2 => happ i k h2 hk.2) (fun i _ h2 => hsmall k hk.1 hk.2 i h2)
        (by rw [h.hrd k hk.1 hk.2, hnorm k hk.1 hk.2]) (h.hwa k hk.1 hk.2)
      exact ⟨w', fun _ _ => hw'⟩
    · exact ⟨0, fun h1 h2 => absurd ⟨h1, h2⟩ hk⟩
  choose w' hw' using hnrm
  have hQle : ∀ k, t < k → k < n → Real.sqrt (∑ i ∈ Ico (t + 1) m, B' i k ^ 2) ≤ rd k := by
    intro k h1 h2
    rw [h.hrd k h1 h2, ← hnorm k h1 h2, Finset.sum_eq_sum_Ico_succ_bot htm]
    exact Real.sqrt_le_sqrt (by linarith [sq_nonneg (B' t k)])
  refine ⟨B', fun k => if k = t then -s else if t < k then Real.sqrt (∑ i ∈ Ico (t + 1) m, B' i k ^ 2) else rd k,
    fun k => if t < k then w' k else wa k, ?_⟩
  exact {
    ea := fun i k hi hk => happ i k hi hk
    erd := fun k hk => by
      simp only [qrHouse]
      by_cases h1 : k = t
      · rw [if_pos h1, if_pos h1, fin_neg]
      · rw [if_neg h1, if_neg h1]
        by_cases h2 : t < k
        · rw [if_pos h2, if_pos h2, (hw' k h2 hk).1]
        · rw [if_neg h2, if_neg h2, h.erd k hk]
    ewa := fun k hk => by
      simp only [qrHouse]
      by_cases h2 : t < k
      · rw [if_pos h2, if_pos h2, (hw' k h2 hk).1]
      · rw [if_neg h2, if_neg h2, h.ewa k hk]
    eip := h.eip
    perm := h.perm
    hv := fun k hk => by
      by_cases hkt : k = t
      · subst hkt
        unfold HouseVec dotIco at hH ⊢
        beta_reduce
        rw [hB't k le_rfl, ← hH]
        refine Finset.sum_congr rfl fun i hi => ?_
        rw [hB't i (Finset.mem_Ico.1 hi).1]
      · have := h.hv k (by omega)
        simp only [hB'lt k _ (show k < t by omega)]
        exact this
    hM := fun i k hi hk => by
      have hX : ∀ i, i < m → houseSeq m B' t (fun r => A r (σ k)) i = _ := fun i hi =>
        (houseSeq_congr t htm.le (fun k' hk' i' _ _ => hB'lt k' i' hk') (fun _ _ => rfl) i hi).trans (h.hM i k hi hk)
      have hstep : houseSeq m B' (t + 1) (fun r => A r (σ k)) i =
          hous m t v (fun i => if k < t then (if i < k then B i k else if i = k then rd k else 0) else B i k) i :=
        hous_congr htm (fun i h1 _ => hB't i h1) hX i hi
      rw [hstep]
      by_cases h1 : k < t
      · have hz : dotIco t m v (fun i => if k < t then (if i < k then B i k else if i = k then rd k else 0) else B i k) = 0 := by
          unfold dotIco
          refine Finset.sum_eq_zero fun r hr => ?_
          have := Finset.mem_Ico.1 hr
          beta_reduce
          rw [if_pos h1, if_neg (by omega), if_neg (by omega), mul_zero]
        unfold hous
        rw [hz, if_pos (show k < t + 1 by omega), if_neg (show k ≠ t by omega), if_neg (show ¬ t < k by omega), hB'lt k i h1]
        simp only [if_pos h1]
        split <;> ring
      · simp only [if_neg h1]
        by_cases h2 : k = t
        · rw [if_pos (show k < t + 1 by omega), if_pos h2, h2]
          by_cases h3 : i < t
          · rw [if_pos h3, hous_lt _ _ h3, hB'row t i h3]
          · rw [if_neg h3]
            by_cases h4 : i = t
            · rw [if_pos h4, h4, hc1]
            · rw [if_neg h4, hc2 i (by omega) hi]
        · rw [if_neg (by omega), hB'gt k i (by omega)]
    hrd := fun k h1 h2 => by
      rw [if_neg (by omega), if_pos (by omega)]
    hwa := fun k h1 h2 => by
      rw [if_neg (show k ≠ t by omega), if_pos (show t < k by omega), if_pos (show t < k by omega)]
      exact (hw' k (by omega) h2).2
    mono := fun k l h1 h2 h3 => by
      have hl : |(if l = t then -s else if t < l then Real.sqrt (∑ i ∈ Ico (t + 1) m, B' i l ^ 2) else rd l)| ≤
          if l = t then |s| else if t < l then rd l else |rd l| := by
        by_cases e1 : l = t
        · rw [if_pos e1, if_pos e1, abs_neg]
        · rw [if_neg e1, if_neg e1]
          by_cases e2 : t < l
          · rw [if_pos e2, if_pos e2, abs_of_nonneg (Real.sqrt_nonneg _)]
            exact hQle l e2 h3
          · rw [if_neg e2, if_neg e2]
      refine hl.trans ?_
      by_cases hkt : k = t
      · rw [if_pos hkt, if_neg (show l ≠ t by omega), if_pos (show t < l by omega), abs_neg, habs]
        exact hp.above l (by omega) h3
      · rw [if_neg hkt, if_neg (show ¬ t < k by omega)]
        by_cases e1 : l = t
        · rw [if_pos e1, habs]
          exact hp.below k (by omega)
        · rw [if_neg e1]
          split
          · exact (le_abs_self _).trans (h.mono k l (by omega) h2 h3)
          · exact h.mono k l (by omega) h2 h3
    dom := fun k l h1 h2 h3 => by
      have hstep : ∀ i, i < m → houseSeq m B' (t + 1) (fun r => A r (σ l)) i = hous m t v (houseSeq m B t (fun r => A r (σ l))) i :=
        hous_congr htm (fun i h1 _ => hB't i h1) (houseSeq_congr t htm.le (fun k' hk' i' _ _ => hB'lt k' i' hk') (fun _ _ => rfl))
      rw [Finset.sum_congr rfl fun i hi => by rw [hstep i (Finset.mem_Ico.1 hi).2], hous_norm hH htm.le (show k ≤ t by omega)]
      by_cases hkt : k = t
      · rw [if_pos hkt, neg_sq, hkt]
        have e : ∑ i ∈ Ico t m, houseSeq m B t (fun r => A r (σ l)) i ^ 2 = ∑ i ∈ Ico t m, B i l ^ 2 :=
          Finset.sum_congr rfl fun i hi => by rw [h.hM i l (Finset.mem_Ico.1 hi).2 h3, if_neg (by omega)]
        rw [e, hs]
        have h4 := hp.above l (by omega) h3
        rw [h.hrd l (by omega) h3] at h4
        exact (Real.sqrt_le_sqrt_iff (Finset.sum_nonneg fun i _ => sq_nonneg _)).1 h4
      · rw [if_neg hkt, if_neg (show ¬ t < k by omega)]
        exact h.dom k l (by omega) h2 h3 }

/-- One turn of the main loop. -/
theorem qrStep_inv {m n t : ℕ} {A B : ℕ → ℕ → ℝ} {st : QrSt XR} {rd wa : ℕ → ℝ} {σ : Equiv.Perm ℕ} (h : QrInv m n A t t st B rd wa σ)
    (hA : Moderate m n A) (htn : t < n) (htm : t < m) : ∃ B' rd' wa' σ', QrInv m n A (t + 1) (t + 1) (qrStep m n st t) B' rd' wa' σ' := by
  obtain ⟨h1, h2, h3⟩ := qrPivot_max h.erd htn
  unfold qrStep
  have key : ∃ B' rd' wa' σ', QrInv m n A t (t + 1) (if qrPivot n t st.rdiag = t then st else qrSwap t (qrPivot n t st.rdiag) st) B' rd' wa' σ' ∧
      PivotIs m n t B' rd' := by
    by_cases hk : qrPivot n t st.rdiag = t
    · rw [if_pos hk]
      refine ⟨B, rd, wa, σ, { h with hrd := fun k hk => h.hrd k (by omega), hwa := fun k hk => h.hwa k (by omega) }, ?_, ?_⟩
      · intro l h4 h5
        rw [← h.hrd t le_rfl htn]
        rw [hk] at h3
        exact h3 l h4.le h5
      · intro k h4
        rw [← h.hrd t le_rfl htn]
        exact (le_abs_self _).trans (h.mono k t h4 h4 htn)
    · rw [if_neg hk]
      exact qrSwap_inv h htm.le (by omega) h2 h3
  obtain ⟨B', rd', wa', σ', h', hp⟩ := key
  simp only
  generalize (if qrPivot n t st.rdiag = t then st else qrSwap t (qrPivot n t st.rdiag) st) = st' at h' ⊢
  have hcn : colNorm st'.a t t m = fin (Real.sqrt (∑ i ∈ Ico t m, B' i t ^ 2)) :=
    colNorm_fin st'.a t t m (fun i => B' i t) (fun i _ hi => h'.ea i t hi htn)
      (fun i _ hi => abs_lt_of_sum (w := fun i => B' i t) (h'.small hA htm.le htn le_rfl) hi)
  have hsum0 : 0 ≤ ∑ i ∈ Ico t m, B' i t ^ 2 := Finset.sum_nonneg fun i _ => sq_nonneg _
  unfold qrReduce
  simp only [hcn]
  rw [zero_def, feq_fin]
  by_cases h0 : Real.sqrt (∑ i ∈ Ico t m, B' i t ^ 2) = 0
  · rw [if_pos (by simpa using h0), h0, fin_neg, neg_zero]
    exact ⟨B', _, wa', σ', qrZero_inv h' hp htn htm h0⟩
  · rw [if_neg (by simpa using h0), h'.ea t t htm htn, flt_fin]
    by_cases hneg : B' t t < 0
    · rw [if_pos (by simpa using hneg), fin_neg]
      obtain ⟨B2, rd2, wa2, h2⟩ := qrHouse_inv h' hA hp htn htm (-Real.sqrt (∑ i ∈ Ico t m, B' i t ^ 2)) (by
        rw [neg_sq, Real.sq_sqrt hsum0]) (by simpa using h0) (div_nonneg_of_nonpos hneg.le (by simp))
      exact ⟨B2, rd2, wa2, σ', h2⟩
    · rw [if_neg (by simpa using hneg)]
      obtain ⟨B2, rd2, wa2, h2⟩ := qrHouse_inv h' hA hp htn htm (Real.sqrt (∑ i ∈ Ico t m, B' i t ^ 2)) (by
        rw [Real.sq_sqrt hsum0]) h0 (div_nonneg (not_lt.1 hneg) (Real.sqrt_nonneg _))
      exact ⟨B2, rd2, wa2, σ', h2⟩

/-- The whole of `mp_qrfac`. -/
theorem qrfac_inv {m n : ℕ} {A : ℕ → ℕ → ℝ} {a : Arr2 XR} (ha : ∀ i k, i < m → k < n → a i k = fin (A i k)) (hA : Moderate m n A) :
    ∃ B rd wa σ, QrInv m n A (min m n) (min m n) (qrfac m n a) B rd wa σ := by
  unfold qrfac
  suffices H : ∀ t, t ≤ min m n → ∃ B rd wa σ, QrInv m n A t t ((List.range t).foldl (qrStep m n) (qrInit m a)) B rd wa σ from H _ le_rfl
  intro t
  induction t with
  | zero => exact fun _ => ⟨_, _, _, _, qrInit_inv ha hA⟩
  | succ t ih =>
    intro ht
    obtain ⟨B, rd, wa, σ, h⟩ := ih (by omega)
    rw [List.range_succ, List.foldl_append]
    exact qrStep_inv h hA (by omega) (by omega)

end

end Imfit
