import Verif.Props.C94
import Verif.Props.C73
import Mathlib.Algebra.BigOperators.Field

/-!
# C95: the gradient test

In exact arithmetic, for vectors for which `mp_enorm` is exact.
-/

namespace Imfit

open XR Spec Matrix

theorem dmax_fin (a b : ℝ) : dmax (fin a) (fin b) = fin (max a b) := by
  unfold dmax
  rw [fle_fin]
  by_cases h : b ≤ a
  · simp [h]
  · simp [h, max_eq_right (not_le.1 h).le]

/-- The loop over the columns. -/
theorem fold_max (c s : ℕ → ℝ) (l : List ℕ) (g0 : ℝ) (F : XR → ℕ → XR)
    (hF : ∀ j ∈ l, ∀ g, F g j = if feq (fin (c j)) 0 then g else dmax g (fabs (fin (s j) / fin (c j)))) :
    ∃ g, l.foldl F (fin g0) = fin g ∧ g0 ≤ g ∧ (∀ j ∈ l, c j ≠ 0 → |s j / c j| ≤ g) ∧ (g = g0 ∨ ∃ j ∈ l, c j ≠ 0 ∧ g = |s j / c j|) := by
  induction l generalizing g0 with
  | nil => exact ⟨g0, rfl, le_rfl, by simp, Or.inl rfl⟩
  | cons j l ih =>
    have hj := hF j List.mem_cons_self (fin g0)
    rw [List.foldl_cons, hj, zero_def, feq_fin]
    by_cases h0 : c j = 0
    · rw [h0]
      simp only [decide_true, if_true]
      obtain ⟨g, h1, h2, h3, h4⟩ := ih g0 fun k hk => hF k (List.mem_cons_of_mem _ hk)
      refine ⟨g, h1, h2, ?_, ?_⟩
      · intro k hk hc
        rcases List.mem_cons.1 hk with rfl | hk
        · exact absurd h0 hc
        · exact h3 k hk hc
      · rcases h4 with h4 | ⟨k, hk, h4⟩
        · exact Or.inl h4
        · exact Or.inr ⟨k, List.mem_cons_of_mem _ hk, h4⟩
    · rw [if_neg (by simpa using h0), fin_div_of_ne h0, fabs_fin, dmax_fin]
      obtain ⟨g, h1, h2, h3, h4⟩ := ih (max g0 |s j / c j|) fun k hk => hF k (List.mem_cons_of_mem _ hk)
      refine ⟨g, h1, (le_max_left _ _).trans h2, ?_, ?_⟩
      · intro k hk hc
        rcases List.mem_cons.1 hk with rfl | hk
        · exact (le_max_right _ _).trans h2
        · exact h3 k hk hc
      · rcases h4 with h4 | ⟨k, hk, h4⟩
        · rcases max_choice g0 |s j / c j| with e | e
          · exact Or.inl (h4.trans e)
          · exact Or.inr ⟨j, List.mem_cons_self, h0, h4.trans e⟩
        · exact Or.inr ⟨k, List.mem_cons_of_mem _ hk, h4⟩

theorem halfGrad_le {m n : ℕ} (J : Matrix (Fin m) (Fin n) ℝ) (f : Fin m → ℝ) (j : Fin n) : |halfGrad J f j| ≤ length f * colLength J j := by
  unfold halfGrad length colLength
  rw [← Real.sqrt_mul (Finset.sum_nonneg fun _ _ => sq_nonneg _), ← Real.sqrt_sq_eq_abs]
  refine Real.sqrt_le_sqrt ?_
  rw [mul_comm]
  exact Finset.sum_mul_sq_le_sq_mul_sq _ _ _

/-- The gradient computed from the factors. -/
theorem factor_grad {m n : ℕ} (hnm : n ≤ m) {J : Matrix (Fin m) (Fin n) ℝ} {π : Equiv.Perm (Fin n)} {Q : Matrix (Fin m) (Fin m) ℝ} {R : Matrix (Fin m) (Fin n) ℝ}
    (h : IsQR J π Q R) (f : Fin m → ℝ) (j : Fin n) :
    ∑ i ∈ Finset.range (j + 1), natMat R i j * natVec (Qᵀ *ᵥ f) i = halfGrad J f (π j) := by
  have e1 : ∑ i ∈ Finset.range (j + 1), natMat R i j * natVec (Qᵀ *ᵥ f) i = ∑ i ∈ Finset.range m, natMat R i j * natVec (Qᵀ *ᵥ f) i := by
    refine Finset.sum_subset (fun i hi => ?_) fun i hi hni => ?_
    · have := j.2
      simp only [Finset.mem_range] at hi ⊢
      omega
    · simp only [Finset.mem_range] at hi hni
      have := h.upper ⟨i, hi⟩ j (by simp only; omega)
      have e2 := natMat_val R ⟨i, hi⟩ j
      simp only at e2
      rw [e2, this, zero_mul]
  rw [e1, Finset.sum_range]
  have e3 : ∑ i : Fin m, natMat R i j * natVec (Qᵀ *ᵥ f) i = (Rᵀ *ᵥ (Qᵀ *ᵥ f)) j := by
    unfold Matrix.mulVec dotProduct
    refine Finset.sum_congr rfl fun i _ => ?_
    rw [natMat_val, natVec_val]
    rfl
  rw [e3, Matrix.mulVec_mulVec, ← Matrix.transpose_mul, ← h.factor]
  rfl

/-- The number that `mpfit` compares with `gtol` is the largest cosine of the angle between the deviates and a column of the Jacobian.
Missing from the full claim: deviates and columns too long for `mp_enorm`. -/
theorem C95_gradient_partial {m n : ℕ} (hnm : n ≤ m) (J : Matrix (Fin m) (Fin n) ℝ) (a : Arr2 XR) (ha : HoldsMat a J) (hJ : ColumnsBelow J (largeSize / m))
    (f : Fin m → ℝ) (w : ℕ → XR) (hw : HoldsVec w f) (hf : ∑ i, f i ^ 2 < (largeSize / m) ^ 2) :
    ∃ g, scaledGradient m n a w = fin g ∧ 0 ≤ g ∧ g ≤ 1 ∧ (∀ j, |halfGrad J f j| ≤ g * (length f * colLength J j)) ∧
      (g ≠ 0 → ∃ j, 0 < length f * colLength J j ∧ |halfGrad J f j| = g * (length f * colLength J j)) := by
  obtain ⟨π, Q, R, h, hip, hR, hcol, hq⟩ := C71_qr_partial hnm J a ha hJ
  have hqtf := (hq f w hw).2
  have hfn : vecNorm m w = fin (length f) := by
    have e : ∑ l ∈ Finset.range m, natVec f l ^ 2 = ∑ i, f i ^ 2 := by
      rw [Finset.sum_range]
      exact Finset.sum_congr rfl fun i _ => by rw [natVec_val]
    rw [vecNorm_exact hw.nat (by rw [e]; exact hf), e]
    rfl
  unfold scaledGradient gradNorm
  simp only [hfn]
  rw [zero_def, feq_fin]
  by_cases hF : length f = 0
  · refine ⟨0, by simp [hF], le_rfl, zero_le_one, fun j => ?_, fun h => absurd rfl h⟩
    have := halfGrad_le J f j
    rw [hF, zero_mul] at this
    rw [zero_mul]
    exact this
  have hFpos : 0 < length f := lt_of_le_of_ne (Real.sqrt_nonneg _) (Ne.symm hF)
  rw [if_neg (by simpa using hF)]
  obtain ⟨g, h1, h2, h3, h4⟩ := fold_max (fun j => if hj : j < n then colLength J (π ⟨j, hj⟩) else 0)
    (fun j => if hj : j < n then halfGrad J f (π ⟨j, hj⟩) / length f else 0) (List.range n) 0
    (fun g j => if feq ((qrInit m a).rdiag ((qrfac m n a).ipvt j)) (fin 0) then g
      else dmax g (fabs (sumFrom 0 (j + 1)
        (fun i => setDiag (qrfac m n a).a (qrfac m n a).rdiag i j * ((qtfLoop m n (qrfac m n a).a w).2 i / fin (length f))) /
          (qrInit m a).rdiag ((qrfac m n a).ipvt j)))) fun j hj g => by
      have hj : j < n := List.mem_range.1 hj
      beta_reduce
      have e1 := hip ⟨j, hj⟩
      simp only at e1
      rw [e1, hcol]
      have e2 : sumFrom 0 (j + 1) (fun i => setDiag (qrfac m n a).a (qrfac m n a).rdiag i j * ((qtfLoop m n (qrfac m n a).a w).2 i / fin (length f))) =
          fin (halfGrad J f (π ⟨j, hj⟩) / length f) := by
        rw [sumFrom_fin 0 (j + 1) _ (fun i => natMat R i j * (natVec (Qᵀ *ᵥ f) i / length f))]
        · rw [← factor_grad hnm h f ⟨j, hj⟩, Finset.sum_div, Finset.range_eq_Ico]
          congr 1
          exact Finset.sum_congr rfl fun i _ => by rw [mul_div_assoc]
        · intro i _ hi
          have hin : i < n := by omega
          have e3 := hR ⟨i, by omega⟩ ⟨j, hj⟩ (by simp only; omega)
          have e4 := hqtf ⟨i, hin⟩
          have e5 := natMat_val R ⟨i, by omega⟩ ⟨j, hj⟩
          have e6 := natVec_val (Qᵀ *ᵥ f) ⟨i, by omega⟩
          simp only at e3 e4 e5 e6
          rw [e3, e4, e5, e6, fin_div_of_ne hF, fin_mul]
      rw [e2]
      simp only [dif_pos hj]
      rfl
  have key : ∀ j : Fin n, colLength J j ≠ 0 → |halfGrad J f j / length f / colLength J j| = |halfGrad J f j| / (length f * colLength J j) := by
    intro j hc
    have hn : 0 ≤ length f * colLength J j := mul_nonneg hFpos.le (Real.sqrt_nonneg _)
    rw [div_div, abs_div, abs_of_nonneg hn]
  have hcp : ∀ j : Fin n, colLength J j ≠ 0 → 0 < length f * colLength J j := fun j hc =>
    mul_pos hFpos (lt_of_le_of_ne (Real.sqrt_nonneg _) (Ne.symm hc))
  refine ⟨g, h1, h2, ?_, ?_, ?_⟩
  · rcases h4 with h4 | ⟨j, hj, hc, h4⟩
    · rw [h4]; exact zero_le_one
    · have hj : j < n := List.mem_range.1 hj
      simp only [dif_pos hj] at hc h4
      rw [h4, key _ hc]
      exact div_le_one_of_le₀ (halfGrad_le _ _ _) (mul_nonneg hFpos.le (Real.sqrt_nonneg _))
  · intro j
    by_cases hc : colLength J j = 0
    · have := halfGrad_le J f j
      rw [hc, mul_zero] at this ⊢
      rwa [mul_zero]
    · have := h3 (π.symm j) (List.mem_range.2 (π.symm j).2)
      simp only [dif_pos (π.symm j).2, Fin.eta, Equiv.apply_symm_apply] at this
      have := this hc
      rw [key j hc, div_le_iff₀ (hcp j hc)] at this
      exact this
  · intro hg
    rcases h4 with h4 | ⟨j, hj, hc, h4⟩
    · exact absurd h4 hg
    · have hj : j < n := List.mem_range.1 hj
      simp only [dif_pos hj] at hc h4
      have hpos := hcp _ hc
      refine ⟨π ⟨j, hj⟩, hpos, ?_⟩
      rw [h4, key _ hc, div_mul_cancel₀ _ hpos.ne']

/-! ### Parameters at their limits -/

theorem pegSum_reals {m : ℕ} (f c : Fin m → ℝ) : pegSum m (reals f) (reals c) = .ok (fin (∑ i, c i * f i)) := by
  have key : pegSum m (reals f) (reals c) = .ok (fin (∑ i ∈ Finset.range m, natVec f i * natVec c i)) := by
    unfold pegSum
    refine forN_ok m _ _ (fun k => fin (∑ i ∈ Finset.range k, natVec f i * natVec c i)) (by simp [zero_def]) fun k hk => ?_
    have e1 := reals_rd f ⟨k, hk⟩
    have e2 := reals_rd c ⟨k, hk⟩
    have e3 := natVec_val f ⟨k, hk⟩
    have e4 := natVec_val c ⟨k, hk⟩
    simp only at e1 e2 e3 e4
    rw [e1, e2]
    simp only [ok_bind, fin_mul, fin_add, Finset.sum_range_succ, e3, e4]
    rfl
  rw [key, Finset.sum_range]
  congr 2
  exact Finset.sum_congr rfl fun i _ => by rw [natVec_val, natVec_val, mul_comm]

theorem reals_zero (m : ℕ) : List.replicate m (0 : XR) = reals fun _ : Fin m => 0 := by
  refine List.ext_getElem (by simp [reals]) fun k h1 h2 => ?_
  simp [reals, zero_def]

open Classical in
theorem pegColumn_reals {m : ℕ} {l : Limit} {q : FreeLim XR} (hd : Describes l q) (x : ℝ) (f c : Fin m → ℝ) :
    pegColumn m q (fin x) (reals f) (reals c) = .ok (reals fun i => if Outwards l x (∑ i, c i * f i) then 0 else c i) := by
  have hlp : (q.ql && feq (fin x) q.ll) = decide (l.lower = some x) := by
    cases h : l.lower with
    | none => simp [hd.ql, h]
    | some a =>
      rw [hd.ql, hd.ll a h, feq_fin, h]
      simp [eq_comm]
  have hup : (q.qu && feq (fin x) q.ul) = decide (l.upper = some x) := by
    cases h : l.upper with
    | none => simp [hd.qu, h]
    | some a =>
      rw [hd.qu, hd.ul a h, feq_fin, h]
      simp [eq_comm]
  unfold pegColumn
  simp only [hlp, hup, pegSum_reals]
  set s := ∑ i, c i * f i with hs
  unfold Outwards
  by_cases h1 : l.lower = some x <;> by_cases h2 : l.upper = some x
  · simp only [h1, h2, decide_true, Bool.or_self, if_true, ok_bind, Bool.true_and, zero_def, flt_fin, decide_eq_true_eq, true_and]
    rcases lt_trichotomy s 0 with h | h | h
    · simp [h, h.not_gt, reals_zero, ← zero_def]
    · simp [h]
    · simp [h, h.not_gt, reals_zero, ← zero_def]
  · simp only [h1, h2, decide_true, decide_false, Bool.or_false, if_true, ok_bind, Bool.true_and, Bool.false_and, zero_def, flt_fin, decide_eq_true_eq, true_and,
      false_and, or_false, Bool.false_eq_true, if_false]
    by_cases h : 0 < s
    · simp [h, reals_zero, ← zero_def]
    · simp [h]
  · simp only [h1, h2, decide_true, decide_false, Bool.false_or, if_true, ok_bind, Bool.true_and, Bool.false_and, zero_def, flt_fin, decide_eq_true_eq, true_and,
      false_and, false_or, Bool.false_eq_true, if_false]
    by_cases h : s < 0
    · simp [h, reals_zero, ← zero_def]
    · simp [h]
  · simp only [h1, h2, decide_false, Bool.or_self, Bool.false_and, false_and, or_self, Bool.false_eq_true, if_false]
    rfl

/-- The Jacobian after the columns of blocked parameters have been cleared. -/
noncomputable def cleared {m n : ℕ} (ls : Fin n → Limit) (x : Fin n → ℝ) (f : Fin m → ℝ) (J : Matrix (Fin m) (Fin n) ℝ) : Matrix (Fin m) (Fin n) ℝ :=
  open Classical in fun i j => if Outwards (ls j) (x j) (halfGrad J f j) then 0 else J i j

/-- The column of a parameter is cleared exactly if the parameter is at a limit and the sum of squares could be made smaller only by crossing it. -/
theorem C95_pegged {m n : ℕ} (lims : List (FreeLim XR)) (ls : Fin n → Limit) (hl : LimitArrays lims ls) (x : Fin n → ℝ) (f : Fin m → ℝ)
    (J : Matrix (Fin m) (Fin n) ℝ) :
    pegJac m lims (reals x) (reals f) (List.ofFn fun j => reals fun i => J i j) = .ok (List.ofFn fun j => reals fun i => cleared ls x f J i j) := by
  classical
  have hnone : (∀ j, (ls j).Free) → cleared ls x f J = J := by
    intro h
    funext i j
    unfold cleared
    rw [if_neg]
    rintro (⟨h1, _⟩ | ⟨h1, _⟩)
    · rw [(h j).1] at h1; cases h1
    · rw [(h j).2] at h1; cases h1
  unfold pegJac
  by_cases ha : anyLim lims = true
  · rw [if_pos ha]
    rcases hl with ⟨rfl, _⟩ | ⟨hlen, hd⟩
    · simp [anyLim] at ha
    refine loopMap_of_forall _ _ _ (by simp) fun j hj => ?_
    have hn : j < n := by simpa using hj
    have hjl : j < lims.length := by omega
    rw [rd_ok hjl]
    have e1 := reals_rd x ⟨j, hn⟩
    simp only at e1
    rw [e1, rd_ok (by simpa using hn)]
    simp only [ok_bind, List.getElem_ofFn]
    rw [pegColumn_reals (hd ⟨j, hn⟩ _ (List.getElem?_eq_getElem hjl))]
    rfl
  · rw [if_neg ha, hnone]
    · rfl
    intro j
    rcases hl with ⟨rfl, h⟩ | ⟨hlen, hd⟩
    · exact h j
    have hjl : (j : ℕ) < lims.length := by rw [hlen]; exact j.2
    have hq := hd j _ (List.getElem?_eq_getElem hjl)
    unfold anyLim at ha
    rw [List.any_eq_true] at ha
    have h2 : ¬(lims[(j : ℕ)].ql || lims[(j : ℕ)].qu) = true := fun e => ha ⟨_, List.getElem_mem hjl, e⟩
    rw [hq.ql, hq.qu] at h2
    simpa [Limit.Free] using h2

theorem holds_columns {m n : ℕ} (J : Matrix (Fin m) (Fin n) ℝ) : HoldsMat (ofColumns (List.ofFn fun j => reals fun i => J i j)) J := by
  intro i k
  simp [ofColumns, reals]

theorem holds_entries {m : ℕ} (f : Fin m → ℝ) : HoldsVec (ofEntries (reals f)) f := by
  intro i
  simp [ofEntries, reals]

theorem cleared_below {m n : ℕ} (ls : Fin n → Limit) (x : Fin n → ℝ) (f : Fin m → ℝ) (J : Matrix (Fin m) (Fin n) ℝ) {s : ℝ} (h : ColumnsBelow J s) :
    ColumnsBelow (cleared ls x f J) s := by
  classical
  intro k
  unfold cleared
  by_cases hb : Outwards (ls k) (x k) (halfGrad J f k)
  · simp only [if_pos hb]
    refine lt_of_le_of_lt ?_ (h k)
    simpa using Finset.sum_nonneg fun _ _ => sq_nonneg _
  · simp only [if_neg hb]
    exact h k

/-- The fit stops because of the gradient only at a point where, for every free parameter, the derivative of the sum of squares is small compared to the
lengths of the deviates and of the column, or the parameter is at a limit and the sum of squares could be made smaller only by crossing it.
Missing from the full claim: deviates and columns too long for `mp_enorm`. -/
theorem C95_stop_partial {m n : ℕ} (hnm : n ≤ m) (J : Matrix (Fin m) (Fin n) ℝ) (hJ : ColumnsBelow J (largeSize / m)) (f : Fin m → ℝ)
    (hf : ∑ i, f i ^ 2 < (largeSize / m) ^ 2) (lims : List (FreeLim XR)) (ls : Fin n → Limit) (hl : LimitArrays lims ls) (x : Fin n → ℝ) :
    ∃ jac g, pegJac m lims (reals x) (reals f) (List.ofFn fun j => reals fun i => J i j) = .ok jac ∧
      scaledGradient m n (ofColumns jac) (ofEntries (reals f)) = fin g ∧ 0 ≤ g ∧
      ∀ tol, 0 ≤ tol → (g ≤ tol ↔ ∀ j, Outwards (ls j) (x j) (halfGrad J f j) ∨ |halfGrad J f j| ≤ tol * (length f * colLength J j)) := by
  classical
  obtain ⟨g, h1, h2, _, h4, h5⟩ := C95_gradient_partial hnm (cleared ls x f J) _ (holds_columns _) (cleared_below ls x f J hJ) f _ (holds_entries f) hf
  refine ⟨_, g, C95_pegged lims ls hl x f J, h1, h2, fun tol htol => ?_⟩
  have hno : ∀ j, ¬ Outwards (ls j) (x j) (halfGrad J f j) →
      halfGrad (cleared ls x f J) f j = halfGrad J f j ∧ colLength (cleared ls x f J) j = colLength J j := by
    intro j hj
    have e : ∀ i, cleared ls x f J i j = J i j := fun i => if_neg hj
    constructor
    · exact Finset.sum_congr rfl fun i _ => by rw [e]
    · unfold colLength
      simp only [e]
  have hnn : ∀ j, 0 ≤ length f * colLength J j := fun j => mul_nonneg (Real.sqrt_nonneg _) (Real.sqrt_nonneg _)
  constructor
  · intro hg j
    by_cases hj : Outwards (ls j) (x j) (halfGrad J f j)
    · exact Or.inl hj
    · have := h4 j
      rw [(hno j hj).1, (hno j hj).2] at this
      exact Or.inr (this.trans (mul_le_mul_of_nonneg_right hg (hnn j)))
  · intro hall
    by_cases hg : g = 0
    · rw [hg]; exact htol
    · obtain ⟨j, hp, he⟩ := h5 hg
      by_cases hj : Outwards (ls j) (x j) (halfGrad J f j)
      · exfalso
        have : colLength (cleared ls x f J) j = 0 := by
          unfold colLength
          simp [cleared, if_pos hj]
        rw [this, mul_zero] at hp
        exact lt_irrefl _ hp
      · rw [(hno j hj).1, (hno j hj).2] at he
        rw [(hno j hj).2] at hp
        have := (hall j).resolve_left hj
        rw [he] at this
        exact le_of_mul_le_mul_right this hp

/-- For deviates that are linear in the parameters: if the gradient found is zero, no other values of the free parameters within their limits have a smaller
sum of squares.
Missing from the full claim: deviates and columns too long for `mp_enorm`. -/
theorem C95_minimum_partial {p m n : ℕ} (hnm : n ≤ m) (b : Fin m → ℝ) (A : Fin m → Fin p → ℝ) (dev : List XR → List XR) (D : (Fin p → ℝ) → Fin m → ℝ)
    (hlin : D = fun x i => b i + ∑ k, A i k * x k) (hD : Computes dev D) (fr : Fin n → Fin p)
    (lims : List (FreeLim XR)) (ls : Fin n → Limit) (hl : LimitArrays lims ls) (x : Fin p → ℝ) (hsz : n * m ≤ 2147483647)
    (hA : ColumnsBelow (fun i j => A i (fr j)) (largeSize / m)) (hf : ∑ i, D x i ^ 2 < (largeSize / m) ^ 2) :
    ∃ jac jac' g, fdJac dev (List.ofFn fun j => (fr j : ℕ)) lims m (reals x) (reals (D x)) = .ok jac ∧
      pegJac m lims (reals fun j => x (fr j)) (reals (D x)) jac = .ok jac' ∧
      scaledGradient m n (ofColumns jac') (ofEntries (reals (D x))) = fin g ∧
      (g = 0 → ∀ y, (∀ k, (∀ j, fr j ≠ k) → y k = x k) → (∀ j, (ls j).Within (y (fr j))) → ∑ i, D x i ^ 2 ≤ ∑ i, D y i ^ 2) := by
  have h1 := C94_linear b A dev (by rw [← hlin]; exact hD) fr lims ls hl x hsz
  obtain ⟨jac', g, h2, h3, hg0, h4⟩ := C95_stop_partial hnm (fun i j => A i (fr j)) hA (D x) hf lims ls hl fun j => x (fr j)
  refine ⟨_, jac', g, by rw [← h1, hlin], h2, h3, ?_⟩
  intro hg y hfix hin
  have hk := (h4 0 le_rfl).1 hg.le
  have hstep : ∀ i, D y i = D x i + ∑ k, A i k * (y k - x k) := by
    intro i
    rw [hlin]
    simp only [mul_sub, Finset.sum_sub_distrib]
    ring
  have hgrad : 0 ≤ ∑ i, D x i * ∑ k, A i k * (y k - x k) := by
    have e : ∑ i, D x i * ∑ k, A i k * (y k - x k) = ∑ k, (y k - x k) * ∑ i, A i k * D x i := by
      simp only [Finset.mul_sum]
      rw [Finset.sum_comm]
      exact Finset.sum_congr rfl fun k _ => Finset.sum_congr rfl fun i _ => by ring
    rw [e]
    refine Finset.sum_nonneg fun k _ => ?_
    by_cases hfr : ∃ j, fr j = k
    · obtain ⟨j, rfl⟩ := hfr
      rcases hk j with (⟨hb, hs⟩ | ⟨hb, hs⟩) | h0
      · exact mul_nonneg (by linarith [(hin j).1 _ hb]) hs.le
      · exact mul_nonneg_of_nonpos_of_nonpos (by linarith [(hin j).2 _ hb]) hs.le
      · rw [zero_mul] at h0
        have : ∑ i, A i (fr j) * D x i = 0 := abs_eq_zero.1 (le_antisymm h0 (abs_nonneg _))
        rw [this, mul_zero]
    · rw [hfix k fun j hj => hfr ⟨j, hj⟩, sub_self, zero_mul]
  have hsum : ∑ i, D y i ^ 2 = ∑ i, D x i ^ 2 + 2 * (∑ i, D x i * ∑ k, A i k * (y k - x k)) + ∑ i, (∑ k, A i k * (y k - x k)) ^ 2 := by
    rw [Finset.mul_sum, ← Finset.sum_add_distrib, ← Finset.sum_add_distrib]
    exact Finset.sum_congr rfl fun i _ => by rw [hstep]; ring
  have hsq : 0 ≤ ∑ i, (∑ k, A i k * (y k - x k)) ^ 2 := Finset.sum_nonneg fun _ _ => sq_nonneg _
  linarith

/-- One parameter with the lower limit 0, deviate `x + 1`: the fit stops at `x = 0` whatever the tolerance, and does not stop at `x = 2` for tolerances below 1. -/
example (dev : List XR → List XR) (hD : Computes dev fun (x : Fin 1 → ℝ) (_ : Fin 1) => x 0 + 1) (x : ℝ) (hx : |x| ≤ 10 ^ 6) :
    ∃ jac jac' g, fdJac dev [0] [⟨true, false, fin 0, fin 0⟩] 1 [fin x] [fin (x + 1)] = .ok jac ∧
      pegJac 1 [⟨true, false, fin 0, fin 0⟩] [fin x] [fin (x + 1)] jac = .ok jac' ∧
      scaledGradient 1 1 (ofColumns jac') (ofEntries [fin (x + 1)]) = fin g ∧ (x = 0 → g = 0) ∧ (x = 2 → 1 ≤ g) := by
  have hL : LimitArrays (n := 1) [⟨true, false, fin 0, fin 0⟩] fun _ => ⟨false, some 0, none⟩ := Or.inr ⟨rfl, fun j q hq => by
    fin_cases j
    simp at hq
    subst hq
    exact ⟨rfl, rfl, by simp, by simp⟩⟩
  have hlin : (fun (x : Fin 1 → ℝ) (_ : Fin 1) => x 0 + 1) = fun x i => (fun _ : Fin 1 => (1 : ℝ)) i + ∑ k, (fun (_ _ : Fin 1) => (1 : ℝ)) i k * x k := by
    funext x i
    simp [add_comm]
  have h1 := C94_linear (n := 1) (fun _ : Fin 1 => (1 : ℝ)) (fun (_ _ : Fin 1) => (1 : ℝ)) dev (by rw [← hlin]; exact hD) (fun _ => 0) _ _ hL (fun _ => x)
    (by norm_num)
  rw [abs_le] at hx
  obtain ⟨jac', g, h2, h3, hg0, h4⟩ := C95_stop_partial (m := 1) le_rfl (fun (_ _ : Fin 1) => (1 : ℝ)) (by intro k; simp; unfold largeSize; norm_num) (fun _ => x + 1)
    (by simp; unfold largeSize; nlinarith) _ _ hL fun _ => x
  have e : (fun (i : Fin 1) => (fun _ : Fin 1 => (1 : ℝ)) i + ∑ k, (fun (_ _ : Fin 1) => (1 : ℝ)) i k * (fun _ => x) k) = fun _ => x + 1 := by
    funext i
    simp [add_comm]
  rw [e] at h1
  refine ⟨_, jac', g, by simpa [reals] using h1, by simpa [reals] using h2, by simpa [reals] using h3, ?_, ?_⟩
  · rintro rfl
    have := (h4 0 le_rfl).2 fun j => Or.inl (Or.inl ⟨rfl, by simp [halfGrad]⟩)
    exact le_antisymm this hg0
  · rintro rfl
    by_contra hg
    have hg : g < 1 := not_le.1 hg
    have := (h4 g hg0).1 le_rfl 0
    rcases this with (⟨h, _⟩ | ⟨h, _⟩) | h
    · norm_num at h
    · cases h
    · have e1 : Real.sqrt ((2 + 1) ^ 2) = 3 := by rw [Real.sqrt_sq (by norm_num)]; norm_num
      simp only [halfGrad, length, colLength, Finset.univ_unique, Finset.sum_singleton, e1, one_mul, one_pow, Real.sqrt_one, mul_one] at h
      rw [abs_of_pos (by norm_num)] at h
      linarith

end Imfit
