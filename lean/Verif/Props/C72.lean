import Verif.Props.C71
import Verif.Lemmas.LmPar

/-!
# C72: the step of the Levenberg-Marquardt solver
-/

namespace Imfit
open XR Finset Spec Matrix

noncomputable section

/-- What the linear model predicts at another step. -/
theorem modelSum_expand {m n : ℕ} (J : Matrix (Fin m) (Fin n) ℝ) (f : Fin m → ℝ) (x y : Fin n → ℝ) :
    modelSum J f y = modelSum J f x - 2 * ((y - x) ⬝ᵥ (Jᵀ *ᵥ f - (Jᵀ * J) *ᵥ x)) + ∑ i, ((J *ᵥ (y - x)) i) ^ 2 := by
  have e : (y - x) ⬝ᵥ (Jᵀ *ᵥ f - (Jᵀ * J) *ᵥ x) = ∑ i, (J *ᵥ (y - x)) i * (f i - (J *ᵥ x) i) := by
    rw [← Matrix.mulVec_mulVec, ← Matrix.mulVec_sub, Matrix.dotProduct_mulVec, Matrix.vecMul_transpose]
    rfl
  have e2 : ∀ i, (J *ᵥ y) i = (J *ᵥ x) i + (J *ᵥ (y - x)) i := fun i => by
    rw [Matrix.mulVec_sub, Pi.sub_apply]
    ring
  unfold modelSum
  rw [e, Finset.mul_sum, ← Finset.sum_sub_distrib, ← Finset.sum_add_distrib]
  refine Finset.sum_congr rfl fun i _ => ?_
  rw [e2]
  ring

/-- The normal equations, solved for the gradient. -/
theorem damped_grad {m n : ℕ} {J : Matrix (Fin m) (Fin n) ℝ} {f : Fin m → ℝ} {d : Fin n → ℝ} {lam : ℝ} {x : Fin n → ℝ} (h : DampedNormal J f d lam x) :
    Jᵀ *ᵥ f - (Jᵀ * J) *ᵥ x = fun j => lam * (d j ^ 2 * x j) := by
  unfold DampedNormal at h
  rw [← h, Matrix.add_mulVec, add_sub_cancel_left]
  ext j
  rw [Matrix.smul_mulVec, Pi.smul_apply, Matrix.mulVec_diagonal, smul_eq_mul]

/-- A solution of the damped normal equations is the best step of its size. -/
theorem damped_best {m n : ℕ} {J : Matrix (Fin m) (Fin n) ℝ} {f : Fin m → ℝ} {d : Fin n → ℝ} {lam : ℝ} {x : Fin n → ℝ} (hl : 0 ≤ lam)
    (h : DampedNormal J f d lam x) : BestOfItsSize J f d x := by
  intro y hy
  rw [modelSum_expand J f x y, damped_grad h]
  have e : (y - x) ⬝ᵥ (fun j => lam * (d j ^ 2 * x j)) = lam * ((scaledSize d y - scaledSize d x) / 2 - (∑ j, (d j * (y j - x j)) ^ 2) / 2) := by
    unfold scaledSize dotProduct
    rw [← Finset.sum_sub_distrib, ← sub_div, ← Finset.sum_sub_distrib, div_eq_mul_inv, Finset.sum_mul, Finset.mul_sum]
    refine Finset.sum_congr rfl fun j _ => ?_
    rw [Pi.sub_apply]
    ring
  rw [e]
  have h1 : 0 ≤ ∑ j, (d j * (y j - x j)) ^ 2 := Finset.sum_nonneg fun j _ => sq_nonneg _
  have h2 : 0 ≤ ∑ i, ((J *ᵥ (y - x)) i) ^ 2 := Finset.sum_nonneg fun j _ => sq_nonneg _
  have h3 : 0 ≤ lam * ((scaledSize d x - scaledSize d y) / 2 + (∑ j, (d j * (y j - x j)) ^ 2) / 2) := mul_nonneg hl (by linarith)
  nlinarith

/-- What the linear model gains. -/
theorem damped_gain {m n : ℕ} {J : Matrix (Fin m) (Fin n) ℝ} {f : Fin m → ℝ} {d : Fin n → ℝ} {lam : ℝ} {x : Fin n → ℝ} (h : DampedNormal J f d lam x) :
    modelSum J f 0 - modelSum J f x = ∑ i, ((J *ᵥ x) i) ^ 2 + 2 * lam * scaledSize d x := by
  rw [modelSum_expand J f x 0, damped_grad h]
  have e : ((0 : Fin n → ℝ) - x) ⬝ᵥ (fun j => lam * (d j ^ 2 * x j)) = -(lam * scaledSize d x) := by
    unfold scaledSize dotProduct
    rw [Finset.mul_sum, ← Finset.sum_neg_distrib]
    refine Finset.sum_congr rfl fun j _ => ?_
    rw [Pi.sub_apply, Pi.zero_apply]
    ring
  rw [e, zero_sub, Matrix.mulVec_neg]
  simp only [Pi.neg_apply, neg_sq]
  ring

/-- The step improves the linear model unless the gradient is zero. -/
theorem damped_descent {m n : ℕ} {J : Matrix (Fin m) (Fin n) ℝ} {f : Fin m → ℝ} {d : Fin n → ℝ} {lam : ℝ} {x : Fin n → ℝ} (hl : 0 ≤ lam)
    (hd : ∀ j, 0 < d j) (h : DampedNormal J f d lam x) (hg : Jᵀ *ᵥ f ≠ 0) : modelSum J f x < modelSum J f 0 := by
  have hgain := damped_gain h
  have h1 : 0 ≤ ∑ i, ((J *ᵥ x) i) ^ 2 := Finset.sum_nonneg fun j _ => sq_nonneg _
  have h2 : 0 ≤ scaledSize d x := Finset.sum_nonneg fun j _ => sq_nonneg _
  have h3 := mul_nonneg hl h2
  by_contra hn
  have e1 : ∑ i, ((J *ᵥ x) i) ^ 2 = 0 := by nlinarith
  have e2 : lam * scaledSize d x = 0 := by nlinarith
  apply hg
  have hJx : J *ᵥ x = 0 := by
    ext i
    rw [Finset.sum_eq_zero_iff_of_nonneg fun j _ => sq_nonneg _] at e1
    exact pow_eq_zero_iff two_ne_zero |>.1 (e1 i (Finset.mem_univ i))
  have hgr := damped_grad h
  rw [← Matrix.mulVec_mulVec, hJx, Matrix.mulVec_zero, sub_zero] at hgr
  rw [hgr]
  ext j
  rcases mul_eq_zero.1 e2 with e | e
  · simp [e]
  · unfold scaledSize at e
    rw [Finset.sum_eq_zero_iff_of_nonneg fun j _ => sq_nonneg _] at e
    have := pow_eq_zero_iff two_ne_zero |>.1 (e j (Finset.mem_univ j))
    have := (mul_eq_zero.1 this).resolve_left (hd j).ne'
    simp [this]

/-- A diagonal element zero ends the factorisation. -/
theorem qr_rank {m n : ℕ} {A : Matrix (Fin m) (Fin n) ℝ} {π : Equiv.Perm (Fin n)} {Q : Matrix (Fin m) (Fin m) ℝ} {R : Matrix (Fin m) (Fin n) ℝ}
    (h : IsQR A π Q R) (hnm : n ≤ m) : ∀ k, k < n → natMat R k k = 0 → ∀ s, k ≤ s → s < n → ∀ b, b < n → natMat R s b = 0 := by
  intro k hk h0 s hks hs b hb
  have e := natMat_val R ⟨k, by omega⟩ ⟨k, hk⟩
  simp only at e
  rw [h0] at e
  have e' := natMat_val R ⟨s, by omega⟩ ⟨b, hb⟩
  simp only at e'
  rw [e']
  rcases Nat.lt_or_ge b s with hbs | hbs
  · exact h.upper _ _ hbs
  · have hp := h.pivot ⟨k, by omega⟩ ⟨k, hk⟩ ⟨b, hb⟩ rfl (by rw [Fin.le_def]; simp only; omega)
    rw [← e, zero_pow two_ne_zero] at hp
    have hp0 := le_antisymm hp (Finset.sum_nonneg fun _ _ => sq_nonneg _)
    rw [Finset.sum_eq_zero_iff_of_nonneg fun j _ => sq_nonneg _] at hp0
    exact pow_eq_zero_iff two_ne_zero |>.1 (hp0 ⟨s, by omega⟩ (Finset.mem_filter.2 ⟨Finset.mem_univ _, by rw [Fin.le_def]; exact hks⟩))

/-- Rows below the triangle do not matter. -/
theorem sum_rows {m n : ℕ} (hnm : n ≤ m) {g : ℕ → ℝ} (hg : ∀ i, n ≤ i → i < m → g i = 0) : ∑ r ∈ range n, g r = ∑ i : Fin m, g i := by
  rw [← Finset.sum_range, range_split hnm, Finset.sum_eq_zero (s := Ico n m), add_zero]
  intro i hi
  exact hg i (Finset.mem_Ico.1 hi).1 (Finset.mem_Ico.1 hi).2

/-- The arguments that `mpfit` passes to `mp_lmpar` describe the linear model of the residuals. -/
theorem lmCtx_of {m n : ℕ} (hnm : n ≤ m) {J : Matrix (Fin m) (Fin n) ℝ} {f : Fin m → ℝ} {π : Equiv.Perm (Fin n)} {Q : Matrix (Fin m) (Fin m) ℝ}
    {R : Matrix (Fin m) (Fin n) ℝ} (h : IsQR J π Q R) {ip : ℕ → ℕ} (hip : ∀ k : Fin n, ip k = π k) {d qtb : ℕ → XR} {D : Fin n → ℝ} (hd : HoldsVec d D)
    (hD : ∀ j, 0 < D j) {delta : ℝ} (hdel : 0 < delta) (hq : ∀ j : Fin n, qtb j = fin ((Qᵀ *ᵥ f) ⟨j, lt_of_lt_of_le j.2 hnm⟩)) :
    LmCtx n ip (fun l => if hl : l < n then (π.symm ⟨l, hl⟩ : ℕ) else 0) (natMat R) (natVec (Qᵀ *ᵥ f)) (natVec D) delta d qtb := by
  refine ⟨⟨fun j hj => ?_, fun l hl => ?_, fun j hj => ?_, fun l hl => ?_⟩, fun k a hka => ?_, qr_rank h hnm, fun j hj => ?_, fun l hl => ?_, fun l hl => ?_, hdel⟩
  · rw [hip ⟨j, hj⟩]
    exact (π _).2
  · rw [dif_pos hl]
    exact (π.symm _).2
  · have e := hip ⟨j, hj⟩
    simp only at e
    rw [e, dif_pos (π _).2]
    simp
  · rw [dif_pos hl, hip]
    simp
  · unfold natMat
    split
    · exact h.upper _ _ hka
    · rfl
  · have e := hq ⟨j, hj⟩
    have e2 := natVec_val (Qᵀ *ᵥ f) ⟨j, by omega⟩
    simp only at e e2
    rw [e, e2]
  · exact hd.nat l hl
  · have e := natVec_val D ⟨l, hl⟩
    simp only at e
    rw [e]
    exact hD _

/-- The equations solved by `mp_lmpar` are the damped normal equations. -/
theorem damped_of_solves {m n : ℕ} (hnm : n ≤ m) {J : Matrix (Fin m) (Fin n) ℝ} {f : Fin m → ℝ} {π : Equiv.Perm (Fin n)} {Q : Matrix (Fin m) (Fin m) ℝ}
    {R : Matrix (Fin m) (Fin n) ℝ} (h : IsQR J π Q R) {ip : ℕ → ℕ} (hip : ∀ k : Fin n, ip k = π k) {D : Fin n → ℝ} {p : ℝ} {w : ℕ → ℝ}
    (hs : Solves n ip (natMat R) (natVec (Qᵀ *ᵥ f)) (natVec D) p w) : DampedNormal J f D p fun j => w (π.symm j) := by
  have hup : ∀ (a : Fin n) i, n ≤ i → i < m → natMat R i a = 0 := fun a i h1 h2 => by
    have e := natMat_val R ⟨i, h2⟩ a
    simp only at e
    rw [e]
    exact h.upper _ _ (by simp only; omega)
  have hG : ∀ a b : Fin n, ∑ r ∈ range n, natMat R r a * natMat R r b = (Jᵀ * J) (π a) (π b) := fun a b => by
    rw [sum_rows hnm (g := fun r => natMat R r a * natMat R r b) fun i h1 h2 => by rw [hup a i h1 h2, zero_mul]]
    have e := congrFun (congrFun (qr_gram h) a) b
    rw [Matrix.submatrix_apply] at e
    rw [e, Matrix.mul_apply]
    exact Finset.sum_congr rfl fun i _ => by rw [natMat_val, natMat_val, Matrix.transpose_apply]
  have hH : ∀ a : Fin n, ∑ r ∈ range n, natMat R r a * natVec (Qᵀ *ᵥ f) r = (Jᵀ *ᵥ f) (π a) := fun a => by
    rw [sum_rows hnm (g := fun r => natMat R r a * natVec (Qᵀ *ᵥ f) r) fun i h1 h2 => by rw [hup a i h1 h2, zero_mul]]
    have e : (Jᵀ *ᵥ f) (π a) = ((J.submatrix id π)ᵀ *ᵥ f) a := rfl
    rw [e, h.factor, Matrix.transpose_mul, ← Matrix.mulVec_mulVec]
    generalize Qᵀ *ᵥ f = g
    exact Finset.sum_congr rfl fun i _ => by rw [natMat_val, natVec_val]; rfl
  unfold DampedNormal
  ext l
  obtain ⟨a, rfl⟩ := π.surjective l
  have e := hs a a.2
  rw [hH, hip, natVec_val, Finset.sum_range] at e
  rw [← e, Matrix.add_mulVec, Pi.add_apply, Matrix.smul_mulVec, Pi.smul_apply, Matrix.mulVec_diagonal, smul_eq_mul]
  have e2 : ((Jᵀ * J) *ᵥ fun j => w (π.symm j)) (π a) = ∑ b : Fin n, (∑ r ∈ range n, natMat R r a * natMat R r b) * w b := by
    unfold Matrix.mulVec dotProduct
    rw [← Equiv.sum_comp π]
    refine Finset.sum_congr rfl fun b _ => ?_
    rw [hG]
    beta_reduce
    rw [Equiv.symm_apply_apply]
  rw [e2, Equiv.symm_apply_apply]
  ring

/-- What holds of a step `x` found with the parameter `p`. -/
structure LmStep {m n : ℕ} (J : Matrix (Fin m) (Fin n) ℝ) (f : Fin m → ℝ) (D x : Fin n → ℝ) (p : ℝ) : Prop where
  nonneg : 0 ≤ p
  normal : DampedNormal J f D p x
  best : BestOfItsSize J f D x
  descent : Jᵀ *ᵥ f ≠ 0 → modelSum J f x < modelSum J f 0

/-- `mp_lmpar` in exact arithmetic, for the factorisation of a Jacobian and the residuals as `mpfit` prepares them. The Jacobian may be rank-deficient.
The parameter found is a number that is not negative and the step solves the damped normal equations for it. So the step is the best one of its size for the
linear model, and makes it better unless the gradient is zero. The triangle in `r` is as before, so that the next call in the inner loop finds the same problem.
A parameter of zero means that the Gauss-Newton step was not longer than 1.1 times the bound.
Missing from the full claim: that the step is not longer than 1.1 times the bound also for other parameters (the iteration is cut off after ten turns);
Jacobians with columns longer than `1.304e19 / m`. -/
theorem C72_step_partial {m n : ℕ} (hnm : n ≤ m) (J : Matrix (Fin m) (Fin n) ℝ) (f : Fin m → ℝ) (D : Fin n → ℝ) (a : Arr2 XR) (w d : ℕ → XR)
    (ha : HoldsMat a J) (hw : HoldsVec w f) (hd : HoldsVec d D) (hJ : ColumnsBelow J (largeSize / m)) (hD : ∀ j, 0 < D j)
    (delta par0 : ℝ) (hdel : 0 < delta) (hpar : 0 ≤ par0) (x0 sdiag0 : ℕ → XR) (r : Arr2 XR)
    (hr : ∀ i k, i ≤ k → k < n → r i k = setDiag (qrfac m n a).a (qrfac m n a).rdiag i k) :
    let out := lmpar n r (qrfac m n a).ipvt d (qtfLoop m n (qrfac m n a).a w).2 (fin delta) (fin par0) x0 sdiag0
    ∃ (p : ℝ) (x : Fin n → ℝ), out.1 = fin p ∧ HoldsVec out.2.1 x ∧ LmStep J f D x p ∧
      (∀ i k, i ≤ k → k < n → out.2.2 i k = r i k) ∧
      (p = 0 → ∃ s, vecNorm n (fun l => d l * out.2.1 l) = fin s ∧ s ≤ 11 / 10 * delta) := by
  intro out
  obtain ⟨π, Q, R, h, hip, hR, -, hq⟩ := C71_qr_partial hnm J a ha hJ
  obtain ⟨-, hq2⟩ := hq f w hw
  have ctx := lmCtx_of hnm h hip hd hD hdel hq2
  have hrR : ∀ i k, i ≤ k → k < n → r i k = fin (natMat R i k) := fun i k hik hk => by
    have e := hR ⟨i, by omega⟩ ⟨k, hk⟩ hik
    have e2 := natMat_val R ⟨i, by omega⟩ ⟨k, hk⟩
    simp only at e e2
    rw [hr i k hik hk, e, e2]
  obtain ⟨p, v, h1, h2, h3, h4, h5, h6⟩ := ctx.lmpar hrR hpar x0 sdiag0
  have hn := damped_of_solves hnm h hip h4
  refine ⟨p, fun j => v (π.symm j), h2, fun j => ?_, ⟨h1, hn, damped_best h1 hn, damped_descent h1 hD hn⟩, fun i k hik hk => ?_, h6⟩
  · have e := h3 (π.symm j) (π.symm j).2
    rw [hip, Equiv.apply_symm_apply] at e
    exact e
  · rw [h5 i k hik hk, hrR i k hik hk]

/-- One parameter, the Jacobian `(3, 4)`, residuals `(3, 4)`, scale 5 and a wide bound: whatever the arrays held before, the step solves `(25 + 25 p) x = 25`. -/
example (a : Arr2 XR) (w d x0 s0 : ℕ → XR) (ha : HoldsMat a (!![3; 4] : Matrix (Fin 2) (Fin 1) ℝ)) (hw : HoldsVec w (![3, 4] : Fin 2 → ℝ))
    (hd : HoldsVec d (![5] : Fin 1 → ℝ)) :
    ∃ (p : ℝ) (x : Fin 1 → ℝ),
      HoldsVec (lmpar 1 (setDiag (qrfac 2 1 a).a (qrfac 2 1 a).rdiag) (qrfac 2 1 a).ipvt d (qtfLoop 2 1 (qrfac 2 1 a).a w).2 (fin 100) (fin 0) x0 s0).2.1 x ∧
      0 ≤ p ∧ (25 + 25 * p) * x 0 = 25 := by
  obtain ⟨p, x, -, h2, h3, -, -⟩ := C72_step_partial (by norm_num) _ _ _ a w d ha hw hd (by
    intro k
    fin_cases k
    rw [Fin.sum_univ_two]
    unfold largeSize
    norm_num) (by intro j; fin_cases j; simp) 100 0 (by norm_num) le_rfl x0 s0 _ (fun _ _ _ _ => rfl)
  refine ⟨p, x, h2, h3.nonneg, ?_⟩
  have e := congrFun h3.normal 0
  simp only [Matrix.mulVec, dotProduct, Finset.univ_unique, Fin.default_eq_zero, Finset.sum_singleton, Fin.sum_univ_two, Matrix.transpose_apply] at e
  simp at e
  rw [Matrix.mul_apply, Fin.sum_univ_two] at e
  simp at e
  nlinarith

end

end Imfit
