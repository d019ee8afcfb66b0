import Verif.Props.C72

/-!
# C73: the reduction that the Levenberg-Marquardt solver predicts
-/

namespace Imfit
open XR Finset Spec Matrix

noncomputable section

/-- The triangle times the step. -/
theorem predVec_fin {n : ℕ} {ip : ℕ → ℕ} {r : Arr2 XR} {step : ℕ → XR} {R : ℕ → ℕ → ℝ} {v : ℕ → ℝ}
    (hr : ∀ i k, i ≤ k → k < n → r i k = fin (R i k)) (hs : ∀ j, j < n → step (ip j) = fin (v j)) (w0 : ℕ → XR) :
    ∀ i, i < n → predVec n r ip step w0 i = fin (∑ j ∈ Ico i n, R i j * v j) := by
  suffices H : ∀ t, t ≤ n → ∀ i, i < t → (List.range t).foldl (predStep r ip step) w0 i = fin (∑ j ∈ Ico i t, R i j * v j) from H n le_rfl
  intro t
  induction t with
  | zero => exact fun _ i hi => absurd hi (Nat.not_lt_zero i)
  | succ t ih =>
    intro ht i hi
    have ih' := ih (by omega)
    rw [List.range_succ, List.foldl_append, List.foldl_cons, List.foldl_nil]
    generalize (List.range t).foldl (predStep r ip step) w0 = W at ih'
    unfold predStep
    rw [if_pos (show i ≤ t by omega), hr i t (by omega) (by omega), hs t (by omega), fin_mul, Finset.sum_Ico_succ_top (by omega)]
    by_cases e : i = t
    · rw [e, Function.update_self, zero_def, fin_add, Finset.Ico_self, Finset.sum_empty]
    · rw [Function.update_of_ne e, ih' i (by omega), fin_add]

/-- `mp_enorm` of a short vector. -/
theorem vecNorm_exact {n : ℕ} {w : ℕ → XR} {u : ℕ → ℝ} (hw : ∀ l, l < n → w l = fin (u l)) (hs : ∑ l ∈ range n, u l ^ 2 < (largeSize / n) ^ 2) :
    vecNorm n w = fin (Real.sqrt (∑ l ∈ range n, u l ^ 2)) := by
  unfold vecNorm
  rw [List.map_congr_left (g := fun i => fin (u i)) fun l hl => hw l (List.mem_range.1 hl), enorm_exact, ← sum_list_range]
  intro i hi
  rw [List.length_range]
  have hn : (0 : ℝ) ≤ largeSize / n := div_nonneg (by unfold largeSize; norm_num) (Nat.cast_nonneg n)
  refine abs_lt_of_sq_lt_sq (lt_of_le_of_lt ?_ hs) hn
  exact Finset.single_le_sum (f := fun l => u l ^ 2) (fun l _ => sq_nonneg _) (Finset.mem_range.2 (List.mem_range.1 hi))

/-- The Jacobian times a damped step is not longer than the residuals. -/
theorem damped_short {m n : ℕ} {J : Matrix (Fin m) (Fin n) ℝ} {f : Fin m → ℝ} {d : Fin n → ℝ} {lam : ℝ} {x : Fin n → ℝ} (hl : 0 ≤ lam)
    (h : DampedNormal J f d lam x) : ∑ i, ((J *ᵥ x) i) ^ 2 ≤ ∑ i, f i ^ 2 := by
  have h1 := damped_gain h
  have h2 : 0 ≤ scaledSize d x := Finset.sum_nonneg fun j _ => sq_nonneg _
  have h3 : 0 ≤ modelSum J f x := Finset.sum_nonneg fun j _ => sq_nonneg _
  have h4 : modelSum J f 0 = ∑ i, f i ^ 2 := by
    unfold modelSum
    simp [Matrix.mulVec_zero]
  nlinarith [mul_nonneg hl h2]

/-- The square of the length of `R Pᵀ x` is that of `J x`. -/
theorem qr_image {m n : ℕ} (hnm : n ≤ m) {J : Matrix (Fin m) (Fin n) ℝ} {π : Equiv.Perm (Fin n)} {Q : Matrix (Fin m) (Fin m) ℝ}
    {R : Matrix (Fin m) (Fin n) ℝ} (h : IsQR J π Q R) (x : Fin n → ℝ) :
    ∑ i ∈ range n, (∑ j ∈ Ico i n, natMat R i j * natVec (x ∘ π) j) ^ 2 = ∑ i, ((J *ᵥ x) i) ^ 2 := by
  have hup : ∀ i a, a < i → natMat R i a = 0 := fun i a hia => by
    unfold natMat
    split
    · exact h.upper _ _ hia
    · rfl
  have e1 : ∀ i ∈ range n, (∑ j ∈ Ico i n, natMat R i j * natVec (x ∘ π) j) ^ 2 = (∑ j ∈ range n, natMat R i j * natVec (x ∘ π) j) ^ 2 := by
    intro i hi
    rw [sum_tri (by have := Finset.mem_range.1 hi; omega) (hup i)]
  rw [Finset.sum_congr rfl e1, sum_rows hnm (g := fun i => (∑ j ∈ range n, natMat R i j * natVec (x ∘ π) j) ^ 2)]
  · have e2 : ∀ i : Fin m, ∑ j ∈ range n, natMat R i j * natVec (x ∘ π) j = (R *ᵥ (x ∘ π)) i := by
      intro i
      rw [Finset.sum_range]
      exact Finset.sum_congr rfl fun j _ => by rw [natMat_val, natVec_val]
    have e3 : J *ᵥ x = Q *ᵥ (R *ᵥ (x ∘ π)) := by
      rw [Matrix.mulVec_mulVec, ← h.factor]
      ext i
      unfold Matrix.mulVec dotProduct
      exact (Equiv.sum_comp π fun j => J i j * x j).symm
    have e4 : (Q *ᵥ (R *ᵥ (x ∘ π))) ⬝ᵥ (Q *ᵥ (R *ᵥ (x ∘ π))) = (R *ᵥ (x ∘ π)) ⬝ᵥ (R *ᵥ (x ∘ π)) := by
      rw [Matrix.dotProduct_mulVec, ← Matrix.mulVec_transpose, Matrix.mulVec_mulVec, h.orth, Matrix.one_mulVec]
    rw [e3]
    unfold dotProduct at e4
    simp only [← sq] at e4
    rw [e4]
    exact Finset.sum_congr rfl fun i _ => by rw [e2]
  · intro i h1 h2
    rw [Finset.sum_eq_zero fun j hj => by rw [hup i j (by have := Finset.mem_range.1 hj; omega), zero_mul], zero_pow two_ne_zero]

/-- The two norms that enter `prered`. -/
theorem stepLA_norms {m n : ℕ} (hnm : n ≤ m) (J : Matrix (Fin m) (Fin n) ℝ) (D : Fin n → ℝ) (a : Arr2 XR) (d : ℕ → XR)
    (ha : HoldsMat a J) (hd : HoldsVec d D) (hJ : ColumnsBelow J (largeSize / m)) (r : Arr2 XR)
    (hr : ∀ i k, i ≤ k → k < n → r i k = setDiag (qrfac m n a).a (qrfac m n a).rdiag i k)
    (s : Fin n → ℝ) (step wa3 : ℕ → XR) (hs : HoldsVec step s) (hj : ∑ i, ((J *ᵥ s) i) ^ 2 < (largeSize / n) ^ 2) (hx : scaledSize D s < (largeSize / n) ^ 2)
    (par xnorm : XR) (dir : List XR) (stop : Bool) :
    (stepLA n r (qrfac m n a).ipvt d step wa3 par xnorm dir stop).jnorm = fin (Real.sqrt (∑ i, ((J *ᵥ s) i) ^ 2)) ∧
    (stepLA n r (qrfac m n a).ipvt d step wa3 par xnorm dir stop).pnorm = fin (Real.sqrt (scaledSize D s)) := by
  obtain ⟨π, Q, R, h, hip, hR, -, -⟩ := C71_qr_partial hnm J a ha hJ
  have hrR : ∀ i k, i ≤ k → k < n → r i k = fin (natMat R i k) := fun i k hik hk => by
    have e := hR ⟨i, by omega⟩ ⟨k, hk⟩ hik
    have e2 := natMat_val R ⟨i, by omega⟩ ⟨k, hk⟩
    simp only at e e2
    rw [hr i k hik hk, e, e2]
  have hsv : ∀ j, j < n → step ((qrfac m n a).ipvt j) = fin (natVec (s ∘ π) j) := fun j hj => by
    have e := hip ⟨j, hj⟩
    have e2 := natVec_val (s ∘ π) ⟨j, hj⟩
    simp only at e e2
    rw [e, hs, e2]
    rfl
  constructor
  · rw [← qr_image hnm h s] at hj ⊢
    exact vecNorm_exact (predVec_fin hrR hsv wa3) hj
  · have e : ∑ l ∈ range n, (natVec D l * natVec s l) ^ 2 = scaledSize D s := by
      unfold scaledSize
      rw [Finset.sum_range]
      exact Finset.sum_congr rfl fun i _ => by rw [natVec_val, natVec_val]
    rw [← e] at hx ⊢
    exact vecNorm_exact (fun l hl => by rw [hd.nat l hl, hs.nat l hl, fin_mul]) hx

/-- Without limits, in exact arithmetic: `prered` is the part of the sum of squares that the linear model of the residuals loses with the step `-x`, and
`dirder` is half of the derivative of that sum along the step, in the same units. The step is one found by `mp_lmpar` (`C72_step_partial`).
Missing from the full claim: steps shortened because of a limit, where it is false (`C73_limits_false`); very long vectors, for which `mp_enorm` is not exact. -/
theorem C73_predicted_partial {m n : ℕ} (hnm : n ≤ m) (J : Matrix (Fin m) (Fin n) ℝ) (f : Fin m → ℝ) (D : Fin n → ℝ) (a : Arr2 XR) (d : ℕ → XR)
    (ha : HoldsMat a J) (hd : HoldsVec d D) (hJ : ColumnsBelow J (largeSize / m)) (r : Arr2 XR)
    (hr : ∀ i k, i ≤ k → k < n → r i k = setDiag (qrfac m n a).a (qrfac m n a).rdiag i k)
    (p : ℝ) (hp : 0 ≤ p) (x : Fin n → ℝ) (hn : DampedNormal J f D p x) (step wa3 : ℕ → XR) (hs : HoldsVec step (-x))
    (hf : ∑ i, f i ^ 2 < (largeSize / m) ^ 2) (hx : scaledSize D x < (largeSize / n) ^ 2) (hf0 : f ≠ 0) (w : ℕ → XR) (hw : HoldsVec w f)
    (xnorm : XR) (dir : List XR) (stop : Bool) :
    let la := stepLA n r (qrfac m n a).ipvt d step wa3 (fin p) xnorm dir stop
    (preRed la 1 (vecNorm m w)).1 = fin ((modelSum J f 0 - modelSum J f x) / modelSum J f 0) ∧
    (preRed la 1 (vecNorm m w)).2 = fin ((-x ⬝ᵥ (Jᵀ *ᵥ f)) / modelSum J f 0) := by
  intro la
  have hm0 : modelSum J f 0 = ∑ i, f i ^ 2 := by
    unfold modelSum
    simp [Matrix.mulVec_zero]
  have hn0 : 0 < n ∨ n = 0 := by omega
  have hfpos : 0 < ∑ i, f i ^ 2 := by
    refine lt_of_le_of_ne (Finset.sum_nonneg fun _ _ => sq_nonneg _) fun e => hf0 ?_
    ext i
    rw [eq_comm, Finset.sum_eq_zero_iff_of_nonneg fun j _ => sq_nonneg _] at e
    exact pow_eq_zero_iff two_ne_zero |>.1 (e i (Finset.mem_univ i))
  have hfn : vecNorm m w = fin (Real.sqrt (∑ i, f i ^ 2)) := by
    have e : ∑ l ∈ range m, natVec f l ^ 2 = ∑ i, f i ^ 2 := by
      rw [Finset.sum_range]
      exact Finset.sum_congr rfl fun i _ => by rw [natVec_val]
    rw [vecNorm_exact hw.nat (by rw [e]; exact hf), e]
  have himg : ∑ i, ((J *ᵥ (-x)) i) ^ 2 = ∑ i, ((J *ᵥ x) i) ^ 2 := by
    rw [Matrix.mulVec_neg]
    exact Finset.sum_congr rfl fun i _ => by rw [Pi.neg_apply, neg_sq]
  have hshort := damped_short hp hn
  have hlt : ∑ i, ((J *ᵥ (-x)) i) ^ 2 < (largeSize / n) ^ 2 := by
    rw [himg]
    refine lt_of_lt_of_le (lt_of_le_of_lt hshort hf) ?_
    rcases hn0 with h0 | h0
    · have hL : (0 : ℝ) ≤ largeSize := by unfold largeSize; norm_num
      have h1 : (0 : ℝ) < n := by exact_mod_cast h0
      have h2 : (n : ℝ) ≤ m := by exact_mod_cast hnm
      exact pow_le_pow_left₀ (div_nonneg hL (h1.le.trans h2)) (div_le_div_of_nonneg_left hL h1 h2) 2
    · exfalso
      subst h0
      unfold scaledSize at hx
      norm_num at hx
  have hsz : scaledSize D (-x) = scaledSize D x := by
    unfold scaledSize
    exact Finset.sum_congr rfl fun i _ => by rw [Pi.neg_apply, mul_neg, neg_sq]
  obtain ⟨hjn, hpn⟩ := stepLA_norms hnm J D a d ha hd hJ r hr (-x) step wa3 hs hlt (by rw [hsz]; exact hx) (fin p) xnorm dir stop
  rw [himg] at hjn
  rw [hsz] at hpn
  change la.jnorm = _ at hjn
  change la.pnorm = _ at hpn
  have hgain := damped_gain hn
  have hA : 0 ≤ ∑ i, ((J *ᵥ x) i) ^ 2 := Finset.sum_nonneg fun j _ => sq_nonneg _
  have hB : 0 ≤ scaledSize D x := Finset.sum_nonneg fun j _ => sq_nonneg _
  have hdir : x ⬝ᵥ (Jᵀ *ᵥ f) = ∑ i, ((J *ᵥ x) i) ^ 2 + p * scaledSize D x := by
    have e := damped_grad hn
    have e2 : Jᵀ *ᵥ f = (Jᵀ * J) *ᵥ x + fun j => p * (D j ^ 2 * x j) := by
      rw [← e]
      abel
    rw [e2, dotProduct_add, ← Matrix.mulVec_mulVec, Matrix.dotProduct_mulVec, Matrix.vecMul_transpose]
    congr 1
    · unfold dotProduct
      exact Finset.sum_congr rfl fun i _ => by ring
    · unfold dotProduct scaledSize
      rw [Finset.mul_sum]
      exact Finset.sum_congr rfl fun i _ => by ring
  rw [hm0] at hgain ⊢
  have hlap : la.par = fin p := rfl
  have hF := Real.sqrt_pos.2 hfpos
  unfold preRed
  simp only [hjn, hpn, hfn, hlap, one_def, fin_mul, lit_def, mul_one, one_mul]
  rw [fsqrt_fin_of_nonneg hp, fin_mul, fin_div_of_ne hF.ne', fin_div_of_ne hF.ne', fin_mul, fin_mul, fin_div_of_ne (by norm_num), fin_add, fin_add, fin_neg]
  generalize ∑ i, ((J *ᵥ x) i) ^ 2 = A at *
  generalize scaledSize D x = B at *
  generalize ∑ i, f i ^ 2 = F at *
  have hF2 : Real.sqrt F * Real.sqrt F = F := Real.mul_self_sqrt hfpos.le
  have hA2 : Real.sqrt A * Real.sqrt A = A := Real.mul_self_sqrt hA
  have hB2 : Real.sqrt B * Real.sqrt B = B := Real.mul_self_sqrt hB
  have hp2 : Real.sqrt p * Real.sqrt p = p := Real.mul_self_sqrt hp
  have e1 : Real.sqrt A / Real.sqrt F * (Real.sqrt A / Real.sqrt F) = A / F := by
    rw [div_mul_div_comm, hA2, hF2]
  have e2 : Real.sqrt p * Real.sqrt B / Real.sqrt F * (Real.sqrt p * Real.sqrt B / Real.sqrt F) = p * B / F := by
    rw [div_mul_div_comm, hF2, mul_mul_mul_comm, hp2, hB2]
  rw [e1, e2, hgain, neg_dotProduct, hdir]
  constructor
  · congr 1
    push_cast
    field_simp
  · congr 1
    rw [neg_div, add_div]

/-- One parameter, Jacobian `(3, 4)`, residuals `(3, 4)`: the Gauss-Newton step is -1 and the linear model loses everything, so that `prered` is 1. -/
example (a : Arr2 XR) (w d step wa3 : ℕ → XR) (ha : HoldsMat a (!![3; 4] : Matrix (Fin 2) (Fin 1) ℝ)) (hw : HoldsVec w (![3, 4] : Fin 2 → ℝ))
    (hd : HoldsVec d (![5] : Fin 1 → ℝ)) (hs : HoldsVec step (-![1] : Fin 1 → ℝ)) :
    (preRed (stepLA 1 (setDiag (qrfac 2 1 a).a (qrfac 2 1 a).rdiag) (qrfac 2 1 a).ipvt d step wa3 (fin 0) 0 [] false) 1 (vecNorm 2 w)).1 = fin 1 := by
  have hcol : ColumnsBelow (!![3; 4] : Matrix (Fin 2) (Fin 1) ℝ) (largeSize / (2 : ℕ)) := by
    intro k
    fin_cases k
    rw [Fin.sum_univ_two]
    unfold largeSize
    norm_num
  have hn : DampedNormal (!![3; 4] : Matrix (Fin 2) (Fin 1) ℝ) ![3, 4] ![5] 0 ![1] := by
    unfold DampedNormal
    ext i
    fin_cases i
    simp [Matrix.mulVec, dotProduct, Matrix.mul_apply]
  have h := (C73_predicted_partial (by norm_num) _ ![3, 4] ![5] a d ha hd hcol _ (fun _ _ _ _ => rfl) 0 le_rfl ![1] hn step wa3 hs
    (by rw [Fin.sum_univ_two]; unfold largeSize; norm_num) (by unfold scaledSize largeSize; norm_num)
    (by intro e; have := congrFun e 0; norm_num at this) w hw 0 [] false).1
  rw [h]
  simp [modelSum, Matrix.mulVec, dotProduct]
  norm_num

/-- With a limit, the factor `alpha` is applied twice: once to the step and once to the product of the Jacobian with it. One parameter at 0 with lower limit
-1/2, Jacobian 1, residual 1, the full Gauss-Newton step -1: half of the step is taken. The linear model loses 3/4 of the sum of squares; the code predicts
1/16. A function that is in fact linear has a gain ratio of 12 instead of 1. -/
theorem C73_limits_false :
    ∃ (lims : List (FreeLim XR)) (J : Matrix (Fin 1) (Fin 1) ℝ) (f x s : Fin 1 → ℝ),
      DampedNormal J f (fun _ => 1) 0 x ∧
      newPoint lims [fin 0] [fin (x 0)] = .ok ([fin (s 0)], fin (1 / 2)) ∧
      (modelSum J f 0 - modelSum J f (-s)) / modelSum J f 0 = 3 / 4 ∧
      ∀ (a : Arr2 XR) (d step wa3 : ℕ → XR), HoldsMat a J → HoldsVec d (fun _ : Fin 1 => (1 : ℝ)) → HoldsVec step s →
        let la := stepLA 1 (setDiag (qrfac 1 1 a).a (qrfac 1 1 a).rdiag) (qrfac 1 1 a).ipvt d step wa3 0 0 [fin (x 0)] false
        (preRed la (fin (1 / 2)) (fin (Real.sqrt (modelSum J f 0)))).1 = fin (1 / 16) ∧
        gainRatio (fin (3 / 4)) (preRed la (fin (1 / 2)) (fin (Real.sqrt (modelSum J f 0)))).1 = fin 12 := by
  refine ⟨[⟨true, false, fin (-(1 / 2)), fin 0⟩], !![1], ![1], ![1], ![-(1 / 2)], ?_, ?_, ?_, ?_⟩
  · unfold DampedNormal
    ext i
    fin_cases i
    simp [Matrix.mulVec, dotProduct, Matrix.mul_apply]
  · have h1 : pegged (⟨true, false, fin (-(1 / 2)), fin 0⟩ : FreeLim XR) (fin 0) (fin (-1)) = fin (-1) := by
      norm_num [pegged]
    have h2 : shorten (⟨true, false, fin (-(1 / 2)), fin 0⟩ : FreeLim XR) (fin 0) (fin (-1)) (fin (-1)) (fin 1) = fin (1 / 2) := by
      have h10 : |(-1 : ℝ)| = 1 := by norm_num
      have : ((MACHEP0 : ℚ) : ℝ) < 1 := by unfold MACHEP0; norm_num
      simp only [shorten, lit_def, fabs_fin, h10, flt_fin, this, decide_true, fin_add, Bool.true_and]
      norm_num [dmin]
    have h3 : snap (⟨true, false, fin (-(1 / 2)), fin 0⟩ : FreeLim XR) (fin (-(1 / 2))) = fin (-(1 / 2)) := by
      unfold snap
      simp
    have hn : -(fin 1 : XR) = fin (-1) := by simp
    have h5 : (0 : ℝ) + -1 * (1 / 2) = -(1 / 2) := by norm_num
    simp only [newPoint, anyLim, List.any_cons, Bool.true_or, if_true, List.length_cons, List.length_nil, Nat.zero_add, loopAcc, loopMap, rd,
      List.getElem?_cons_zero, ok_bind, pure_eq_ok, List.nil_append, one_def, hn, h1, h2, fin_mul, fin_add, h5, h3, Matrix.cons_val_zero, Bool.or_false]
  · simp [modelSum, Matrix.mulVec, dotProduct]
    norm_num
  · intro a d step wa3 ha hd hs la
    have hJ1 : ColumnsBelow (!![1] : Matrix (Fin 1) (Fin 1) ℝ) (largeSize / (1 : ℕ)) := by
      intro k
      fin_cases k
      unfold largeSize
      norm_num
    have hi : ∑ i, (((!![1] : Matrix (Fin 1) (Fin 1) ℝ) *ᵥ ![-(1 / 2)]) i) ^ 2 = 1 / 4 := by
      simp [Matrix.mulVec, dotProduct]
      norm_num
    have hz : scaledSize (fun _ : Fin 1 => (1 : ℝ)) ![-(1 / 2)] = 1 / 4 := by
      simp [scaledSize]
      norm_num
    obtain ⟨hj, hp⟩ := stepLA_norms le_rfl (!![1] : Matrix (Fin 1) (Fin 1) ℝ) (fun _ => 1) a d ha hd hJ1 _ (fun _ _ _ _ => rfl) ![-(1 / 2)] step wa3 hs
      (by rw [hi]; unfold largeSize; norm_num) (by rw [hz]; unfold largeSize; norm_num) 0 0 [fin 1] false
    rw [hi] at hj
    rw [hz] at hp
    have hm : modelSum (!![1] : Matrix (Fin 1) (Fin 1) ℝ) ![1] 0 = 1 := by simp [modelSum, Matrix.mulVec, dotProduct]
    have hq : Real.sqrt (1 / 4) = 1 / 2 := by
      rw [show (1 / 4 : ℝ) = (1 / 2) ^ 2 by norm_num]
      exact Real.sqrt_sq (by norm_num)
    rw [hq] at hj hp
    change la.jnorm = _ at hj
    change la.pnorm = _ at hp
    have hpr : (preRed la (fin (1 / 2)) (fin (Real.sqrt (modelSum (!![1] : Matrix (Fin 1) (Fin 1) ℝ) ![1] 0)))).1 = fin (1 / 16) := by
      have hlp : la.par = fin 0 := rfl
      rw [hm, Real.sqrt_one]
      unfold preRed
      simp only [hj, hp, hlp, fin_mul, mul_zero, lit_def]
      rw [fsqrt_fin_of_nonneg le_rfl, fin_mul, fin_div_of_ne one_ne_zero, fin_div_of_ne one_ne_zero, fin_mul, fin_mul, fin_div_of_ne (by norm_num), fin_add]
      congr 1
      rw [Real.sqrt_zero]
      norm_num
    refine ⟨hpr, ?_⟩
    rw [hpr]
    unfold gainRatio
    rw [zero_def, feq_fin, if_neg (by norm_num), fin_div_of_ne (by norm_num)]
    norm_num

end

end Imfit
