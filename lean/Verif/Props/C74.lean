import Verif.Props.C73
import Verif.Props.C28
import Verif.Lemmas.Covar

/-!
# C74: covariance matrix and errors of the Levenberg-Marquardt solver
-/

namespace Imfit
open XR Finset Spec Matrix

noncomputable section

/-- The inverse of the leading block, as a matrix. -/
theorem block_inverse {p : ℕ} {R T : ℕ → ℕ → ℝ} (hup : ∀ i a, a < i → R i a = 0)
    (h : ∀ i j, i ≤ j → j < p → ∑ s ∈ Ico i (j + 1), T i s * R s j = if i = j then 1 else 0) :
    (Matrix.of fun i j : Fin p => if (i : ℕ) ≤ j then T i j else 0) * (Matrix.of fun i j : Fin p => R i j) = 1 := by
  ext i j
  rw [Matrix.mul_apply]
  simp only [Matrix.of_apply]
  rw [← Finset.sum_range (n := p) fun s => (if (i : ℕ) ≤ s then T i s else 0) * R s j, Matrix.one_apply]
  simp only [Fin.ext_iff]
  rcases Nat.lt_or_ge (j : ℕ) i with hji | hij
  · rw [if_neg (by omega)]
    refine Finset.sum_eq_zero fun s _ => ?_
    by_cases e : (i : ℕ) ≤ s
    · rw [hup s j (by omega), mul_zero]
    · rw [if_neg e, zero_mul]
  · rw [← h i j hij j.2, range_split i.2.le, Finset.sum_eq_zero, zero_add, ← Finset.sum_Ico_consecutive _ (show (i : ℕ) ≤ j + 1 by omega) j.2]
    · rw [Finset.sum_eq_zero (s := Ico ((j : ℕ) + 1) p) fun s hs => by rw [hup s j (by have := Finset.mem_Ico.1 hs; omega), mul_zero], add_zero]
      exact Finset.sum_congr rfl fun s hs => by rw [if_pos (Finset.mem_Ico.1 hs).1]
    · intro s hs
      have := Finset.mem_range.1 hs
      rw [if_neg (by omega), zero_mul]

/-- The covariance, in the order of the factorisation. -/
def covBlock (p : ℕ) (T : ℕ → ℕ → ℝ) (a b : ℕ) : ℝ := if a < p ∧ b < p then ∑ s ∈ Ico (max a b) p, T a s * T b s else 0

theorem covBlock_comm (p : ℕ) (T : ℕ → ℕ → ℝ) (a b : ℕ) : covBlock p T a b = covBlock p T b a := by
  unfold covBlock
  rw [max_comm a b]
  by_cases e : a < p ∧ b < p
  · rw [if_pos e, if_pos e.symm]
    exact Finset.sum_congr rfl fun s _ => mul_comm _ _
  · rw [if_neg e, if_neg fun e' => e e'.symm]

/-- The covariance is inverse to the products of the columns. -/
theorem covBlock_inv {n p : ℕ} (hpn : p ≤ n) {R T : ℕ → ℕ → ℝ} (hup : ∀ i a, a < i → R i a = 0)
    (h : ∀ i j, i ≤ j → j < p → ∑ s ∈ Ico i (j + 1), T i s * R s j = if i = j then 1 else 0) {a c : ℕ} (ha : a < p) (hc : c < p) :
    ∑ b ∈ range p, covBlock p T a b * ∑ r ∈ range n, R r b * R r c = if a = c then 1 else 0 := by
  have h1 := block_inverse hup h
  set Th : Matrix (Fin p) (Fin p) ℝ := Matrix.of fun i j : Fin p => if (i : ℕ) ≤ j then T i j else 0 with hTh
  set Rh : Matrix (Fin p) (Fin p) ℝ := Matrix.of fun i j : Fin p => R i j with hRh
  have h2 : Rh * Th = 1 := mul_eq_one_comm.1 h1
  have hW : ∀ a b : Fin p, covBlock p T a b = (Th * Thᵀ) a b := by
    intro a b
    unfold covBlock
    rw [if_pos ⟨a.2, b.2⟩, Matrix.mul_apply]
    simp only [hTh, Matrix.transpose_apply, Matrix.of_apply]
    rw [← Finset.sum_range (n := p) fun s => (if (a : ℕ) ≤ s then T a s else 0) * (if (b : ℕ) ≤ s then T b s else 0),
      range_split (show max (a : ℕ) b ≤ p by omega), Finset.sum_eq_zero (s := range (max (a : ℕ) b)), zero_add]
    · refine Finset.sum_congr rfl fun s hs => ?_
      have := Finset.mem_Ico.1 hs
      rw [if_pos (by omega), if_pos (by omega)]
    · intro s hs
      have := Finset.mem_range.1 hs
      rcases Nat.lt_or_ge s a with h3 | h3
      · rw [if_neg (by omega), zero_mul]
      · rw [if_neg (show ¬ (b : ℕ) ≤ s by omega), mul_zero]
  have hG : ∀ b c : Fin p, ∑ r ∈ range n, R r b * R r c = (Rhᵀ * Rh) b c := by
    intro b c
    rw [Matrix.mul_apply]
    simp only [hRh, Matrix.transpose_apply, Matrix.of_apply]
    rw [← Finset.sum_range (n := p) fun r => R r b * R r c, range_split hpn, Finset.sum_eq_zero (s := Ico p n), add_zero]
    intro r hr
    have := Finset.mem_Ico.1 hr
    rw [hup r b (by omega), zero_mul]
  have key : (Th * Thᵀ) * (Rhᵀ * Rh) = 1 := by
    rw [Matrix.mul_assoc, ← Matrix.mul_assoc Thᵀ, ← Matrix.transpose_mul, h2, Matrix.transpose_one, Matrix.one_mul, h1]
  have e := congrFun (congrFun key ⟨a, ha⟩) ⟨c, hc⟩
  rw [Matrix.mul_apply, Matrix.one_apply] at e
  simp only [Fin.mk.injEq] at e
  rw [← e, Finset.sum_range]
  exact Finset.sum_congr rfl fun b _ => by rw [← hW ⟨a, ha⟩ b, ← hG b ⟨c, hc⟩]

/-- A small pivot means a combination of the columns that is short. -/
theorem short_combination {m n p : ℕ} (hnm : n ≤ m) {J : Matrix (Fin m) (Fin n) ℝ} {π : Equiv.Perm (Fin n)} {Q : Matrix (Fin m) (Fin m) ℝ}
    {R : Matrix (Fin m) (Fin n) ℝ} (hqr : IsQR J π Q R) (hp : p < n) {T : ℕ → ℕ → ℝ}
    (h : ∀ i j, i ≤ j → j < p → ∑ s ∈ Ico i (j + 1), T i s * natMat R s j = if i = j then 1 else 0) :
    ∃ x : Fin n → ℝ, 1 ≤ ∑ j, x j ^ 2 ∧ ∑ i, ((J *ᵥ x) i) ^ 2 = natMat R p p ^ 2 := by
  have hup : ∀ i a, a < i → natMat R i a = 0 := fun i a hia => by
    unfold natMat
    split
    · exact hqr.upper _ _ hia
    · rfl
  have h1 := block_inverse hup h
  set Th : Matrix (Fin p) (Fin p) ℝ := Matrix.of fun i j : Fin p => if (i : ℕ) ≤ j then T i j else 0 with hTh
  set Rh : Matrix (Fin p) (Fin p) ℝ := Matrix.of fun i j : Fin p => natMat R i j with hRh
  have h2 : Rh * Th = 1 := mul_eq_one_comm.1 h1
  set y : Fin p → ℝ := -(Th *ᵥ fun i : Fin p => natMat R i p) with hy
  set v : ℕ → ℝ := fun b => if b = p then 1 else natVec y b with hv
  refine ⟨fun l => v (π.symm l), ?_, ?_⟩
  · have e : ∑ j, (v (π.symm j)) ^ 2 = ∑ b : Fin n, v b ^ 2 := Equiv.sum_comp π.symm fun b : Fin n => v b ^ 2
    rw [e]
    refine le_trans (le_of_eq ?_) (Finset.single_le_sum (f := fun b : Fin n => v b ^ 2) (fun b _ => sq_nonneg _) (Finset.mem_univ ⟨p, hp⟩))
    simp [hv]
  · rw [← qr_image hnm hqr]
    have hvv : ∀ j, j < n → natVec ((fun l => v (π.symm l)) ∘ π) j = v j := fun j hj => by
      have e := natVec_val ((fun l => v (π.symm l)) ∘ π) ⟨j, hj⟩
      simp only [Function.comp_apply, Equiv.symm_apply_apply] at e
      exact e
    have hrow : ∀ i, i < n → ∑ j ∈ Ico i n, natMat R i j * natVec ((fun l => v (π.symm l)) ∘ π) j = if i = p then natMat R p p else 0 := by
      intro i hi
      rw [← sum_tri hi.le (fun a ha => hup i a ha)]
      rw [Finset.sum_congr rfl fun j hj => by rw [hvv j (Finset.mem_range.1 hj)]]
      rw [range_split (show p + 1 ≤ n by omega), Finset.sum_eq_zero (s := Ico (p + 1) n), add_zero, Finset.sum_range_succ]
      · have hvp : v p = 1 := by simp [hv]
        rw [hvp, mul_one]
        have hlow : ∀ j ∈ range p, natMat R i j * v j = natMat R i j * natVec y j := fun j hj => by
          have := Finset.mem_range.1 hj
          simp only [hv]
          rw [if_neg (by omega)]
        rw [Finset.sum_congr rfl hlow]
        rcases Nat.lt_or_ge i p with hip | hip
        · rw [if_neg (by omega), Finset.sum_range]
          have e : ∑ j : Fin p, natMat R i j * natVec y j = (Rh *ᵥ y) ⟨i, hip⟩ := by
            unfold Matrix.mulVec dotProduct
            exact Finset.sum_congr rfl fun j _ => by rw [natVec_val]; rfl
          rw [e, hy, Matrix.mulVec_neg, Matrix.mulVec_mulVec, h2, Matrix.one_mulVec, Pi.neg_apply]
          ring
        · rw [Finset.sum_eq_zero, zero_add]
          · by_cases e : i = p
            · rw [if_pos e, e]
            · rw [if_neg e, hup i p (by omega)]
          · intro j hj
            have := Finset.mem_range.1 hj
            rw [hup i j (by omega), zero_mul]
      · intro j hj
        have := Finset.mem_Ico.1 hj
        have : v j = 0 := by
          simp only [hv]
          rw [if_neg (by omega)]
          unfold natVec
          rw [dif_neg (by omega)]
        rw [this, mul_zero]
    rw [Finset.sum_congr rfl fun i hi => by rw [hrow i (Finset.mem_range.1 hi)], Finset.sum_eq_single p]
    · rw [if_pos rfl]
    · intro b _ hb
      rw [if_neg hb]
      norm_num
    · intro hn
      exact absurd (Finset.mem_range.2 hp) hn

/-- `mp_covar` on the factorisation of a Jacobian, in exact arithmetic: the array holds the covariance matrix of some of the parameters, with zeros for the
others, and the errors are the square roots of its diagonal. If no combination of the columns is too short in comparison with the columns, these are all parameters.
Missing from the full claim: the Jacobian is not that at the parameters that are returned (`C74_point_false`); Jacobians with columns longer than
`1.304e19 / m`. -/
theorem C74_covariance_partial {m n : ℕ} (hn : 0 < n) (hnm : n ≤ m) (J : Matrix (Fin m) (Fin n) ℝ) (a : Arr2 XR) (ha : HoldsMat a J)
    (hJ : ColumnsBelow J (largeSize / m)) (tol : ℝ) (htol : 0 ≤ tol) (wa0 : ℕ → XR) (r : Arr2 XR)
    (hr : ∀ i k, i ≤ k → k < n → r i k = setDiag (qrfac m n a).a (qrfac m n a).rdiag i k) :
    ∃ (K : Finset (Fin n)) (C : Matrix (Fin n) (Fin n) ℝ), CovOn J K C ∧ HoldsMat (covar n r (qrfac m n a).ipvt (fin tol) wa0) C ∧
      (∀ j : Fin n, 0 ≤ C j j ∧ xError (covar n r (qrfac m n a).ipvt (fin tol) wa0) j = fin (Real.sqrt (C j j))) ∧
      (WellConditioned J tol → K = Finset.univ ∧ C * (Jᵀ * J) = 1) := by
  obtain ⟨π, Q, R, h, hip, hR, -, -⟩ := C71_qr_partial hnm J a ha hJ
  have hrR : ∀ i k, i ≤ k → k < n → r i k = fin (natMat R i k) := fun i k hik hk => by
    have e := hR ⟨i, by omega⟩ ⟨k, hk⟩ hik
    have e2 := natMat_val R ⟨i, by omega⟩ ⟨k, hk⟩
    simp only at e e2
    rw [hr i k hik hk, e, e2]
  have hup : ∀ i a, a < i → natMat R i a = 0 := fun i a hia => by
    unfold natMat
    split
    · exact h.upper _ _ hia
    · rfl
  have hperm : PermOn n (qrfac m n a).ipvt (fun l => if hl : l < n then (π.symm ⟨l, hl⟩ : ℕ) else 0) := by
    refine ⟨fun j hj => ?_, fun l hl => ?_, fun j hj => ?_, fun l hl => ?_⟩
    · rw [hip ⟨j, hj⟩]
      exact (π _).2
    · rw [dif_pos hl]
      exact (π.symm _).2
    · have e := hip ⟨j, hj⟩
      simp only at e
      rw [e, dif_pos (π _).2]
      simp
    · rw [dif_pos hl, hip]
      simp
  obtain ⟨p, T, hpn, hbig, hsmall, hinv, hcov⟩ := covar_fin hperm hn hrR htol wa0
  have hG : ∀ a b : Fin n, ∑ r ∈ range n, natMat R r a * natMat R r b = (Jᵀ * J) (π a) (π b) := fun a b => by
    rw [sum_rows hnm (g := fun r => natMat R r a * natMat R r b) fun i h1 h2 => by rw [hup i a (by omega), zero_mul]]
    have e := congrFun (congrFun (qr_gram h) a) b
    rw [Matrix.submatrix_apply] at e
    rw [e, Matrix.mul_apply]
    exact Finset.sum_congr rfl fun i _ => by rw [natMat_val, natMat_val, Matrix.transpose_apply]
  set K : Finset (Fin n) := Finset.univ.filter fun l => (π.symm l : ℕ) < p with hK
  set C : Matrix (Fin n) (Fin n) ℝ := fun i j => covBlock p T (π.symm i) (π.symm j) with hC
  have hmem : ∀ l, l ∈ K ↔ (π.symm l : ℕ) < p := fun l => by simp [hK]
  have hCov : CovOn J K C := by
    refine ⟨?_, fun i j hi => ?_, fun i hi l hl => ?_⟩
    · ext i j
      exact covBlock_comm p T _ _
    · rw [hmem] at hi
      simp only [hC]
      unfold covBlock
      rw [if_neg (fun e => hi e.1)]
    · rw [hmem] at hi hl
      have e := covBlock_inv hpn hup hinv hi hl
      have e2 : ((π.symm i : ℕ) = π.symm l) ↔ i = l := by
        rw [← Fin.ext_iff]
        exact π.symm.injective.eq_iff
      simp only [e2] at e
      rw [← e, hK, Finset.sum_filter, ← Equiv.sum_comp π]
      have e3 := Finset.sum_range (n := n) fun b => if b < p then covBlock p T (π.symm i) b * ∑ r ∈ range n, natMat R r b * natMat R r (π.symm l) else 0
      rw [range_split hpn, Finset.sum_eq_zero (s := Ico p n), add_zero] at e3
      · rw [Finset.sum_congr rfl fun b hb => if_pos (Finset.mem_range.1 hb)] at e3
        rw [e3]
        refine Finset.sum_congr rfl fun b _ => ?_
        rw [Equiv.symm_apply_apply, hG b (π.symm l), Equiv.apply_symm_apply]
        simp only [hC]
        rw [Equiv.symm_apply_apply]
      · intro b hb
        have := Finset.mem_Ico.1 hb
        rw [if_neg (by omega)]
  have hHolds : HoldsMat (covar n r (qrfac m n a).ipvt (fin tol) wa0) C := by
    intro i j
    have e := hcov (π.symm i) (π.symm j) (π.symm i).2 (π.symm j).2
    rw [hip, hip, Equiv.apply_symm_apply, Equiv.apply_symm_apply] at e
    exact e
  refine ⟨K, C, hCov, hHolds, fun j => ?_, fun hw => ?_⟩
  · have hnn : 0 ≤ C j j := by
      simp only [hC]
      unfold covBlock
      split
      · exact Finset.sum_nonneg fun s _ => mul_self_nonneg _
      · exact le_rfl
    refine ⟨hnn, ?_⟩
    unfold xError
    rw [hHolds j j, zero_def, flt_fin]
    rcases hnn.lt_or_eq with hlt | heq
    · rw [if_pos (by simpa using hlt), fsqrt_fin_of_nonneg hnn]
    · rw [if_neg (by simp [← heq]), ← heq, Real.sqrt_zero]
  · have hpe : p = n := by
      by_contra hne
      have hlt : p < n := by omega
      obtain ⟨s, hs1, hs2⟩ := hw
      obtain ⟨x, hx1, hx2⟩ := short_combination hnm h hlt hinv
      have g1 := hs1 x
      rw [hx2] at g1
      have g2 : natMat R p p ^ 2 ≤ (tol * |natMat R 0 0|) ^ 2 := by
        rw [← sq_abs (natMat R p p)]
        exact pow_le_pow_left₀ (abs_nonneg _) (hsmall hlt) 2
      rw [mul_pow, sq_abs] at g2
      have g3 : natMat R 0 0 ^ 2 ≤ ∑ i, J i (π ⟨0, hn⟩) ^ 2 := by
        have e := hG ⟨0, hn⟩ ⟨0, hn⟩
        rw [Matrix.mul_apply] at e
        have e2 : ∑ i, Jᵀ (π ⟨0, hn⟩) i * J i (π ⟨0, hn⟩) = ∑ i, J i (π ⟨0, hn⟩) ^ 2 :=
          Finset.sum_congr rfl fun i _ => by rw [Matrix.transpose_apply, sq]
        rw [← e2, ← e]
        have e3 := Finset.single_le_sum (f := fun r => natMat R r 0 * natMat R r 0) (fun r _ => mul_self_nonneg _) (Finset.mem_range.2 hn)
        simp only at e3 ⊢
        rw [sq]
        exact e3
      have g4 := hs2 (π ⟨0, hn⟩)
      have g5 : tol ^ 2 * natMat R 0 0 ^ 2 ≤ tol ^ 2 * ∑ i, J i (π ⟨0, hn⟩) ^ 2 := mul_le_mul_of_nonneg_left g3 (sq_nonneg _)
      have g6 : s ^ 2 ≤ s ^ 2 * ∑ j, x j ^ 2 := le_mul_of_one_le_right (sq_nonneg _) hx1
      linarith
    have hKu : K = Finset.univ := by
      ext l
      rw [hmem, hpe]
      simp
    refine ⟨hKu, ?_⟩
    ext i l
    have e := hCov.inv i (by rw [hKu]; exact Finset.mem_univ _) l (by rw [hKu]; exact Finset.mem_univ _)
    rw [hKu] at e
    rw [Matrix.mul_apply, e, Matrix.one_apply]

/-- One parameter with Jacobian `(3, 4)`: the error is 1/5. -/
example (a : Arr2 XR) (wa0 : ℕ → XR) (ha : HoldsMat a (!![3; 4] : Matrix (Fin 2) (Fin 1) ℝ)) :
    xError (covar 1 (setDiag (qrfac 2 1 a).a (qrfac 2 1 a).rdiag) (qrfac 2 1 a).ipvt (fin (1 / 10 ^ 14)) wa0) 0 = fin (1 / 5) := by
  obtain ⟨K, C, -, -, h3, h4⟩ := C74_covariance_partial (by norm_num) (by norm_num) _ a ha (by
    intro k
    fin_cases k
    rw [Fin.sum_univ_two]
    unfold largeSize
    norm_num) (1 / 10 ^ 14) (by norm_num) wa0 _ (fun _ _ _ _ => rfl)
  obtain ⟨-, h5⟩ := h4 ⟨5, fun x => by
    rw [Fin.sum_univ_two]
    simp only [Matrix.mulVec, dotProduct, Finset.univ_unique, Fin.default_eq_zero, Finset.sum_singleton]
    simp
    nlinarith, fun j => by
    fin_cases j
    rw [Fin.sum_univ_two]
    norm_num⟩
  have e := congrFun (congrFun h5 0) 0
  rw [Matrix.mul_apply, Finset.univ_unique, Finset.sum_singleton, Matrix.mul_apply, Fin.sum_univ_two] at e
  simp at e
  have e2 := (h3 0).2
  have e3 : C 0 0 = (1 / 5) ^ 2 := by
    linarith
  rw [e3, Real.sqrt_sq (by norm_num)] at e2
  exact e2

/-- One deviate with derivative `10^12`, equal to 1 at 1. -/
def steepDev : List XR → List XR
  | [fin r] => [fin (10 ^ 12 * (r - 1) + 1)]
  | _ => [fin 1]

/-- The linear algebra for `steepDev` at 1: the step is `-1 / 10^12`. -/
def steepOuter : Nat → OuterLA XR := fun _ => ⟨true, fin 1, fin (10 ^ 12)⟩
def steepInner : Nat → InnerLA XR := fun _ => ⟨[fin (1 / 10 ^ 12)], fin 0, fin 1, fin 1, fin (10 ^ 12 - 1), false⟩

/-- The deviate is zero after the first step. The fit ends there, because the step is small, without a new Jacobian: the only derivative was taken next to 1. -/
theorem C74_point_false : ∃ nfev orig best,
    levMarFit steepDev 1 (fin (1 / 100)) false [] steepOuter steepInner 2 [fin 1] =
      .ok ⟨[fin (1 - 1 / 10 ^ 12)], MP_OK_PAR, best, orig, nfev, [(false, [fin 1]), (true, [fin 1 + fdStep none (fin 1)]), (false, [fin (1 - 1 / 10 ^ 12)])]⟩ := by
  have d1 : steepDev [fin 1] = [fin 1] := by norm_num [steepDev]
  have d0 : steepDev [fin (1 - 1 / 10 ^ 12)] = [fin 0] := by norm_num [steepDev]
  have n1 := enorm_one 1 (by norm_num)
  have n0 : mpEnorm [fin 0] = fin 0 := by
    obtain ⟨r, h1, -, -, -, h5⟩ := C39_bounds_partial [0]
    have : r = 0 := h5.2 (by simp)
    rw [this] at h1
    exact h1
  have e4 : badConf (levMarConf (fin (1 / 100))) = false := by
    simp only [badConf, levMarConf, zero_def, lit_def, flt_fin]
    norm_num
  have e8 : outerExit (levMarConf (fin (1 / 100))) (steepOuter 0) = none := by
    simp only [outerExit, levMarConf, steepOuter, lit_def, fle_fin, Bool.not_true, Bool.false_eq_true, if_false]
    rw [if_neg]
    norm_num
  have hnew : newPoint [] [fin 1] (steepInner 0).dir = .ok ([fin (1 - 1 / 10 ^ 12)], fin 1) := by
    show (do let wa2 ← loopMap 1 _; pure (wa2, 1) : Res _) = _
    simp only [loopMap, rd, steepInner, List.getElem?_cons_zero, ok_bind, pure_eq_ok, List.nil_append, fin_neg, fin_add, one_def, sub_eq_add_neg]
  have hact : actRed (fin 1) (fin 0) = fin 1 := by
    have a : flt (lit (1 / 10) * fin 0) (fin 1) = true := by
      simp only [lit_def, fin_mul, flt_fin]; norm_num
    unfold actRed
    rw [a, if_pos rfl, fin_div_of_ne (by norm_num), fin_mul, one_def, fin_sub]
    norm_num
  have hpre : preRed (steepInner 0) (fin 1) (fin 1) = (fin 1, fin (-1)) := by
    simp only [preRed, steepInner, fin_mul, lit_def, mul_zero]
    rw [fsqrt_fin_of_nonneg (le_refl _), Real.sqrt_zero, fin_mul, fin_div_of_ne (by norm_num), fin_div_of_ne (by norm_num)]
    simp only [fin_mul, fin_add]
    rw [fin_div_of_ne (by norm_num)]
    norm_num
  have hrat : gainRatio (fin 1) (fin 1) = fin 1 := by
    have a : feq (fin 1) (0 : XR) = false := by
      simp only [feq, zero_def, fle_fin]; norm_num
    unfold gainRatio
    rw [a, if_neg (by decide), fin_div_of_ne (by norm_num)]
    norm_num
  have hgood : fle (lit (1 / 10000)) (fin 1) = true := by
    simp only [lit_def, fle_fin]
    norm_num
  have hupd : updateDelta (fin 1) (fin (-1)) (fin 1) (fin 1) (fin 0) (fin 1) (fin 1) (fin 0) = (fin 2, fin 0) := by
    have b2 : feq (fin 0) (0 : XR) = true := by simp only [feq, zero_def, fle_fin]; norm_num
    unfold updateDelta
    simp only [b2, Bool.true_or, if_true, lit_def, fin_mul, mul_zero]
    rw [fin_div_of_ne (by norm_num)]
    norm_num
  have hinfo : infoAfter (levMarConf (fin (1 / 100))) (fin 1) (fin 1) (fin 1) (fin 2) (fin (10 ^ 12 - 1)) (fin 1) 2 false = MP_OK_PAR := by
    have a1 : chiSmall (levMarConf (fin (1 / 100))).ftol (fin 1) (fin 1) (fin 1) = false := by
      simp only [chiSmall, levMarConf, zero_def, flt_fin, fabs_fin]
      norm_num
    have a3 : fle (fin 2) ((levMarConf (fin (1 / 100))).xtol * fin (10 ^ 12 - 1)) = true := by
      simp only [levMarConf, lit_def, fin_mul, fle_fin]
      norm_num
    unfold infoAfter
    simp only [a1, a3, if_false, Bool.false_eq_true, Bool.false_and, if_true]
    rfl
  have hd0 : dmin (fin (100 * 10 ^ 12)) (fin 1) = fin 1 := by
    have a : fle (fin (100 * 10 ^ 12)) (fin 1) = false := by simp only [fle_fin]; norm_num
    unfold dmin; rw [a, if_neg (by decide)]
  have hstep : feq (fin (100 * 10 ^ 12)) (0 : XR) = false := by
    simp only [feq, zero_def, fle_fin]; norm_num
  have hsf : (levMarConf (fin (1 / 100))).stepfactor = fin 100 := by
    simp only [levMarConf, lit_def]; norm_num
  have hbp : (steepInner 0).pnorm = fin 1 := rfl
  have hbq : (steepInner 0).par = fin 0 := rfl
  have hbs : (steepInner 0).stop = false := rfl
  have hby : (steepInner 0).xnorm = fin (10 ^ 12 - 1) := rfl
  have hbx : (steepOuter 0).xnorm = fin (10 ^ 12) := rfl
  have hbg : (steepOuter 0).gnorm = fin 1 := rfl
  have hfr : freeIdx (none : Option (List (MPPar XR))) 1 = [0] := rfl
  have hfd : fdPoints [0] ([] : List (FreeLim XR)) [fin 1] = .ok [[fin 1 + fdStep none (fin 1)]] := rfl
  have hsc1 : scatter [0] [fin 1] [fin 1] = .ok [fin 1] := rfl
  have hsc2 : scatter [0] [fin (1 - 1 / 10 ^ 12)] [fin 1] = .ok [fin (1 - 1 / 10 ^ 12)] := rfl
  have hx0 : (loopMap 1 fun i => do
      let k ← rd [0] i
      rd [fin 1] k : Res (List XR)) = .ok [fin 1] := rfl
  refine ⟨3, fin (1 * 1), dmax (fin 0) (fin 0) * dmax (fin 0) (fin 0), ?_⟩
  unfold levMarFit mpfit
  simp only [Bool.false_eq_true, if_false, List.length_cons, List.length_nil, Nat.zero_add, hfr, checkStart, freeLims, ok_bind, List.cons_ne_nil, e4, lt_irrefl]
  unfold lmIterate
  simp only [List.length_cons, List.length_nil, Nat.zero_add, hx0, ok_bind, d1, n1, lmLoop, outerTurn, hsc1, hfd, pure_eq_ok, e8, innerTurn, hnew, hsc2, d0, n0,
    hact, hpre, hrat, hgood, if_true, Bool.false_eq_true, if_false, hsf, hbx, hby, hbg, hbp, hbq, hbs, fin_mul, hstep, hd0, hupd, hinfo, lmNext]
  have hne : ¬ MP_OK_PAR = 0 := by decide
  have hne2 : ¬ MP_OK_PAR = MP_ERR_NAN := by decide
  simp only [ne_eq, hne, hne2, not_false_eq_true, if_true, lmLeave, lmFinish, hsc2, ok_bind, if_false]
  rfl

end

end Imfit
