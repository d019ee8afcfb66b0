import Verif.Props.C96
import Verif.Props.C73

/-!
# C97: fits of linear models
-/

namespace Imfit
open XR Finset Spec Matrix

/-- `mp_lmpar` takes the Gauss-Newton step if that is not longer than 1.1 times the bound. For a Jacobian of full rank, that is the solution of the normal equations. -/
theorem lmpar_gn {m n : ℕ} (hnm : n ≤ m) (J : Matrix (Fin m) (Fin n) ℝ) (f : Fin m → ℝ) (D : Fin n → ℝ) (a : Arr2 XR) (w d : ℕ → XR)
    (ha : HoldsMat a J) (hw : HoldsVec w f) (hd : HoldsVec d D) (hJ : ColumnsBelow J (largeSize / m)) (hD : ∀ j, 0 < D j)
    (delta : ℝ) (par0 : XR) (hdel : 0 < delta) (x0 sdiag0 : ℕ → XR) (r : Arr2 XR)
    (hr : ∀ i k, i ≤ k → k < n → r i k = setDiag (qrfac m n a).a (qrfac m n a).rdiag i k)
    (u : Fin n → ℝ) (huniq : ∀ v, (Jᵀ * J) *ᵥ v = Jᵀ *ᵥ f → v = u) {s : ℝ} (hs : vecNorm n (fun l => fin (natVec (fun j => D j * u j) l)) = fin s)
    (hle : s ≤ 11 / 10 * delta) :
    (lmpar n r (qrfac m n a).ipvt d (qtfLoop m n (qrfac m n a).a w).2 (fin delta) par0 x0 sdiag0).1 = fin 0 ∧
    HoldsVec (lmpar n r (qrfac m n a).ipvt d (qtfLoop m n (qrfac m n a).a w).2 (fin delta) par0 x0 sdiag0).2.1 u := by
  obtain ⟨π, Q, R, h, hip, hR, -, hq⟩ := C71_qr_partial hnm J a ha hJ
  obtain ⟨-, hq2⟩ := hq f w hw
  have ctx := lmCtx_of hnm h hip hd hD hdel hq2
  have hrR : ∀ i k, i ≤ k → k < n → r i k = fin (natMat R i k) := fun i k hik hk => by
    have e := hR ⟨i, by omega⟩ ⟨k, hk⟩ hik
    have e2 := natMat_val R ⟨i, by omega⟩ ⟨k, hk⟩
    simp only at e e2
    rw [hr i k hik hk, e, e2]
  obtain ⟨v, h1, h2, -⟩ := ctx.gn hrR x0
  have hn := damped_of_solves hnm h hip h2
  have hu := huniq (fun j => v (π.symm j)) (by
    unfold DampedNormal at hn
    rwa [zero_smul, add_zero] at hn)
  have hx : HoldsVec (gaussNewton n r (qrfac m n a).ipvt (qtfLoop m n (qrfac m n a).a w).2 x0) u := by
    intro j
    have e := h1 (π.symm j) (π.symm j).2
    rw [hip, Equiv.apply_symm_apply] at e
    rw [e, ← hu]
  have hnorm : vecNorm n (fun l => d l * gaussNewton n r (qrfac m n a).ipvt (qtfLoop m n (qrfac m n a).a w).2 x0 l) = fin s := by
    rw [← hs]
    unfold vecNorm
    rw [List.map_congr_left fun l hl => ?_]
    have hl' := List.mem_range.1 hl
    have e1 := hd ⟨l, hl'⟩
    have e2 := hx ⟨l, hl'⟩
    have e3 := natVec_val (fun j => D j * u j) ⟨l, hl'⟩
    simp only at e1 e2 e3
    rw [e1, e2, fin_mul, e3]
  unfold lmpar
  simp only
  rw [hnorm, fin_sub, lit_def, fin_mul, fle_fin, if_pos (by
    rw [decide_eq_true_eq]
    push_cast
    linarith)]
  exact ⟨zero_def, hx⟩

section
variable {p m : ℕ} {dev : List XR → List XR} {D : (Fin p → ℝ) → Fin m → ℝ} {limitsExist : Bool} {pars : List (MPPar XR)} {x0 : Fin p → ℝ}

/-- A linear model. -/
def Linear (D : (Fin p → ℝ) → Fin m → ℝ) (b : Fin m → ℝ) (A : Fin m → Fin p → ℝ) : Prop := ∀ x i, D x i = b i + ∑ k, A i k * x k

theorem Linear.quotient {b : Fin m → ℝ} {A : Fin m → Fin p → ℝ} (h : Linear D b A) (x : Fin p → ℝ) (k : Fin p) {t : ℝ} (ht : t ≠ 0) (i : Fin m) :
    quotient D x k t i = A i k := by
  unfold Spec.quotient
  rw [div_eq_iff ht, h, h]
  have e : ∀ l, A i l * Function.update x k (x k + t) l = A i l * x l + if l = k then A i k * t else 0 := by
    intro l
    by_cases hk : l = k
    · subst hk; simp; ring
    · rw [Function.update_of_ne hk, if_neg hk, add_zero]
  simp only [e, Finset.sum_add_distrib, Finset.sum_ite_eq', Finset.mem_univ, if_true]
  ring

theorem Linear.jac {b : Fin m → ℝ} {A : Fin m → Fin p → ℝ} (h : Linear D b A) {n : ℕ} {fr : Fin n → Fin p} {x : Fin p → ℝ} {J : Matrix (Fin m) (Fin n) ℝ}
    (hJ : TurnJac D fr (fun _ => noLimit) x J) : J = fun i j => A i (fr j) := by
  obtain ⟨t, h1, -, rfl⟩ := hJ
  funext i j
  unfold cleared
  rw [if_neg (by rintro (⟨h1, _⟩ | ⟨h1, _⟩) <;> cases h1)]
  refine h.quotient x _ (fun e => ?_) i
  have := h1 j
  rw [e, abs_zero] at this
  exact (stepSize_pos _).ne this

/-- The minimum of the sum of squares of a linear model. -/
theorem Linear.normal {b : Fin m → ℝ} {A : Fin m → Fin p → ℝ} (h : Linear D b A) {z : Fin p → ℝ} (hz : ∀ y, ∑ i, D z i ^ 2 ≤ ∑ i, D y i ^ 2) (k : Fin p) :
    ∑ i, A i k * D z i = 0 := by
  set G := ∑ i, A i k * D z i with hG
  set N := ∑ i, A i k ^ 2 with hN
  have hN0 : 0 ≤ N := Finset.sum_nonneg fun i _ => sq_nonneg _
  have key : ∀ t : ℝ, 0 ≤ 2 * t * G + t ^ 2 * N := by
    intro t
    have := hz (Function.update z k (z k + t))
    have e : ∀ i, D (Function.update z k (z k + t)) i = D z i + t * A i k := by
      intro i
      by_cases ht : t = 0
      · subst ht
        rw [add_zero, Function.update_eq_self, zero_mul, add_zero]
      · have := h.quotient z k ht i
        unfold Spec.quotient at this
        rw [div_eq_iff ht] at this
        linarith
    have e2 : ∑ i, D (Function.update z k (z k + t)) i ^ 2 = ∑ i, D z i ^ 2 + (2 * t * G + t ^ 2 * N) := by
      rw [hG, hN, Finset.mul_sum, Finset.mul_sum, ← Finset.sum_add_distrib, ← Finset.sum_add_distrib]
      refine Finset.sum_congr rfl fun i _ => ?_
      rw [e i]
      ring
    linarith
  by_contra hne
  rcases eq_or_lt_of_le hN0 with hz0 | hpos
  · have := key (-G)
    rw [← hz0] at this
    nlinarith [sq_nonneg G, mul_self_pos.2 hne]
  · have := key (-(G / N))
    have e : 2 * -(G / N) * G + (-(G / N)) ^ 2 * N = -(G * G / N) := by
      field_simp
      ring
    rw [e] at this
    have := div_pos (mul_self_pos.2 hne) hpos
    linarith

theorem Linear.sub {b : Fin m → ℝ} {A : Fin m → Fin p → ℝ} (h : Linear D b A) (x z : Fin p → ℝ) (i : Fin m) : D x i - D z i = ∑ k, A i k * (x k - z k) := by
  rw [h, h]
  simp only [mul_sub, Finset.sum_sub_distrib]
  ring

theorem mpEnorm_exact {m : ℕ} (v : Fin m → ℝ) (h : ∑ i, v i ^ 2 < (largeSize / m) ^ 2) : mpEnorm (reals v) = fin (Real.sqrt (∑ i, v i ^ 2)) := by
  have e : ∑ l ∈ Finset.range m, natVec v l ^ 2 = ∑ i, v i ^ 2 := by
    rw [Finset.sum_range]
    exact Finset.sum_congr rfl fun i _ => by rw [natVec_val]
  have := vecNorm_exact (holds_entries v).nat (by rw [e]; exact h)
  rw [e] at this
  rw [← this]
  unfold vecNorm
  congr 1
  refine List.ext_getElem (by simp [reals]) fun k h1 h2 => ?_
  have hk : k < m := by simpa [reals] using h1
  simp [reals, ofEntries, hk]

/-- At the minimum the outer loop ends. -/
theorem Linear.outer_min {b : Fin m → ℝ} {A : Fin m → Fin p → ℝ} (h : Linear D b A) {n : ℕ} {fr : Fin n → Fin p} {lims : List (FreeLim XR)} {c : MPConf XR}
    (S : Setup dev D fr lims (fun _ => noLimit) x0 c) {z : Fin p → ℝ} (hz : ∀ y, ∑ i, D z i ^ 2 ≤ ∑ i, D y i ^ 2)
    (hsz : ∑ i, D z i ^ 2 < (largeSize / m) ^ 2) {st : FullSt XR} (ho : OuterOk D fr (fun _ => noLimit) x0 z st) :
    ∃ st', outerFull dev m c (freeList fr) lims st = .ok (st', some MP_OK_DIR) ∧ st'.s.x = st.s.x := by
  obtain ⟨st', e, J, h1, -, hx, h2, h3, h4, -⟩ := outer_run S ho
  obtain rfl := h.jac h3
  obtain ⟨t, t1, -, t3⟩ := h3
  have hcols : ColumnsBelow (fun i j => A i (fr j)) (largeSize / m) := by
    have := cleared_below (fun _ => noLimit) (fun j => z (fr j)) (D z) _ (S.cols z ho.base.reach t t1)
    rwa [← t3] at this
  obtain ⟨g, k1, k2, -, -, k5⟩ := C95_gradient_partial S.hnm (fun i j => A i (fr j)) _ (holds_columns _) hcols (D z) _ (holds_entries _) hsz
  have hg : g = 0 := by
    by_contra hne
    obtain ⟨j, hj1, hj2⟩ := k5 hne
    have : halfGrad (fun i j => A i (fr j)) (D z) j = 0 := h.normal hz (fr j)
    rw [this, abs_zero] at hj2
    exact (mul_ne_zero hne hj1.ne') hj2.symm
  obtain ⟨gt, hg1, hg2⟩ := S.gtol
  rcases h2 with rfl | rfl
  · exfalso
    have := h4.1 rfl
    rw [k1, hg, hg1, fle_fin, decide_eq_false_iff_not] at this
    exact this hg2.le
  · exact ⟨st', h1, hx⟩

/-- **C97.** A linear model of full rank, no limits: the fit ends after at most one step, with the parameters of least sum of squares, if the distance to them is not
more than 110 times that of the start from zero (both with each parameter scaled by the length of its column of the Jacobian; 110 if the start is zero). Or it ends at
the start, where the gradient is small already. Missing from the full claim: exact arithmetic, moderate sizes, starts from which the distance is larger. -/
theorem C97_linear_partial (F : Fit dev D limitsExist (fun _ => noLimit) pars x0) (b : Fin m → ℝ) (A : Fin m → Fin p → ℝ) (hlin : Linear D b A)
    (hinj : ∀ v : Fin p → ℝ, (∀ i, ∑ k, A i k * v k = 0) → v = 0) (z : Fin p → ℝ) (hz : ∀ y, ∑ i, D z i ^ 2 ≤ ∑ i, D y i ^ 2)
    (hstep : Real.sqrt (scaledSize (colLength A) (x0 - z)) ≤ 110 * if x0 = 0 then 1 else Real.sqrt (scaledSize (colLength A) x0))
    (s0 : ∑ i, D x0 i ^ 2 < (largeSize / m) ^ 2) (s1 : scaledSize (colLength A) x0 < (largeSize / m) ^ 2)
    (s2 : scaledSize (colLength A) (x0 - z) < (largeSize / m) ^ 2) (ftol : XR) (stop : ℕ → Bool) :
    ∃ r, (∀ fuel, 3 ≤ fuel → levMarFull dev m ftol limitsExist pars stop fuel (reals x0) = .ok r) ∧ r.status ∈ [1, 2, 3, 4, 5, 6, 7, 8, 100] ∧
      (r.xall = reals z ∨
        (r.status = 4 ∧ r.xall = reals x0 ∧ ∀ k, |halfGrad A (D x0) k| ≤ 1 / 10 ^ 10 * (length (D x0) * colLength A k))) := by
  obtain ⟨n, fr, lims, h1, h2, S, hn, hnp, hex, h3⟩ := F.setup ftol
  have hsurj : ∀ k, ∃ j, fr j = k := fun k => (hex k).2 rfl
  have hbij : Function.Bijective fr := ⟨S.inj, hsurj⟩
  have hsum : ∀ g : Fin p → ℝ, ∑ j, g (fr j) = ∑ k, g k := fun g => hbij.sum_comp g
  have hm0 : (0 : ℝ) < m := by
    have : 0 < m := lt_of_lt_of_le hn S.hnm
    exact_mod_cast this
  have hlarge : (largeSize / m) ^ 2 ≤ (largeSize / n) ^ 2 := by
    have h0 : (0 : ℝ) < n := by exact_mod_cast hn
    have h1 : (n : ℝ) ≤ m := by exact_mod_cast S.hnm
    have h2 := largeSize_pos
    have : largeSize / m ≤ largeSize / n := div_le_div_of_nonneg_left h2.le h0 h1
    have : 0 ≤ largeSize / m := by positivity
    gcongr
  have hloop := levMarFull_eq (ftol := ftol) F h1 h2 hn hnp h3 stop
  -- what is left after the loops
  have finish : ∀ (q : LMSt XR × Int) (x : Fin p → ℝ), (∀ fuel, 3 ≤ fuel → fullLoop dev m (levMarConf ftol) (freeList fr) lims stop fuel true (startSt dev fr x0) = .ok q) →
      q.2 ∈ endCodes → Reach fr (fun _ => noLimit) x0 x → q.1.x = reals (fun j => x (fr j)) →
      (x = z ∨ (q.2 = 4 ∧ x = x0 ∧ ∀ k, |halfGrad A (D x0) k| ≤ 1 / 10 ^ 10 * (length (D x0) * colLength A k))) →
      ∃ r, (∀ fuel, 3 ≤ fuel → levMarFull dev m ftol limitsExist pars stop fuel (reals x0) = .ok r) ∧ r.status ∈ [1, 2, 3, 4, 5, 6, 7, 8, 100] ∧
      (r.xall = reals z ∨
        (r.status = 4 ∧ r.xall = reals x0 ∧ ∀ k, |halfGrad A (D x0) k| ≤ 1 / 10 ^ 10 * (length (D x0) * colLength A k))) := by
    intro q x g1 g2 g3 g4 g5
    obtain ⟨out, o1, o2, o3⟩ := leave_reals (o := mpEnorm (dev (reals x0)) * mpEnorm (dev (reals x0))) S g2 g3 g4
    refine ⟨out, fun fuel hf => ?_, by rw [o2]; exact g2, ?_⟩
    · rw [hloop, g1 fuel hf]
      exact o1
    · rw [o2, o3]
      rcases g5 with rfl | ⟨g5, rfl, g6⟩
      · exact Or.inl rfl
      · exact Or.inr ⟨g5, rfl, g6⟩
  have hle : ∑ i, D z i ^ 2 ≤ ∑ i, D x0 i ^ 2 := hz x0
  have sz : ∑ i, D z i ^ 2 < (largeSize / m) ^ 2 := lt_of_le_of_lt hle s0
  obtain ⟨st', e, J, g1, gi, gx, g2, g3, g4, g5⟩ := outer_run S (startSt_ok F)
  have hJ := hlin.jac g3
  have hcols : ColumnsBelow J (largeSize / m) := by
    obtain ⟨t, t1, -, t3⟩ := g3
    rw [t3]
    exact cleared_below _ _ _ _ (S.cols x0 (startSt_ok F).base.reach t t1)
  have hcl : ∀ j, colLength J j = colLength A (fr j) := fun j => by rw [hJ]; rfl
  rcases g2 with rfl | rfl
  swap
  · -- the gradient is small at the start
    refine finish (st'.s, MP_OK_DIR) x0 (fun fuel hf => ?_) (by simp [endCodes, MP_OK_DIR]) (startSt_ok F).base.reach gx (Or.inr ⟨rfl, rfl, fun k => ?_⟩)
    · obtain ⟨fuel, rfl⟩ := Nat.exists_eq_add_of_le hf
      rw [Nat.add_comm]
      simp only [fullLoop, g1, ok_bind]
      rfl
    · obtain ⟨g, k1, k2, -, k4, -⟩ := C95_gradient_partial S.hnm J _ (holds_columns J) hcols (D x0) _ (holds_entries _) s0
      have hsm : g ≤ 1 / 10 ^ 10 := by
        by_contra hgt
        have := g4.2 (by
          rw [k1]
          simp only [levMarConf]
          rw [lit_def, fle_fin, decide_eq_false_iff_not]
          push_cast
          exact hgt)
        cases this
      obtain ⟨j, rfl⟩ := hsurj k
      have := k4 j
      rw [hcl] at this
      have hh : halfGrad J (D x0) j = halfGrad A (D x0) (fr j) := by rw [hJ]; rfl
      rw [hh] at this
      refine this.trans (mul_le_mul_of_nonneg_right hsm ?_)
      exact mul_nonneg (Real.sqrt_nonneg _) (Real.sqrt_nonneg _)
  -- the first step
  obtain ⟨-, E, d, xn, hI, hfirst⟩ := g5 rfl
  have hF := hfirst rfl
  have hne : ∀ k, colLength A k ≠ 0 := by
    intro k hk
    have hzero : ∀ i, A i k = 0 := by
      intro i
      unfold colLength at hk
      rw [Real.sqrt_eq_zero (Finset.sum_nonneg fun i _ => sq_nonneg _), Finset.sum_eq_zero_iff_of_nonneg fun i _ => sq_nonneg _] at hk
      exact pow_eq_zero_iff two_ne_zero |>.1 (hk i (Finset.mem_univ i))
    have := hinj (Pi.single k 1) fun i => by
      rw [Finset.sum_eq_zero]
      intro l _
      by_cases hl : l = k
      · subst hl; rw [hzero, zero_mul]
      · rw [Pi.single_eq_of_ne hl, mul_zero]
    have := congrFun this k
    simp at this
  have hE : ∀ j, E j = colLength A (fr j) := fun j => by
    rw [hF.cols, hcl, if_neg (hne _)]
  set u : Fin n → ℝ := fun j => x0 (fr j) - z (fr j) with hu
  have hJu : ∀ i, (J *ᵥ u) i = D x0 i - D z i := by
    intro i
    rw [hlin.sub, ← hsum]
    simp only [Matrix.mulVec, dotProduct, hJ, hu]
  have hnorm : (Jᵀ * J) *ᵥ u = Jᵀ *ᵥ D x0 := by
    rw [← Matrix.mulVec_mulVec]
    funext j
    have h0 := hlin.normal hz (fr j)
    simp only [Matrix.mulVec, dotProduct, Matrix.transpose_apply] at hJu ⊢
    simp only [hJu, mul_sub, Finset.sum_sub_distrib]
    have : ∑ i, J i j * D z i = 0 := by rw [hJ]; exact h0
    rw [this, sub_zero]
  have huniq : ∀ v, (Jᵀ * J) *ᵥ v = Jᵀ *ᵥ D x0 → v = u := by
    intro v hv
    have h0 : Jᵀ *ᵥ (J *ᵥ (v - u)) = 0 := by
      rw [Matrix.mulVec_mulVec, Matrix.mulVec_sub, hv, hnorm, sub_self]
    have h00 : ∑ i, (J *ᵥ (v - u)) i ^ 2 = 0 := by
      have : (v - u) ⬝ᵥ (Jᵀ *ᵥ (J *ᵥ (v - u))) = 0 := by rw [h0, dotProduct_zero]
      rw [Matrix.dotProduct_mulVec, Matrix.vecMul_transpose] at this
      rw [← this]
      simp only [dotProduct, sq]
    rw [Finset.sum_eq_zero_iff_of_nonneg fun i _ => sq_nonneg _] at h00
    have hker := hinj (Function.extend fr (v - u) 0) fun i => by
      have := pow_eq_zero_iff two_ne_zero |>.1 (h00 i (Finset.mem_univ i))
      rw [← hsum]
      simp only [S.inj.extend_apply]
      rw [← this]
      simp only [Matrix.mulVec, dotProduct, hJ]
    funext j
    have := congrFun hker (fr j)
    rw [S.inj.extend_apply] at this
    simp only [Pi.sub_apply, Pi.zero_apply] at this
    linarith
  have hscale : ∀ y : Fin p → ℝ, scaledSize E (fun j => y (fr j)) = scaledSize (colLength A) y := by
    intro y
    unfold scaledSize
    rw [← hsum]
    exact Finset.sum_congr rfl fun j _ => by rw [hE]
  have hvn : ∀ y : Fin p → ℝ, scaledSize (colLength A) y < (largeSize / m) ^ 2 →
      vecNorm n (fun l => fin (natVec (fun j => E j * y (fr j)) l)) = fin (Real.sqrt (scaledSize (colLength A) y)) := by
    intro y hy
    have e : ∑ l ∈ Finset.range n, natVec (fun j => E j * y (fr j)) l ^ 2 = scaledSize (colLength A) y := by
      rw [Finset.sum_range, ← hscale]
      exact Finset.sum_congr rfl fun i _ => by rw [natVec_val]
    rw [vecNorm_exact (fun _ _ => rfl) (by rw [e]; exact lt_of_lt_of_le hy hlarge), e]
  have hxn : xn = Real.sqrt (scaledSize (colLength A) x0) := by
    have e := hF.size
    rw [hvn x0 s1] at e
    exact (XR.fin.inj e).symm
  have hd : d = if x0 = 0 then 100 else 100 * xn := by
    rw [hF.delta 100 (by simp [levMarConf, lit_def])]
    have e : (100 * xn = 0) ↔ x0 = 0 := by
      rw [mul_eq_zero]
      simp only [OfNat.ofNat_ne_zero, false_or]
      rw [hI.scale.xzero]
      constructor
      · intro h
        funext k
        obtain ⟨j, rfl⟩ := hsurj k
        exact h j
      · intro h j
        rw [h]
        rfl
    by_cases h0 : x0 = 0
    · rw [if_pos h0, if_pos (e.2 h0)]
    · rw [if_neg h0, if_neg fun h => h0 (e.1 h)]
  obtain ⟨T⟩ := inner_turn S hI (stop st'.s.kIn)
  obtain ⟨a, ha, hr, hip, hqt⟩ := hI.arr
  have hgn := lmpar_gn S.hnm J (D x0) E a (ofEntries (reals (D x0))) st'.diag ha (holds_entries _) hI.scale.diag hI.cols hI.scale.pos d st'.s.par hI.scale.dpos
    (fun _ => 0) (fun _ => 0) st'.r hr u huniq (s := Real.sqrt (scaledSize (colLength A) (x0 - z))) (hvn (x0 - z) s2) (by
      rw [hd]
      refine hstep.trans (le_of_eq ?_)
      rw [hxn]
      split_ifs
      · norm_num
      · ring)
  rw [← hip, ← hqt, ← hI.scale.delta] at hgn
  have hq : T.q = 0 := by
    have := T.lmq
    rw [hgn.1] at this
    exact (XR.fin.inj this).symm
  have hw : T.w = u := by
    funext j
    have := T.lmw j
    rw [hgn.2 j] at this
    exact (XR.fin.inj this).symm
  have hlims : anyLim lims ≠ true := by
    rcases S.lims with ⟨h, -⟩ | ⟨h, hd⟩
    · rw [h]; simp [anyLim]
    · intro hany
      unfold anyLim at hany
      rw [List.any_eq_true] at hany
      obtain ⟨l, hl, hb⟩ := hany
      obtain ⟨i, hi, rfl⟩ := List.getElem_of_mem hl
      have := hd ⟨i, by omega⟩ lims[i] (by simp [hi])
      rw [this.ql, this.qu] at hb
      simp [noLimit] at hb
  obtain ⟨hy, hs, hal⟩ := T.nolim hlims
  have hyz : T.y = z := by
    funext k
    obtain ⟨j, rfl⟩ := hsurj k
    rw [hy, hw]
    simp [hu]
  have hf : T.f = Real.sqrt (∑ i, D x0 i ^ 2) := by
    have := T.ef
    rw [mpEnorm_exact _ s0] at this
    exact (XR.fin.inj this).symm
  have hg : T.g = Real.sqrt (∑ i, D z i ^ 2) := by
    have := T.eg
    rw [hyz, mpEnorm_exact _ sz] at this
    exact (XR.fin.inj this).symm
  have hpyth : ∑ i, ((J *ᵥ u) i) ^ 2 = ∑ i, D x0 i ^ 2 - ∑ i, D z i ^ 2 := by
    have h0 : ∑ i, D z i * (J *ᵥ u) i = 0 := by
      have : u ⬝ᵥ (Jᵀ *ᵥ D z) = 0 := by
        have : Jᵀ *ᵥ D z = 0 := by
          funext j
          simp only [Matrix.mulVec, dotProduct, Matrix.transpose_apply, hJ]
          exact hlin.normal hz (fr j)
        rw [this, dotProduct_zero]
      rw [Matrix.dotProduct_mulVec, Matrix.vecMul_transpose, dotProduct_comm] at this
      exact this
    have : ∀ i, D x0 i ^ 2 = D z i ^ 2 + 2 * (D z i * (J *ᵥ u) i) + ((J *ᵥ u) i) ^ 2 := by
      intro i
      rw [hJu]
      ring
    simp only [this, Finset.sum_add_distrib, ← Finset.mul_sum, h0]
    ring
  have hjs : ∑ i, ((J *ᵥ (-u)) i) ^ 2 = ∑ i, ((J *ᵥ u) i) ^ 2 := by
    rw [Matrix.mulVec_neg]
    simp
  have hss : scaledSize E (-u) = scaledSize (colLength A) (x0 - z) := by
    rw [← hscale]
    unfold scaledSize
    exact Finset.sum_congr rfl fun j _ => by rw [Pi.neg_apply, mul_neg, neg_sq]; rfl
  have hG0 : 0 ≤ ∑ i, D z i ^ 2 := Finset.sum_nonneg fun i _ => sq_nonneg _
  obtain ⟨hjn, -⟩ := stepLA_norms S.hnm J E a st'.diag ha hI.scale.diag hI.cols T.la.2 (fun i k hik hk => by rw [T.tri i k hik hk, hr i k hik hk]) (-u)
    (ofEntries (reals T.s)) (fun _ => 0) (by rw [hs, hw]; exact holds_entries _) (by
      rw [hjs, hpyth]
      refine lt_of_lt_of_le ?_ hlarge
      linarith) (by rw [hss]; exact lt_of_lt_of_le s2 hlarge) 0 0 [] true
  have hjn' : T.jn = Real.sqrt (∑ i, D x0 i ^ 2 - ∑ i, D z i ^ 2) := by
    have := T.ejn
    unfold stepLA at hjn
    simp only at hjn
    rw [hip] at this
    rw [hjn, hjs, hpyth] at this
    exact (XR.fin.inj this).symm
  have hFpos : 0 < ∑ i, D x0 i ^ 2 := by
    have := T.f0
    rw [hf] at this
    exact Real.sqrt_pos.1 this
  have hP : T.P = 1 - (∑ i, D z i ^ 2) / ∑ i, D x0 i ^ 2 := by
    rw [T.eP, hal, hq, hjn', hf, mul_one, mul_zero, Real.sqrt_zero, zero_mul, zero_div, div_pow, Real.sq_sqrt (by linarith), Real.sq_sqrt hFpos.le]
    field_simp
    ring
  have hA : T.A = 1 - (∑ i, D z i ^ 2) / ∑ i, D x0 i ^ 2 := by
    have := T.eA
    unfold actRed at this
    have hgf : T.g ≤ T.f := by rw [hg, hf]; exact Real.sqrt_le_sqrt hle
    rw [lit_def, fin_mul, flt_fin, if_pos (by
      rw [decide_eq_true_eq]
      push_cast
      have := T.f0
      have := T.g0
      linarith), fin_div_of_ne T.f0.ne', fin_mul, one_def, fin_sub] at this
    rw [← XR.fin.inj this, hg, hf, div_mul_div_comm, Real.mul_self_sqrt hG0, Real.mul_self_sqrt hFpos.le]
  have hP0 : T.P ≠ 0 := by
    intro h0
    rw [hP] at h0
    have heq : ∑ i, D z i ^ 2 = ∑ i, D x0 i ^ 2 := by
      have : (∑ i, D z i ^ 2) / ∑ i, D x0 i ^ 2 = 1 := by linarith
      rwa [div_eq_one_iff_eq hFpos.ne'] at this
    obtain ⟨st2, k1, -⟩ := hlin.outer_min S (z := x0) (fun y => by rw [← heq]; exact hz y) s0 (startSt_ok F)
    rw [k1] at g1
    cases g1
  have hR : T.R = 1 := by rw [T.eR, if_neg hP0, hA.trans hP.symm, div_self hP0]
  have hgood : 1 / 10000 ≤ T.R := by rw [hR]; norm_num
  obtain ⟨st2, nx, la, k1, -, -, k2, k3, k4, k5⟩ := inner_run S hI (stop st'.s.kIn)
  have hst2 : st2 = T.st' := by
    have := T.run
    rw [k1] at this
    exact congrArg Prod.fst (Except.ok.inj this)
  have hx2 : st2.s.x = reals fun j => z (fr j) := by rw [hst2, T.sx, if_pos hgood, hyz]
  have hreach : Reach fr (fun _ => noLimit) x0 z := by rw [← hyz]; exact T.reach
  cases nx with
  | stop i =>
    refine finish (st2.s, i) z (fun fuel hf => ?_) (k3 i rfl) hreach hx2 (Or.inl rfl)
    obtain ⟨fuel, rfl⟩ := Nat.exists_eq_add_of_le hf
    rw [Nat.add_comm]
    simp only [fullLoop, g1, k1, ok_bind]
    rfl
  | inner =>
    exfalso
    obtain ⟨hi, -⟩ := k4 rfl
    rw [hst2, T.siter, if_pos hgood] at hi
    omega
  | outer =>
    obtain ⟨-, -, x', hO⟩ := k5 rfl
    have hx' : x' = z := by
      have := hO.base.ex
      rw [hx2] at this
      have := reals_inj this
      funext k
      obtain ⟨j, rfl⟩ := hsurj k
      exact (congrFun this j).symm
    subst hx'
    obtain ⟨st3, l1, l2⟩ := hlin.outer_min S hz sz hO
    refine finish (st3.s, MP_OK_DIR) x' (fun fuel hf => ?_) (by simp [endCodes, MP_OK_DIR]) hreach (l2.trans hx2) (Or.inl rfl)
    obtain ⟨fuel, rfl⟩ := Nat.exists_eq_add_of_le hf
    rw [Nat.add_comm]
    simp only [fullLoop, g1, k1, l1, ok_bind]
    rfl

end

/-! ### An example: the line through the points (0, 1), (1, 3), (2, 5) -/

noncomputable def lineD (x : Fin 2 → ℝ) : Fin 3 → ℝ := ![x 0 - 1, x 0 + x 1 - 3, x 0 + 2 * x 1 - 5]

noncomputable def lineDev : List XR → List XR
  | [fin x, fin y] => [fin (x - 1), fin (x + y - 3), fin (x + 2 * y - 5)]
  | _ => []

noncomputable def lineA : Fin 3 → Fin 2 → ℝ := ![![1, 0], ![1, 1], ![1, 2]]

theorem line_linear : Linear lineD ![-1, -3, -5] lineA := by
  intro x i
  rw [Fin.sum_univ_two]
  fin_cases i <;> simp [lineD, lineA] <;> ring

theorem line_fit : Fit lineDev lineD false (fun _ => noLimit) [⟨false, false, false, fin 0, fin 0⟩, ⟨false, false, false, fin 0, fin 0⟩] ![1, 1] where
  comp := by
    intro x
    simp [reals, lineDev, lineD]
  pars := by
    have hp : IsPar noLimit ⟨false, false, false, fin 0, fin 0⟩ := ⟨rfl, ⟨rfl, rfl, fun a h => (by cases h), fun a h => (by cases h)⟩⟩
    exact List.Forall₂.cons hp (List.Forall₂.cons hp List.Forall₂.nil)
  lims := Or.inr fun _ => rfl
  start := fun _ => ⟨fun a h => (by cases h), fun a h => (by cases h)⟩
  order := fun _ a b _ h => by cases h
  hfree := ⟨0, rfl⟩
  enough := by norm_num
  size := by norm_num
  cols := by
    intro x _ k h _ hh
    have hh0 : h ≠ 0 := by
      intro g
      rw [g, abs_zero] at hh
      exact (stepSize_pos _).ne hh
    simp only [line_linear.quotient x k hh0]
    have := largeSize_big
    rw [Fin.sum_univ_three]
    push_cast
    fin_cases k <;> simp [lineA] <;> nlinarith

theorem line_size (x : Fin 2 → ℝ) : scaledSize (colLength lineA) x = 3 * x 0 ^ 2 + 5 * x 1 ^ 2 := by
  unfold scaledSize colLength
  rw [Fin.sum_univ_two, mul_pow, mul_pow, Real.sq_sqrt (Finset.sum_nonneg fun i _ => sq_nonneg _), Real.sq_sqrt (Finset.sum_nonneg fun i _ => sq_nonneg _),
    Fin.sum_univ_three, Fin.sum_univ_three]
  simp only [lineA, Matrix.cons_val_zero, Matrix.cons_val_one, Matrix.cons_val_two, Matrix.tail_cons, Matrix.head_cons, Matrix.cons_val_fin_one]
  ring_nf

/-- Started with intercept and slope one, the fit ends with intercept one and slope two. -/
example (stop : ℕ → Bool) : ∃ r, (∀ fuel, 3 ≤ fuel → levMarFull lineDev 3 (fin (1 / 10 ^ 8)) false
    [⟨false, false, false, fin 0, fin 0⟩, ⟨false, false, false, fin 0, fin 0⟩] stop fuel (reals ![1, 1]) = .ok r) ∧ r.xall = [fin 1, fin 2] := by
  have hl := largeSize_big
  obtain ⟨r, h1, -, h3⟩ := C97_linear_partial line_fit _ _ line_linear (fun v hv => by
      have e0 := hv 0
      have e1 := hv 1
      rw [Fin.sum_univ_two] at e0 e1
      simp [lineA] at e0 e1
      funext k
      fin_cases k
      · exact e0
      · simp only [Fin.mk_one, Pi.zero_apply]
        linarith) ![1, 2] (fun y => by
      have : ∑ i, lineD ![1, 2] i ^ 2 = 0 := by
        rw [Fin.sum_univ_three]
        simp [lineD]
        norm_num
      rw [this]
      exact Finset.sum_nonneg fun i _ => sq_nonneg _) (by
      rw [line_size, line_size, if_neg (fun h => by simpa using congrFun h 0)]
      rw [show (110 : ℝ) = Real.sqrt (110 ^ 2) by rw [Real.sqrt_sq (by norm_num)], ← Real.sqrt_mul (by norm_num)]
      refine Real.sqrt_le_sqrt ?_
      simp
      norm_num) (by
      rw [Fin.sum_univ_three]
      simp [lineD]
      push_cast
      nlinarith) (by
      rw [line_size]
      simp
      nlinarith) (by
      rw [line_size]
      simp
      nlinarith) (fin (1 / 10 ^ 8)) stop
  refine ⟨r, h1, ?_⟩
  rcases h3 with h3 | ⟨-, -, h4⟩
  · rw [h3]; simp [reals]
  · exfalso
    have := h4 0
    have e1 : halfGrad lineA (lineD ![1, 1]) 0 = -3 := by
      unfold halfGrad
      rw [Fin.sum_univ_three]
      simp [lineA, lineD]
      norm_num
    have e2 : Spec.length (lineD ![1, 1]) = Real.sqrt 5 := by
      unfold Spec.length
      rw [Fin.sum_univ_three]
      congr 1
      simp [lineD]
      norm_num
    have e3 : colLength lineA 0 = Real.sqrt 3 := by
      unfold colLength
      rw [Fin.sum_univ_three]
      congr 1
      simp [lineA]
      norm_num
    rw [e1, e2, e3, abs_of_neg (by norm_num)] at this
    have h5 : Real.sqrt 5 ≤ 3 := by rw [Real.sqrt_le_left (by norm_num)]; norm_num
    have h3 : Real.sqrt 3 ≤ 2 := by rw [Real.sqrt_le_left (by norm_num)]; norm_num
    have := Real.sqrt_nonneg 5
    have := Real.sqrt_nonneg 3
    nlinarith

end Imfit
