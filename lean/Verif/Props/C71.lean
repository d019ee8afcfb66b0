import Verif.Lemmas.QRFac
import Verif.Spec.LinAlg
import Mathlib.LinearAlgebra.Matrix.Notation
import Mathlib.Tactic.FinCases

/-!
# C71: `mp_qrfac` computes a QR factorisation with column pivoting
-/

namespace Imfit

open XR Finset Matrix Spec

noncomputable section

/-! ### Applying the stored transformations -/

/-- One turn of the loop of `mpfit` applies the transformation stored in column `j`. -/
theorem qtfStep_fin {m n j : ℕ} {a : Arr2 XR} {B : ℕ → ℕ → ℝ} (ha : ∀ i k, i < m → k < n → a i k = fin (B i k)) (hj : j < n) (hjm : j < m)
    (hv : HouseVec m j fun i => B i j) {w : ℕ → XR} {u : ℕ → ℝ} (hw : ∀ i, i < m → w i = fin (u i)) :
    ∀ i, i < m → qtfStep m a w j i = fin (hous m j (fun i => B i j) u i) := by
  intro i hi
  unfold qtfStep
  rw [ha j j hjm hj, zero_def, feq_fin]
  by_cases h0 : B j j = 0
  · rw [if_pos (by simpa using h0), hw i hi]
    unfold hous
    split
    · rename_i h1
      beta_reduce
      rw [show B i j = 0 from hv.zero h0 i h1 hi]
      simp
    · rfl
  · rw [if_neg (by simpa using h0)]
    have hs : sumFrom j m (fun i => a i j * w i) = fin (dotIco j m (fun i => B i j) u) :=
      sumFrom_fin j m _ (fun i => B i j * u i) fun i _ h2 => by rw [ha i j h2 hj, hw i h2, fin_mul]
    simp only [hs, fin_neg, fin_div_of_ne h0]
    unfold hous
    split
    · rw [ha i j hi hj, hw i hi, fin_mul, fin_add]
      congr 1
      ring
    · exact hw i hi

theorem houseSeq_row {m : ℕ} (B : ℕ → ℕ → ℝ) (w : ℕ → ℝ) {i t s : ℕ} (h : i < t) (hts : t ≤ s) : houseSeq m B s w i = houseSeq m B t w i := by
  induction s, hts using Nat.le_induction with
  | base => rfl
  | succ s hs ih =>
    simp only [houseSeq]
    rw [hous_lt _ _ (by omega), ih]

theorem qtfLoop_fin {m n : ℕ} {a : Arr2 XR} {B : ℕ → ℕ → ℝ} (ha : ∀ i k, i < m → k < n → a i k = fin (B i k)) (hnm : n ≤ m)
    (hv : ∀ k, k < n → HouseVec m k fun i => B i k) {w : ℕ → XR} {u : ℕ → ℝ} (hw : ∀ i, i < m → w i = fin (u i)) :
    (∀ i, i < m → (qtfLoop m n a w).1 i = fin (houseSeq m B n u i)) ∧ ∀ j, j < n → (qtfLoop m n a w).2 j = fin (houseSeq m B n u j) := by
  unfold qtfLoop
  suffices H : ∀ t, t ≤ n →
      let r := (List.range t).foldl (fun s j => let w := qtfStep m a s.1 j; (w, Function.update s.2 j (w j))) ((w, fun _ => 0) : (ℕ → XR) × (ℕ → XR))
      (∀ i, i < m → r.1 i = fin (houseSeq m B t u i)) ∧ ∀ j, j < t → r.2 j = fin (houseSeq m B t u j) from H n le_rfl
  intro t
  induction t with
  | zero => exact fun _ => ⟨hw, fun j hj => absurd hj (Nat.not_lt_zero j)⟩
  | succ t ih =>
    intro ht
    obtain ⟨h1, h2⟩ := ih (by omega)
    rw [List.range_succ, List.foldl_append]
    simp only [List.foldl_cons, List.foldl_nil]
    have hstep := qtfStep_fin ha (show t < n by omega) (show t < m by omega) (hv t (by omega)) h1
    refine ⟨hstep, fun j hj => ?_⟩
    rw [Function.update_apply]
    by_cases hjt : j = t
    · rw [if_pos hjt, hjt]
      exact hstep t (by omega)
    · rw [if_neg hjt, h2 j (by omega), houseSeq_row B u (show j < t by omega) (Nat.le_succ t)]

/-! ### Matrices -/

/-- A matrix as function of two natural numbers. -/
def natMat {m n : ℕ} (A : Matrix (Fin m) (Fin n) ℝ) : ℕ → ℕ → ℝ := fun i k => if h : i < m ∧ k < n then A ⟨i, h.1⟩ ⟨k, h.2⟩ else 0

/-- A vector as function of a natural number. -/
def natVec {m : ℕ} (f : Fin m → ℝ) : ℕ → ℝ := fun i => if h : i < m then f ⟨i, h⟩ else 0

theorem natMat_val {m n : ℕ} (A : Matrix (Fin m) (Fin n) ℝ) (i : Fin m) (k : Fin n) : natMat A i k = A i k := by
  unfold natMat; rw [dif_pos ⟨i.2, k.2⟩]

theorem natVec_val {m : ℕ} (f : Fin m → ℝ) (i : Fin m) : natVec f i = f i := by
  unfold natVec; rw [dif_pos i.2]

/-- The array `a` holds the matrix `A`. -/
def HoldsMat {m n : ℕ} (a : Arr2 XR) (A : Matrix (Fin m) (Fin n) ℝ) : Prop := ∀ (i : Fin m) (k : Fin n), a i k = fin (A i k)

/-- The array `w` holds the vector `f`. -/
def HoldsVec {m : ℕ} (w : ℕ → XR) (f : Fin m → ℝ) : Prop := ∀ i : Fin m, w i = fin (f i)

theorem HoldsMat.nat {m n : ℕ} {a : Arr2 XR} {A : Matrix (Fin m) (Fin n) ℝ} (h : HoldsMat a A) : ∀ i k, i < m → k < n → a i k = fin (natMat A i k) :=
  fun i k hi hk => by
    have e1 := h ⟨i, hi⟩ ⟨k, hk⟩
    have e2 := natMat_val A ⟨i, hi⟩ ⟨k, hk⟩
    exact e1.trans (congrArg fin e2.symm)

theorem HoldsVec.nat {m : ℕ} {w : ℕ → XR} {f : Fin m → ℝ} (h : HoldsVec w f) : ∀ i, i < m → w i = fin (natVec f i) :=
  fun i hi => by
    have e1 := h ⟨i, hi⟩
    have e2 := natVec_val f ⟨i, hi⟩
    exact e1.trans (congrArg fin e2.symm)

theorem moderate_of {m n : ℕ} {A : Matrix (Fin m) (Fin n) ℝ} (h : ColumnsBelow A (largeSize / m)) : Moderate m n (natMat A) := by
  intro k hk
  rw [Finset.sum_range]
  have := h ⟨k, hk⟩
  refine lt_of_eq_of_lt (Finset.sum_congr rfl fun i _ => ?_) this
  have := natMat_val A i ⟨k, hk⟩
  simp only at this
  rw [this]

/-- The transformations as a matrix. -/
def seqMat (m : ℕ) (B : ℕ → ℕ → ℝ) (t : ℕ) : Matrix (Fin m) (Fin m) ℝ := fun i r => houseSeq m B t (fun s => if s = (r : ℕ) then 1 else 0) i

theorem seqMat_mul {m : ℕ} (B : ℕ → ℕ → ℝ) {t : ℕ} (ht : t ≤ m) (w : ℕ → ℝ) (i : Fin m) :
    ∑ r : Fin m, seqMat m B t i r * w r = houseSeq m B t w i := by
  have h1 : houseSeq m B t w i = houseSeq m B t (fun s => ∑ r ∈ range m, w r * (if s = r then 1 else 0)) i := by
    refine houseSeq_congr t ht (fun _ _ _ _ _ => rfl) (fun s hs => ?_) i i.2
    rw [Finset.sum_eq_single s]
    · rw [if_pos rfl, mul_one]
    · intro b _ hb
      rw [if_neg (fun h => hb h.symm), mul_zero]
    · intro h
      exact absurd (Finset.mem_range.2 hs) h
  rw [h1, houseSeq_sum]
  beta_reduce
  rw [Finset.sum_range]
  refine Finset.sum_congr rfl fun r _ => ?_
  unfold seqMat
  ring

theorem seqMat_orth {m : ℕ} {B : ℕ → ℕ → ℝ} {t : ℕ} (ht : t ≤ m) (hB : ∀ k, k < t → HouseVec m k fun i => B i k) :
    (seqMat m B t)ᵀ * seqMat m B t = 1 := by
  ext r r'
  rw [Matrix.mul_apply]
  simp only [Matrix.transpose_apply]
  have h := houseSeq_dot t ht hB (fun s => if s = (r : ℕ) then 1 else 0) (fun s => if s = (r' : ℕ) then 1 else 0)
  rw [Finset.sum_range] at h
  unfold seqMat
  rw [h, Finset.sum_eq_single (r : ℕ)]
  · rw [Matrix.one_apply, if_pos rfl, one_mul]
    simp only [Fin.ext_iff]
  · intro b _ hb
    rw [if_neg hb, zero_mul]
  · intro h
    exact absurd (Finset.mem_range.2 r.2) h

theorem sum_from {m : ℕ} (i : Fin m) (g : ℕ → ℝ) :
    ∑ i' ∈ Finset.univ.filter (fun i' : Fin m => i ≤ i'), g i' = ∑ r ∈ Ico (i : ℕ) m, g r := by
  rw [Finset.sum_filter]
  have h := Finset.sum_range (n := m) fun r => if (i : ℕ) ≤ r then g r else 0
  have e : ∑ i' : Fin m, (if i ≤ i' then g i' else 0) = ∑ i' : Fin m, (if (i : ℕ) ≤ (i' : ℕ) then g i' else 0) :=
    Finset.sum_congr rfl fun i' _ => by simp only [Fin.le_def]
  rw [e, ← h, range_split i.2.le, Finset.sum_eq_zero, zero_add]
  · exact Finset.sum_congr rfl fun r hr => if_pos (Finset.mem_Ico.1 hr).1
  · intro r hr
    have := Finset.mem_range.1 hr
    rw [if_neg (by omega)]

/-- `ipvt` as a permutation. -/
theorem exists_perm {n : ℕ} {σ : Equiv.Perm ℕ} (h : ∀ k, k < n → σ k < n) : ∃ π : Equiv.Perm (Fin n), ∀ k : Fin n, ((π k : Fin n) : ℕ) = σ k := by
  have hinj : Function.Injective (fun k : Fin n => (⟨σ k, h k k.2⟩ : Fin n)) := by
    intro a b hab
    have : σ a = σ b := congrArg Fin.val hab
    exact Fin.ext (σ.injective this)
  exact ⟨Equiv.ofBijective _ (Finite.injective_iff_bijective.1 hinj), fun k => rfl⟩

/-- `mp_qrfac`, followed by the loop of `mpfit` that forms `Qᵀ f`, in exact arithmetic, for a matrix with at least as many rows as columns: the arrays hold a QR
factorisation of the matrix with column pivoting, and the product of `Qᵀ` with the vector.
Missing from the full claim: matrices with columns longer than `1.304e19 / m`, where `mp_enorm` is not exact (`C39_false`). -/
theorem C71_qr_partial {m n : ℕ} (hnm : n ≤ m) (A : Matrix (Fin m) (Fin n) ℝ) (a : Arr2 XR) (ha : HoldsMat a A) (hA : ColumnsBelow A (largeSize / m)) :
    ∃ (π : Equiv.Perm (Fin n)) (Q : Matrix (Fin m) (Fin m) ℝ) (R : Matrix (Fin m) (Fin n) ℝ),
      IsQR A π Q R ∧
      (∀ k : Fin n, (qrfac m n a).ipvt k = π k) ∧
      (∀ (i : Fin m) (k : Fin n), (i : ℕ) ≤ k → setDiag (qrfac m n a).a (qrfac m n a).rdiag i k = fin (R i k)) ∧
      (∀ (k : Fin n), (qrInit m a).rdiag k = fin (Real.sqrt (∑ i, A i k ^ 2))) ∧
      ∀ (f : Fin m → ℝ) (w : ℕ → XR), HoldsVec w f →
        (∀ i : Fin m, (qtfLoop m n (qrfac m n a).a w).1 i = fin ((Qᵀ *ᵥ f) i)) ∧
        ∀ j : Fin n, (qtfLoop m n (qrfac m n a).a w).2 j = fin ((Qᵀ *ᵥ f) ⟨j, lt_of_lt_of_le j.2 hnm⟩) := by
  obtain ⟨B, rd, wa, σ, h⟩ := qrfac_inv ha.nat (moderate_of hA)
  rw [Nat.min_eq_right hnm] at h
  obtain ⟨π, hπ⟩ := exists_perm h.perm
  have hT := seqMat_orth hnm h.hv
  have hT' : seqMat m B n * (seqMat m B n)ᵀ = 1 := mul_eq_one_comm.1 hT
  set R : Matrix (Fin m) (Fin n) ℝ := fun i k => if (i : ℕ) < k then B i k else if (i : ℕ) = k then rd k else 0 with hR
  refine ⟨π, (seqMat m B n)ᵀ, R, ⟨?_, ?_, ?_, ?_, ?_⟩, ?_, ?_, ?_, ?_⟩
  · rw [Matrix.transpose_transpose]
    exact hT'
  · have : seqMat m B n * A.submatrix id π = R := by
      ext i k
      rw [Matrix.mul_apply]
      have e := seqMat_mul B hnm (fun r => natMat A r (σ k)) i
      rw [h.hM i k i.2 k.2, if_pos k.2] at e
      rw [hR]
      refine Eq.trans ?_ e
      refine Finset.sum_congr rfl fun r _ => ?_
      rw [← hπ k, natMat_val]
      rfl
    rw [← this, ← Matrix.mul_assoc, hT, Matrix.one_mul]
  · intro i j hij
    simp only [hR]
    rw [if_neg (by omega), if_neg (by omega)]
  · intro i i' j j' h1 h2 hii
    simp only [hR]
    rw [if_neg (show ¬ (i : ℕ) < j by omega), if_pos h1, if_neg (show ¬ (i' : ℕ) < j' by omega), if_pos h2]
    rcases Nat.lt_or_ge (j : ℕ) j' with hlt | hge
    · exact h.mono j j' j.2 hlt j'.2
    · have hle : (i : ℕ) ≤ i' := hii
      have : (j : ℕ) = j' := by omega
      rw [this]
  · intro i j j' hij hjj
    have hle : (j : ℕ) ≤ j' := hjj
    rw [sum_from i fun r => (if r < (j' : ℕ) then B r j' else if r = (j' : ℕ) then rd j' else 0) ^ 2]
    have hRij : R i j = rd j := by
      simp only [hR]
      rw [if_neg (by omega), if_pos hij]
    rw [hRij]
    rcases Nat.lt_or_ge (j : ℕ) j' with hlt | hge
    · have hd := h.dom j j' j.2 hlt j'.2
      rw [hij]
      refine le_trans (le_of_eq (Finset.sum_congr rfl fun r hr => ?_)) hd
      rw [h.hM r j' (Finset.mem_Ico.1 hr).2 j'.2, if_pos j'.2]
    · have e : (j' : ℕ) = j := by omega
      rw [e, Finset.sum_eq_single (i : ℕ)]
      · rw [if_neg (by omega), if_pos hij]
      · intro r hr hne
        have := Finset.mem_Ico.1 hr
        rw [if_neg (by omega), if_neg (by omega)]
        norm_num
      · intro hn
        exact absurd (Finset.mem_Ico.2 ⟨le_rfl, i.2⟩) hn
  · intro k
    rw [h.eip k k.2, hπ]
  · intro i k hik
    unfold setDiag
    simp only [hR]
    by_cases he : (i : ℕ) = k
    · rw [if_pos he, if_neg (by omega), if_pos he, h.erd k k.2]
    · rw [if_neg he, if_pos (by omega), h.ea i k i.2 k.2]
  · intro k
    have := (qrInit_inv ha.nat (moderate_of hA)).erd k k.2
    rw [this, Finset.sum_range]
    congr 2
    exact Finset.sum_congr rfl fun i _ => by rw [natMat_val]
  · intro f w hw
    obtain ⟨h1, h2⟩ := qtfLoop_fin h.ea hnm h.hv hw.nat
    have hq : ∀ i : Fin m, houseSeq m B n (natVec f) i = ((seqMat m B n)ᵀᵀ *ᵥ f) i := by
      intro i
      rw [Matrix.transpose_transpose, ← seqMat_mul B hnm]
      simp only [Matrix.mulVec, dotProduct, natVec_val]
    refine ⟨fun i => ?_, fun j => ?_⟩
    · rw [h1 i i.2, hq]
    · rw [h2 j j.2, ← hq]

/-- The products of the columns are those of the columns of `R`. -/
theorem qr_gram {m n : ℕ} {A : Matrix (Fin m) (Fin n) ℝ} {π : Equiv.Perm (Fin n)} {Q : Matrix (Fin m) (Fin m) ℝ} {R : Matrix (Fin m) (Fin n) ℝ}
    (h : IsQR A π Q R) : (Aᵀ * A).submatrix π π = Rᵀ * R := by
  have : (Aᵀ * A).submatrix π π = (A.submatrix id π)ᵀ * A.submatrix id π := by
    ext i j
    simp [Matrix.mul_apply, Matrix.submatrix_apply]
  rw [this, h.factor, Matrix.transpose_mul, Matrix.mul_assoc, ← Matrix.mul_assoc Qᵀ, h.orth, Matrix.one_mul]

/-- A matrix with one column, `(3, 4)`: the diagonal element found is 5 or -5. -/
example (a : Arr2 XR) (ha : HoldsMat a (!![3; 4] : Matrix (Fin 2) (Fin 1) ℝ)) :
    setDiag (qrfac 2 1 a).a (qrfac 2 1 a).rdiag 0 0 = fin 5 ∨ setDiag (qrfac 2 1 a).a (qrfac 2 1 a).rdiag 0 0 = fin (-5) := by
  obtain ⟨π, Q, R, h, -, h2, -, -⟩ := C71_qr_partial (by norm_num) _ a ha (by
    intro k
    fin_cases k
    rw [Fin.sum_univ_two]
    unfold largeSize
    norm_num)
  have h3 := congrFun (congrFun (qr_gram h) 0) 0
  have e := h2 0 0 (by simp)
  simp only [Fin.val_zero] at e
  rw [e]
  have hu := h.upper 1 0 (by simp)
  rw [Matrix.submatrix_apply, Matrix.mul_apply, Matrix.mul_apply, Fin.sum_univ_two, Fin.sum_univ_two] at h3
  rw [Subsingleton.elim (π 0) 0] at h3
  simp only [Matrix.transpose_apply, hu] at h3
  norm_num at h3
  have h4 : R 0 0 * R 0 0 = 5 * 5 := by linarith
  rcases mul_self_eq_mul_self_iff.1 h4 with h5 | h5
  · left; rw [h5]
  · right; rw [h5]

end

end Imfit
