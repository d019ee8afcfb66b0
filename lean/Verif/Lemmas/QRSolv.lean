import Verif.Lemmas.Householder

/-!
# `mp_qrsolv`
-/

namespace Imfit
open XR Finset

noncomputable section

theorem sum_change {n k : ℕ} (hk : k < n) (f f' : ℕ → ℝ) (h : ∀ r, r ≠ k → f' r = f r) :
    ∑ r ∈ range n, f' r = ∑ r ∈ range n, f r + (f' k - f k) := by
  have : ∑ r ∈ range n, (f' r - f r) = f' k - f k := by
    refine Finset.sum_eq_single k (fun b _ hb => by rw [h b hb, sub_self]) fun hn => absurd (Finset.mem_range.2 hk) hn
  rw [Finset.sum_sub_distrib] at this
  linarith

/-- The rotation. -/
theorem givens_fin (r e : ℝ) (he : e ≠ 0) :
    ∃ c s : ℝ, givens (fin r) (fin e) = (fin c, fin s) ∧ c ^ 2 + s ^ 2 = 1 ∧ -s * r + c * e = 0 ∧ c * r + s * e ≠ 0 := by
  unfold givens
  rw [fabs_fin, fabs_fin, flt_fin]
  have hp : ∀ x : ℝ, 0 < 1 / 4 + 1 / 4 * x * x := fun x => by nlinarith [mul_self_nonneg x]
  have hsq : ∀ x : ℝ, Real.sqrt (1 / 4 + 1 / 4 * x * x) ≠ 0 := fun x => (Real.sqrt_pos.2 (hp x)).ne'
  have h2 : ∀ x : ℝ, (1 / 2 / Real.sqrt (1 / 4 + 1 / 4 * x * x)) ^ 2 * (1 + x ^ 2) = 1 := by
    intro x
    rw [div_pow, Real.sq_sqrt (hp x).le]
    have := (hp x).ne'
    field_simp
    ring
  by_cases h : |r| < |e|
  · rw [if_pos (by simpa using h)]
    have hq := hsq (r / e)
    have hh := h2 (r / e)
    simp only [lit_def, fin_div_of_ne he, fin_mul, fin_add]
    push_cast
    rw [fsqrt_fin_of_nonneg (hp _).le, fin_div_of_ne hq]
    simp only [fin_mul]
    set s := 1 / 2 / Real.sqrt (1 / 4 + 1 / 4 * (r / e) * (r / e)) with hs
    have hs0 : s ≠ 0 := div_ne_zero (by norm_num) hq
    refine ⟨s * (r / e), s, rfl, ?_, ?_, ?_⟩
    · rw [← hh]; ring
    · field_simp; ring
    · have : s * (r / e) * r + s * e = s * ((r ^ 2 + e ^ 2) / e) := by field_simp
      rw [this]
      have : r ^ 2 + e ^ 2 ≠ 0 := by positivity
      exact mul_ne_zero hs0 (div_ne_zero this he)
  · rw [if_neg (by simpa using h)]
    have hr : r ≠ 0 := by
      intro h0
      rw [h0, abs_zero] at h
      exact h (abs_pos.2 he)
    have hq := hsq (e / r)
    have hh := h2 (e / r)
    simp only [lit_def, fin_div_of_ne hr, fin_mul, fin_add]
    push_cast
    rw [fsqrt_fin_of_nonneg (hp _).le, fin_div_of_ne hq]
    simp only [fin_mul]
    set c := 1 / 2 / Real.sqrt (1 / 4 + 1 / 4 * (e / r) * (e / r)) with hc
    have hc0 : c ≠ 0 := div_ne_zero (by norm_num) hq
    refine ⟨c, c * (e / r), rfl, ?_, ?_, ?_⟩
    · rw [← hh]; ring
    · field_simp; ring
    · have : c * r + c * (e / r) * e = c * ((r ^ 2 + e ^ 2) / r) := by field_simp
      rw [this]
      have : r ^ 2 + e ^ 2 ≠ 0 := by positivity
      exact mul_ne_zero hc0 (div_ne_zero this hr)

/-- Storage of the triangular matrix `S`: below the diagonal by columns; the diagonal of the rows before `j` in `sdiag`, else in `r`. The part above the diagonal,
and the diagonal before `j`, is that of `R`. -/
structure GvStore (n j : ℕ) (R : ℕ → ℕ → ℝ) (st : GvSt XR) (S : ℕ → ℕ → ℝ) (z : ℕ → ℝ) : Prop where
  low : ∀ i k, k < i → i < n → st.r i k = fin (S k i)
  up : ∀ i k, i < k → k < n → st.r i k = fin (R i k)
  done : ∀ k, k < j → k < n → st.r k k = fin (R k k) ∧ st.sdiag k = fin (S k k)
  todo : ∀ k, j ≤ k → k < n → st.r k k = fin (S k k)
  tri : ∀ k a, a < k → S k a = 0
  ewa : ∀ k, k < n → st.wa k = fin (z k)

/-- One rotation of sweep `j`. -/
theorem givensStep_inv {n j k : ℕ} {R S : ℕ → ℕ → ℝ} {z e : ℕ → ℝ} {q : ℝ} {st : GvSt XR} (h : GvStore n j R st S z) (hjk : j ≤ k) (hk : k < n)
    (he : ∀ i, k ≤ i → i < n → st.sdiag i = fin (e i)) (he0 : ∀ i, i < k → e i = 0) (hq : st.q = fin q) :
    ∃ (S' : ℕ → ℕ → ℝ) (z' e' : ℕ → ℝ) (q' : ℝ), GvStore n j R (givensStep st k) S' z' ∧
      (∀ i, k + 1 ≤ i → i < n → (givensStep st k).sdiag i = fin (e' i)) ∧ (∀ i, i < k + 1 → e' i = 0) ∧ (givensStep st k).q = fin q' ∧
      (∀ a b, ∑ r ∈ range n, S' r a * S' r b + e' a * e' b = ∑ r ∈ range n, S r a * S r b + e a * e b) ∧
      (∀ a, ∑ r ∈ range n, S' r a * z' r + e' a * q' = ∑ r ∈ range n, S r a * z r + e a * q) ∧
      (∀ r, r ≠ k → S' r = S r) ∧ (e k ≠ 0 → S' k k ≠ 0) ∧ (e k = 0 → S' k = S k) := by
  unfold givensStep
  rw [he k le_rfl hk, zero_def, feq_fin]
  by_cases h0 : e k = 0
  · rw [if_pos (by simpa using h0)]
    refine ⟨S, z, e, q, h, fun i hi => he i (by omega), fun i hi => ?_, hq, fun _ _ => rfl, fun _ => rfl, fun _ _ => rfl, fun hn => absurd h0 hn,
      fun _ => rfl⟩
    by_cases hik : i = k
    · rw [hik, h0]
    · exact he0 i (by omega)
  · rw [if_neg (by simpa using h0), h.todo k hjk hk]
    obtain ⟨c, s, hg, hcs, hann, hnz⟩ := givens_fin (S k k) (e k) h0
    simp only [hg]
    have hS'k : ∀ r a, r ≠ k → Function.update S k (fun a => c * S k a + s * e a) r a = S r a := fun r a hr => by
      rw [Function.update_of_ne hr]
    have hS'kk : ∀ a, Function.update S k (fun a => c * S k a + s * e a) k a = c * S k a + s * e a := fun a => by
      rw [Function.update_self]
    refine ⟨Function.update S k (fun a => c * S k a + s * e a), Function.update z k (c * z k + s * q), fun a => -s * S k a + c * e a,
      -s * z k + c * q, ?_, ?_, ?_, ?_, ?_, ?_, ?_, ?_, fun hn => absurd hn h0⟩
    · exact {
        low := fun i c' h1 h2 => by
          by_cases hc : c' = k
          · simp only
            rw [if_pos ⟨hc, by omega⟩, hc, hS'kk, h.low i k (by omega) h2, he i (by omega) h2, fin_mul, fin_mul, fin_add]
          · simp only
            rw [if_neg (by omega), hS'k _ _ hc, h.low i c' h1 h2]
        up := fun i c' h1 h2 => by
          simp only
          rw [if_neg (by omega), h.up i c' h1 h2]
        done := fun c' h1 h2 => by
          simp only
          rw [if_neg (by omega), if_neg (by omega), hS'k _ _ (by omega)]
          exact h.done c' h1 h2
        todo := fun c' h1 h2 => by
          simp only
          by_cases hc : c' = k
          · rw [if_pos ⟨hc, by omega⟩, hc, hS'kk, h.todo k hjk hk, he k le_rfl hk, fin_mul, fin_mul, fin_add]
          · rw [if_neg (by omega), hS'k _ _ hc, h.todo c' h1 h2]
        tri := fun r a h1 => by
          by_cases hr : r = k
          · rw [hr, hS'kk, h.tri k a (by omega), he0 a (by omega)]
            ring
          · rw [hS'k _ _ hr, h.tri r a h1]
        ewa := fun r hr => by
          simp only [Function.update_apply]
          split
          · rw [h.ewa k hk, hq, fin_mul, fin_mul, fin_add]
          · exact h.ewa r hr }
    · intro i h1 h2
      simp only
      rw [if_pos (by omega), h.low i k (by omega) h2, he i (by omega) h2, fin_neg, fin_mul, fin_mul, fin_add]
    · intro i hi
      by_cases hik : i = k
      · simp only
        rw [hik, hann]
      · simp only
        rw [h.tri k i (by omega), he0 i (by omega)]
        ring
    · rw [h.ewa k hk, hq, fin_neg, fin_mul, fin_mul, fin_add]
    · intro a b
      rw [sum_change hk (fun r => S r a * S r b) _ (fun r hr => by rw [hS'k r a hr, hS'k r b hr]), hS'kk, hS'kk]
      have : (c * S k a + s * e a) * (c * S k b + s * e b) + (-s * S k a + c * e a) * (-s * S k b + c * e b) =
          (c ^ 2 + s ^ 2) * (S k a * S k b + e a * e b) := by ring
      rw [hcs] at this
      linarith
    · intro a
      rw [sum_change hk (fun r => S r a * z r) _ (fun r hr => by rw [hS'k r a hr, Function.update_of_ne hr]), hS'kk, Function.update_self]
      have : (c * S k a + s * e a) * (c * z k + s * q) + (-s * S k a + c * e a) * (-s * z k + c * q) =
          (c ^ 2 + s ^ 2) * (S k a * z k + e a * q) := by ring
      rw [hcs] at this
      linarith
    · intro r hr
      rw [Function.update_of_ne hr]
    · intro _
      rw [hS'kk]
      exact hnz

/-- The rotations of sweep `j` from `k` on. -/
theorem givensLoop_inv {n j : ℕ} {R : ℕ → ℕ → ℝ} (len : ℕ) : ∀ (k : ℕ) {S : ℕ → ℕ → ℝ} {z e : ℕ → ℝ} {q : ℝ} {st : GvSt XR}, k + len = n →
    GvStore n j R st S z → j ≤ k → (∀ i, k ≤ i → i < n → st.sdiag i = fin (e i)) → (∀ i, i < k → e i = 0) → st.q = fin q →
    ∃ S' z', GvStore n j R ((List.range' k len).foldl givensStep st) S' z' ∧
      (∀ a b, a < n → b < n → ∑ r ∈ range n, S' r a * S' r b = ∑ r ∈ range n, S r a * S r b + e a * e b) ∧
      (∀ a, a < n → ∑ r ∈ range n, S' r a * z' r = ∑ r ∈ range n, S r a * z r + e a * q) ∧
      (∀ r, r < k → S' r = S r) ∧ (k < n → e k ≠ 0 → S' k k ≠ 0) := by
  induction len with
  | zero =>
    intro k S z e q st hk h _ _ he0 _
    refine ⟨S, z, h, fun a b ha hb => ?_, fun a ha => ?_, fun _ _ => rfl, fun h1 => absurd h1 (by omega)⟩
    · rw [he0 a (by omega), zero_mul, add_zero]
    · rw [he0 a (by omega), zero_mul, add_zero]
  | succ len ih =>
    intro k S z e q st hk h hjk he he0 hq
    rw [List.range'_succ, List.foldl_cons]
    obtain ⟨S1, z1, e1, q1, h1, he1, he01, hq1, hg1, hr1, ho1, hn1, hz1⟩ := givensStep_inv h hjk (by omega) he he0 hq
    obtain ⟨S2, z2, h2, hg2, hr2, ho2, -⟩ := ih (k + 1) (by omega) h1 (by omega) he1 he01 hq1
    refine ⟨S2, z2, h2, fun a b ha hb => ?_, fun a ha => ?_, fun r hr => ?_, fun _ hne => ?_⟩
    · rw [hg2 a b ha hb, hg1]
    · rw [hr2 a ha, hr1]
    · rw [ho2 r (by omega), ho1 r (by omega)]
    · rw [ho2 k (by omega)]
      exact hn1 hne

/-- One sweep. -/
theorem elimRow_inv {n j : ℕ} {ip : ℕ → ℕ} {R S : ℕ → ℕ → ℝ} {z D : ℕ → ℝ} {diag x0 : ℕ → XR} {st : GvSt XR} (h : GvStore n j R st S z) (hj : j < n)
    (hd : diag (ip j) = fin (D j)) (hx : x0 j = fin (R j j)) :
    ∃ S' z', GvStore n (j + 1) R (elimRow n ip diag x0 st j) S' z' ∧
      (∀ a b, a < n → b < n → ∑ r ∈ range n, S' r a * S' r b = ∑ r ∈ range n, S r a * S r b + if a = j ∧ b = j then D j ^ 2 else 0) ∧
      (∀ a, a < n → ∑ r ∈ range n, S' r a * z' r = ∑ r ∈ range n, S r a * z r) ∧
      (∀ r, r < j → S' r = S r) ∧ (D j ≠ 0 → S' j j ≠ 0) := by
  -- the state after the rotations
  have key : ∃ S' z', GvStore n j R (if feq (diag (ip j)) 0 then st
      else (List.range' j (n - j)).foldl givensStep
        { st with sdiag := fun k => if k = j then diag (ip j) else if j < k then 0 else st.sdiag k, q := 0 }) S' z' ∧
      (∀ a b, a < n → b < n → ∑ r ∈ range n, S' r a * S' r b = ∑ r ∈ range n, S r a * S r b + if a = j ∧ b = j then D j ^ 2 else 0) ∧
      (∀ a, a < n → ∑ r ∈ range n, S' r a * z' r = ∑ r ∈ range n, S r a * z r) ∧
      (∀ r, r < j → S' r = S r) ∧ (D j ≠ 0 → S' j j ≠ 0) := by
    rw [hd, zero_def, feq_fin]
    by_cases h0 : D j = 0
    · rw [if_pos (by simpa using h0)]
      refine ⟨S, z, h, fun a b _ _ => ?_, fun _ _ => rfl, fun _ _ => rfl, fun hn => absurd h0 hn⟩
      rw [h0]
      simp
    · rw [if_neg (by simpa using h0)]
      obtain ⟨S', z', h1, h2, h3, h4, h5⟩ := givensLoop_inv (R := R) (S := S) (z := z) (e := fun i => if i = j then D j else 0) (q := 0) (n - j) j
        (st := { st with sdiag := fun k => if k = j then fin (D j) else if j < k then fin 0 else st.sdiag k, q := fin 0 }) (by omega)
        { low := h.low, up := h.up, todo := h.todo, tri := h.tri, ewa := h.ewa
          done := fun k h1 h2 => by
            simp only
            rw [if_neg (by omega), if_neg (by omega)]
            exact h.done k h1 h2 } le_rfl
        (fun i h1 h2 => by
          simp only
          by_cases hij : i = j
          · rw [if_pos hij, if_pos hij]
          · rw [if_neg hij, if_neg hij, if_pos (by omega)])
        (fun i hi => if_neg (by omega)) rfl
      refine ⟨S', z', h1, fun a b ha hb => ?_, fun a ha => ?_, h4, fun hn => h5 hj (by rw [if_pos rfl]; exact hn)⟩
      · rw [h2 a b ha hb]
        congr 1
        by_cases ea : a = j
        · by_cases eb : b = j
          · rw [if_pos ea, if_pos eb, if_pos ⟨ea, eb⟩]; ring
          · rw [if_neg eb, if_neg (show ¬(a = j ∧ b = j) from fun h => eb h.2)]; ring
        · rw [if_neg ea, if_neg (show ¬(a = j ∧ b = j) from fun h => ea h.1)]; ring
      · rw [h3 a ha]
        ring
  obtain ⟨S', z', h1, h2, h3, h4, h5⟩ := key
  refine ⟨S', z', ?_, h2, h3, h4, h5⟩
  unfold elimRow
  simp only
  generalize (if feq (diag (ip j)) 0 then st
      else (List.range' j (n - j)).foldl givensStep
        { st with sdiag := fun k => if k = j then diag (ip j) else if j < k then 0 else st.sdiag k, q := 0 }) = st1 at h1
  exact {
    low := fun i k hk hi => by
      simp only
      rw [if_neg (by omega), h1.low i k hk hi]
    up := fun i k hk hi => by
      simp only
      rw [if_neg (by omega), h1.up i k hk hi]
    done := fun k hk hn => by
      simp only [Function.update_apply]
      by_cases hkj : k = j
      · rw [if_pos ⟨hkj, hkj⟩, if_pos hkj, hkj, hx, h1.todo j le_rfl hj]
        exact ⟨rfl, rfl⟩
      · rw [if_neg (by omega), if_neg hkj]
        exact h1.done k (by omega) hn
    todo := fun k hk hn => by
      simp only
      rw [if_neg (by omega), h1.todo k (by omega) hn]
    tri := h1.tri
    ewa := h1.ewa }

/-- All sweeps. -/
theorem elim_inv {n : ℕ} {ip : ℕ → ℕ} {R S : ℕ → ℕ → ℝ} {z D : ℕ → ℝ} {diag x0 : ℕ → XR} {st : GvSt XR} (h : GvStore n 0 R st S z)
    (hd : ∀ j, j < n → diag (ip j) = fin (D j)) (hx : ∀ j, j < n → x0 j = fin (R j j)) :
    ∃ S' z', GvStore n n R ((List.range n).foldl (elimRow n ip diag x0) st) S' z' ∧
      (∀ a b, a < n → b < n → ∑ r ∈ range n, S' r a * S' r b = ∑ r ∈ range n, S r a * S r b + if a = b then D a ^ 2 else 0) ∧
      (∀ a, a < n → ∑ r ∈ range n, S' r a * z' r = ∑ r ∈ range n, S r a * z r) ∧ (∀ j, j < n → D j ≠ 0 → S' j j ≠ 0) := by
  suffices H : ∀ t, t ≤ n → ∃ S' z', GvStore n t R ((List.range t).foldl (elimRow n ip diag x0) st) S' z' ∧
      (∀ a b, a < n → b < n → ∑ r ∈ range n, S' r a * S' r b = ∑ r ∈ range n, S r a * S r b + if a = b ∧ a < t then D a ^ 2 else 0) ∧
      (∀ a, a < n → ∑ r ∈ range n, S' r a * z' r = ∑ r ∈ range n, S r a * z r) ∧ (∀ j, j < t → D j ≠ 0 → S' j j ≠ 0) by
    obtain ⟨S', z', h1, h2, h3, h4⟩ := H n le_rfl
    refine ⟨S', z', h1, fun a b ha hb => ?_, h3, h4⟩
    rw [h2 a b ha hb]
    simp [ha]
  intro t
  induction t with
  | zero => exact fun _ => ⟨S, z, h, fun a b _ _ => by simp, fun _ _ => rfl, fun j hj => absurd hj (Nat.not_lt_zero j)⟩
  | succ t ih =>
    intro ht
    obtain ⟨S1, z1, h1, h2, h3, h4⟩ := ih (by omega)
    rw [List.range_succ, List.foldl_append, List.foldl_cons, List.foldl_nil]
    obtain ⟨S2, z2, g1, g2, g3, g4, g5⟩ := elimRow_inv h1 (show t < n by omega) (hd t (by omega)) (hx t (by omega))
    refine ⟨S2, z2, g1, fun a b ha hb => ?_, fun a ha => by rw [g3 a ha, h3 a ha], fun j hj hD => ?_⟩
    · rw [g2 a b ha hb, h2 a b ha hb, add_assoc]
      congr 1
      by_cases e1 : a = b
      · subst e1
        by_cases e2 : a = t
        · rw [if_neg (by omega), if_pos ⟨e2, e2⟩, if_pos ⟨rfl, by omega⟩, e2]; ring
        · by_cases e3 : a < t
          · rw [if_pos ⟨rfl, e3⟩, if_neg (by tauto), if_pos ⟨rfl, by omega⟩]; ring
          · rw [if_neg (by tauto), if_neg (by tauto), if_neg (by omega)]; ring
      · rw [if_neg (by tauto), if_neg (by omega), if_neg (by tauto)]; ring
    · by_cases e : j = t
      · rw [e]
        exact g5 (e ▸ hD)
      · rw [g4 j (by omega)]
        exact h4 j (by omega) hD

/-- No zero on the diagonal. -/
theorem firstZero_none {n : ℕ} {d : ℕ → XR} {D : ℕ → ℝ} (hd : ∀ j, j < n → d j = fin (D j)) (h0 : ∀ j, j < n → D j ≠ 0) : firstZero n d = n := by
  unfold firstZero
  rw [List.find?_eq_none.2]
  · rfl
  · intro j hj
    rw [hd j (List.mem_range.1 hj), zero_def, feq_fin]
    simpa using h0 j (List.mem_range.1 hj)

/-- The back substitution solves the triangular system. -/
theorem back_fin {n : ℕ} {S : ℕ → ℕ → ℝ} {z : ℕ → ℝ} {r : Arr2 XR} {sdiag w0 : ℕ → XR} (hr : ∀ i k, k < i → i < n → r i k = fin (S k i))
    (hs : ∀ k, k < n → sdiag k = fin (S k k)) (h0 : ∀ k, k < n → S k k ≠ 0) (hw : ∀ k, k < n → w0 k = fin (z k)) :
    ∃ w : ℕ → ℝ, (∀ i, i < n → (List.range n).foldl (backStep n r sdiag) w0 i = fin (w i)) ∧
      ∀ j, j < n → ∑ i ∈ Ico j n, S j i * w i = z j := by
  suffices H : ∀ t, t ≤ n → ∃ w : ℕ → ℝ, (∀ i, i < n → (List.range t).foldl (backStep n r sdiag) w0 i = fin (w i)) ∧
      (∀ j, j < n → n - t ≤ j → ∑ i ∈ Ico j n, S j i * w i = z j) ∧ ∀ j, j < n - t → w j = z j by
    obtain ⟨w, h1, h2, -⟩ := H n le_rfl
    exact ⟨w, h1, fun j hj => h2 j hj (by omega)⟩
  intro t
  induction t with
  | zero => exact fun _ => ⟨z, hw, fun j h1 h2 => absurd h1 (by omega), fun _ _ => rfl⟩
  | succ t ih =>
    intro ht
    obtain ⟨w, h1, h2, h3⟩ := ih (by omega)
    rw [List.range_succ, List.foldl_append, List.foldl_cons, List.foldl_nil]
    generalize (List.range t).foldl (backStep n r sdiag) w0 = W at h1 ⊢
    set j := n - t - 1 with hj
    have hjn : j < n := by omega
    refine ⟨Function.update w j ((w j - ∑ i ∈ Ico (j + 1) n, S j i * w i) / S j j), fun i hi => ?_, fun k hk hk2 => ?_, fun k hk => ?_⟩
    · unfold backStep
      rw [← hj]
      rw [sumFrom_fin (j + 1) n _ (fun i => S j i * w i) fun i g1 g2 => by rw [hr i j (by omega) g2, h1 i g2, fin_mul]]
      rw [Function.update_apply, Function.update_apply]
      split
      · rw [h1 j hjn, hs j hjn, fin_sub, fin_div_of_ne (h0 j hjn)]
      · exact h1 i hi
    · by_cases hkj : k = j
      · subst hkj
        have e : ∀ v : ℝ, ∑ i ∈ Ico (j + 1) n, S j i * Function.update w j v i = ∑ i ∈ Ico (j + 1) n, S j i * w i := fun v =>
          Finset.sum_congr rfl fun i hi => by
            have := Finset.mem_Ico.1 hi
            rw [Function.update_of_ne (show i ≠ j by omega)]
        rw [Finset.sum_eq_sum_Ico_succ_bot hjn, Function.update_self, e, mul_div_cancel₀ _ (h0 j hjn), h3 j (by omega)]
        ring
      · rw [← h2 k hk (by omega)]
        refine Finset.sum_congr rfl fun i hi => ?_
        have := Finset.mem_Ico.1 hi
        rw [Function.update_of_ne (show i ≠ j by omega)]
    · rw [Function.update_of_ne (show k ≠ j by omega)]
      exact h3 k (by omega)

/-- `x[ipvt[j]] = w[j]` -/
theorem permute_apply {α : Type} {n : ℕ} {ip : ℕ → ℕ} (hinj : ∀ a b, a < n → b < n → ip a = ip b → a = b) (w x : ℕ → α) {j : ℕ} (hj : j < n) :
    permute n ip w x (ip j) = w j := by
  unfold permute
  suffices H : ∀ t, t ≤ n → ∀ j, j < t → (List.range t).foldl (fun x j => Function.update x (ip j) (w j)) x (ip j) = w j from H n le_rfl j hj
  intro t
  induction t with
  | zero => exact fun _ j hj => absurd hj (Nat.not_lt_zero j)
  | succ t ih =>
    intro ht j hj
    rw [List.range_succ, List.foldl_append, List.foldl_cons, List.foldl_nil]
    by_cases h : j = t
    · rw [h, Function.update_self]
    · rw [Function.update_of_ne]
      · exact ih (by omega) j (by omega)
      · intro hh
        exact h (hinj j t (by omega) (by omega) hh)

theorem sum_tri {n j : ℕ} {S : ℕ → ℕ → ℝ} (hj : j ≤ n) (htri : ∀ a, a < j → S j a = 0) (w : ℕ → ℝ) :
    ∑ b ∈ range n, S j b * w b = ∑ b ∈ Ico j n, S j b * w b := by
  rw [range_split hj, Finset.sum_eq_zero, zero_add]
  intro a ha
  rw [htri a (Finset.mem_range.1 ha), zero_mul]

/-- What `mp_qrsolv` leaves: `R` above the diagonal and on it, `S` below it and in `sdiag`; and the solution. -/
structure QrSolved (n : ℕ) (ip : ℕ → ℕ) (R : ℕ → ℕ → ℝ) (c D : ℕ → ℝ) (out : Arr2 XR × (ℕ → XR) × (ℕ → XR)) (S : ℕ → ℕ → ℝ) (w : ℕ → ℝ) : Prop where
  up : ∀ i k, i ≤ k → k < n → out.1 i k = fin (R i k)
  low : ∀ i k, k < i → i < n → out.1 i k = fin (S k i)
  diag : ∀ k, k < n → out.2.1 k = fin (S k k)
  nz : ∀ k, k < n → S k k ≠ 0
  tri : ∀ k a, a < k → S k a = 0
  x : ∀ j, j < n → out.2.2 (ip j) = fin (w j)
  gram : ∀ a b, a < n → b < n → ∑ r ∈ range n, S r a * S r b = ∑ r ∈ range n, R r a * R r b + if a = b then D a ^ 2 else 0
  normal : ∀ a, a < n → ∑ b ∈ range n, (∑ r ∈ range n, R r a * R r b) * w b + D a ^ 2 * w a = ∑ r ∈ range n, R r a * c r

theorem qrsolv_fin {n : ℕ} {ip : ℕ → ℕ} {R : ℕ → ℕ → ℝ} {c D : ℕ → ℝ} {r : Arr2 XR} {diag qtb x sdiag : ℕ → XR}
    (hinj : ∀ a b, a < n → b < n → ip a = ip b → a = b) (hr : ∀ i k, i ≤ k → k < n → r i k = fin (R i k)) (htri : ∀ k a, a < k → R k a = 0)
    (hd : ∀ j, j < n → diag (ip j) = fin (D j)) (hD : ∀ j, j < n → D j ≠ 0) (hq : ∀ j, j < n → qtb j = fin (c j)) :
    ∃ S w, QrSolved n ip R c D (qrsolv n r ip diag qtb x sdiag) S w := by
  have h0 : GvStore n 0 R (⟨fun i j => if j ≤ i then r j i else r i j, sdiag, qtb, 0⟩ : GvSt XR) R c := {
    low := fun i k h1 h2 => by simp only; rw [if_pos h1.le, hr k i h1.le h2]
    up := fun i k h1 h2 => by simp only; rw [if_neg (by omega), hr i k h1.le h2]
    done := fun k h1 => absurd h1 (Nat.not_lt_zero k)
    todo := fun k _ h2 => by simp only; rw [if_pos le_rfl, hr k k le_rfl h2]
    tri := htri
    ewa := hq }
  obtain ⟨S, z, h1, h2, h3, h4⟩ := elim_inv (ip := ip) (D := D) (diag := diag) (x0 := fun j => r j j) h0 hd fun j hj => hr j j le_rfl hj
  have hnz : ∀ k, k < n → S k k ≠ 0 := fun k hk => h4 k hk (hD k hk)
  unfold qrsolv
  simp only
  generalize (List.range n).foldl (elimRow n ip diag fun j => r j j) (⟨fun i j => if j ≤ i then r j i else r i j, sdiag, qtb, 0⟩ : GvSt XR) = st at h1
  have hs : ∀ k, k < n → st.sdiag k = fin (S k k) := fun k hk => (h1.done k hk hk).2
  rw [firstZero_none hs hnz]
  obtain ⟨w, hw1, hw2⟩ := back_fin (r := st.r) (sdiag := st.sdiag) (w0 := fun j => if n ≤ j then 0 else st.wa j) (z := z) h1.low hs hnz
    (fun k hk => by rw [if_neg (by omega), h1.ewa k hk])
  refine ⟨S, w, ?_⟩
  exact {
    up := fun i k h5 h6 => by
      simp only
      rcases Nat.lt_or_ge i k with h7 | h7
      · exact h1.up i k h7 h6
      · rw [show i = k by omega]
        exact (h1.done k h6 h6).1
    low := h1.low
    diag := hs
    nz := hnz
    tri := h1.tri
    x := fun j hj => by
      simp only
      rw [permute_apply hinj _ _ hj, hw1 j hj]
    gram := h2
    normal := fun a ha => by
      rw [← h3 a ha]
      have e : ∀ b ∈ range n, (∑ r ∈ range n, R r a * R r b) * w b =
          (∑ r ∈ range n, S r a * S r b) * w b - (if a = b then D a ^ 2 else 0) * w b := by
        intro b hb
        rw [h2 a b ha (Finset.mem_range.1 hb)]
        ring
      rw [Finset.sum_congr rfl e, Finset.sum_sub_distrib]
      have e2 : ∑ b ∈ range n, (if a = b then D a ^ 2 else 0) * w b = D a ^ 2 * w a := by
        rw [Finset.sum_eq_single a]
        · rw [if_pos rfl]
        · intro b _ hb
          rw [if_neg (fun h => hb h.symm), zero_mul]
        · exact fun h => absurd (Finset.mem_range.2 ha) h
      rw [e2, sub_add_cancel]
      have e3 : ∀ b ∈ range n, (∑ r ∈ range n, S r a * S r b) * w b = ∑ r ∈ range n, S r a * (S r b * w b) := by
        intro b _
        rw [Finset.sum_mul]
        exact Finset.sum_congr rfl fun r _ => by ring
      rw [Finset.sum_congr rfl e3, Finset.sum_comm]
      refine Finset.sum_congr rfl fun r hr' => ?_
      have hrn := Finset.mem_range.1 hr'
      rw [← Finset.mul_sum, sum_tri hrn.le (h1.tri r), hw2 r hrn] }

end

end Imfit
