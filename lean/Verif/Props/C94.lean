import Verif.Model.Jacobian
import Verif.Spec.Jacobian
import Verif.Lemmas.LevMarXR
import Verif.Lemmas.Householder
import Verif.Lemmas.DriverStart
import Mathlib.Analysis.Calculus.MeanValue

/-!
# C94: the Jacobian is made of difference quotients

In exact arithmetic. The deviates are any function of the parameters.
-/

namespace Imfit

open XR Spec

theorem fdSize_eq (r : ℝ) : fdSize r = stepSize r := by
  have e : ((MACHEP0 : ℚ) : ℝ) = 2220446 / 10 ^ 22 := by unfold MACHEP0; norm_num
  unfold fdSize stepSize
  rw [e]
  split_ifs <;> simp

theorem stepSize_pos (r : ℝ) : 0 < stepSize r := fdSize_eq r ▸ fdSize_pos r

/-- The arrays of limits of the free parameters are those of `ls`; there are none if no limits were given. -/
def LimitArrays {n : ℕ} (lims : List (FreeLim XR)) (ls : Fin n → Limit) : Prop :=
  (lims = [] ∧ ∀ j, (ls j).Free) ∨ (lims.length = n ∧ ∀ (j : Fin n) q, lims[(j : ℕ)]? = some q → Describes (ls j) q)

theorem LimitArrays.step {n : ℕ} {lims : List (FreeLim XR)} {ls : Fin n → Limit} (h : LimitArrays lims ls) (j : Fin n) (r : ℝ) :
    fdStep lims[(j : ℕ)]? (fin r) = fin (if ∃ b, (ls j).upper = some b ∧ b - stepSize r < r then -stepSize r else stepSize r) := by
  have key : ∀ q, Describes (ls j) q →
      fdStep (some q) (fin r) = fin (if ∃ b, (ls j).upper = some b ∧ b - stepSize r < r then -stepSize r else stepSize r) := by
    intro q hd
    unfold fdStep
    simp only [fdH_fin, fdSize_eq]
    cases hu : (ls j).upper with
    | none => simp [hd.qu, hu]
    | some b =>
      rw [hd.qu, hd.ul b hu, hu]
      simp only [Option.isSome_some, Bool.true_and, fin_sub, flt_fin, decide_eq_true_eq, Option.some.injEq, exists_eq_left', fin_neg]
      split_ifs <;> rfl
  rcases h with ⟨rfl, h⟩ | ⟨hl, h⟩
  · simp [fdStep, fdH_fin, fdSize_eq, (h j).2]
  · have hj : (j : ℕ) < lims.length := by rw [hl]; exact j.2
    rw [List.getElem?_eq_getElem hj]
    exact key _ (h j _ (List.getElem?_eq_getElem hj))

theorem reals_length {n : ℕ} (v : Fin n → ℝ) : (reals v).length = n := by simp [reals]

theorem reals_rd {n : ℕ} (v : Fin n → ℝ) (i : Fin n) : rd (reals v) i = .ok (fin (v i)) := by
  rw [rd_ok (by rw [reals_length]; exact i.2)]
  simp [reals]

theorem reals_wr {n : ℕ} (v : Fin n → ℝ) (i : Fin n) (a : ℝ) : wr (reals v) i (fin a) = .ok (reals (Function.update v i a)) := by
  rw [wr_ok (by rw [reals_length]; exact i.2)]
  congr 1
  refine List.ext_getElem (by simp [reals]) fun k h1 h2 => ?_
  simp only [reals, List.getElem_set, List.getElem_ofFn]
  by_cases hk : (i : ℕ) = k
  · subst hk; simp
  · rw [if_neg hk, Function.update_of_ne (by intro e; exact hk (by rw [← e]))]

theorem fdColumn_reals {m : ℕ} (f w : Fin m → ℝ) (h : ℝ) (hh : h ≠ 0) :
    fdColumn m (reals f) (reals w) (fin h) = .ok (reals fun i => (w i - f i) / h) := by
  unfold fdColumn
  refine loopMap_of_forall _ _ _ (reals_length _) fun i hi => ?_
  have hm : i < m := by simpa [reals] using hi
  have e1 := reals_rd w ⟨i, hm⟩
  have e2 := reals_rd f ⟨i, hm⟩
  simp only at e1 e2
  rw [e1, e2]
  simp only [ok_bind, reals, List.getElem_ofFn, fin_sub, fin_div_of_ne hh]
  rfl

/-- Each column is the difference quotient of the deviates with the change `h j` of its parameter, which has the size that the specification gives, and is
negative exactly if the upper limit of the parameter would be crossed. All other parameters, also the fixed ones, keep their values. -/
theorem C94_quotient {p m n : ℕ} (D : (Fin p → ℝ) → Fin m → ℝ) (dev : List XR → List XR) (hD : Computes dev D) (fr : Fin n → Fin p)
    (lims : List (FreeLim XR)) (ls : Fin n → Limit) (hl : LimitArrays lims ls) (x : Fin p → ℝ) (hsz : n * m ≤ 2147483647) :
    ∃ h : Fin n → ℝ, (∀ j, |h j| = stepSize (x (fr j))) ∧ (∀ j, h j < 0 ↔ ∃ b, (ls j).upper = some b ∧ b - stepSize (x (fr j)) < x (fr j)) ∧
      fdJac dev (List.ofFn fun j => (fr j : ℕ)) lims m (reals x) (reals (D x)) = .ok (List.ofFn fun j => reals (quotient D x (fr j) (h j))) := by
  classical
  refine ⟨fun j => if ∃ b, (ls j).upper = some b ∧ b - stepSize (x (fr j)) < x (fr j) then -stepSize (x (fr j)) else stepSize (x (fr j)), ?_, ?_, ?_⟩
  · intro j
    have := stepSize_pos (x (fr j))
    beta_reduce
    split_ifs
    · rw [abs_neg, abs_of_pos this]
    · rw [abs_of_pos this]
  · intro j
    have := stepSize_pos (x (fr j))
    beta_reduce
    split_ifs with h
    · exact ⟨fun _ => h, fun _ => by linarith⟩
    · exact ⟨fun h' => by linarith, fun h' => absurd h' h⟩
  · unfold fdJac
    rw [List.length_ofFn, if_neg (by unfold INT_MAX32; omega)]
    refine loopMap_of_forall _ _ _ (by simp) fun j hj => ?_
    have hn : j < n := by simpa using hj
    unfold fdOne
    have e1 : rd (List.ofFn fun j => (fr j : ℕ)) j = .ok (fr ⟨j, hn⟩ : ℕ) := by
      rw [rd_ok (by simpa using hn)]
      simp
    rw [e1]
    simp only [ok_bind]
    rw [reals_rd]
    simp only [ok_bind]
    have e2 := hl.step ⟨j, hn⟩ (x (fr ⟨j, hn⟩))
    simp only at e2
    rw [e2, fin_add, reals_wr]
    simp only [ok_bind]
    rw [hD, fdColumn_reals]
    · simp only [List.getElem_ofFn]
      rfl
    · have := stepSize_pos (x (fr ⟨j, hn⟩))
      split_ifs
      · exact (neg_neg_of_pos this).ne
      · exact this.ne'

/-- For deviates that are linear in the parameters the Jacobian is exact, whatever the step. -/
theorem C94_linear {p m n : ℕ} (b : Fin m → ℝ) (A : Fin m → Fin p → ℝ) (dev : List XR → List XR)
    (hD : Computes dev fun x i => b i + ∑ k, A i k * x k) (fr : Fin n → Fin p) (lims : List (FreeLim XR)) (ls : Fin n → Limit)
    (hl : LimitArrays lims ls) (x : Fin p → ℝ) (hsz : n * m ≤ 2147483647) :
    fdJac dev (List.ofFn fun j => (fr j : ℕ)) lims m (reals x) (reals fun i => b i + ∑ k, A i k * x k) =
      .ok (List.ofFn fun j => reals fun i => A i (fr j)) := by
  obtain ⟨h, h1, _, h3⟩ := C94_quotient _ dev hD fr lims ls hl x hsz
  rw [h3]
  congr 2
  funext j
  congr 1
  funext i
  have hh : h j ≠ 0 := by
    intro e
    have := h1 j
    rw [e, abs_zero] at this
    exact (stepSize_pos _).ne this
  unfold quotient
  rw [div_eq_iff hh]
  have e : ∀ k, A i k * Function.update x (fr j) (x (fr j) + h j) k = A i k * x k + if k = fr j then A i (fr j) * h j else 0 := by
    intro k
    by_cases hk : k = fr j
    · subst hk; simp; ring
    · rw [Function.update_of_ne hk, if_neg hk, add_zero]
  simp only [e, Finset.sum_add_distrib, Finset.sum_ite_eq', Finset.mem_univ, if_true]
  ring

/-- The error of a one-sided difference quotient. -/
theorem quotient_error {f f' : ℝ → ℝ} {a h M : ℝ} (hh : h ≠ 0) (hf : ∀ t ∈ Set.uIcc a (a + h), HasDerivAt f (f' t) t)
    (hM : ∀ t ∈ Set.uIcc a (a + h), |f' t - f' a| ≤ M * |t - a|) : |(f (a + h) - f a) / h - f' a| ≤ M / 2 * |h| := by
  set s : ℝ := if 0 < h then 1 else -1 with hs
  have hsh : s * |h| = h := by
    rw [hs]
    rcases lt_or_gt_of_ne hh with h0 | h0
    · rw [if_neg h0.not_gt, abs_of_neg h0]; ring
    · rw [if_pos h0, abs_of_pos h0]; ring
  have hs1 : |s| = 1 := by rw [hs]; split_ifs <;> simp
  have hmem : ∀ u ∈ Set.Icc (0 : ℝ) |h|, a + s * u ∈ Set.uIcc a (a + h) := by
    intro u hu
    rw [Set.mem_uIcc, hs]
    rcases lt_or_gt_of_ne hh with h0 | h0
    · rw [abs_of_neg h0] at hu
      right
      rw [if_neg h0.not_gt]
      exact ⟨by linarith [hu.2], by linarith [hu.1]⟩
    · rw [abs_of_pos h0] at hu
      left
      rw [if_pos h0]
      exact ⟨by linarith [hu.1], by linarith [hu.2]⟩
  have hd : ∀ u ∈ Set.Icc (0 : ℝ) |h|, HasDerivAt (fun u => f (a + s * u) - f a - s * u * f' a) (s * (f' (a + s * u) - f' a)) u := by
    intro u hu
    have h1 : HasDerivAt (fun u => a + s * u) s u := by simpa using ((hasDerivAt_id u).const_mul s).const_add a
    have h2 := (hf _ (hmem u hu)).comp u h1
    have h3 : HasDerivAt (fun u => s * u * f' a) (s * f' a) u := by simpa using ((hasDerivAt_id u).const_mul s).mul_const (f' a)
    have h4 := (h2.sub_const (f a)).sub h3
    refine h4.congr_deriv ?_
    ring
  have hB : ∀ u : ℝ, HasDerivAt (fun u => M / 2 * u ^ 2) (M * u) u := by
    intro u
    refine ((hasDerivAt_pow 2 u).const_mul (M / 2)).congr_deriv ?_
    simp
    ring
  have hk := image_norm_le_of_norm_deriv_right_le_deriv_boundary (a := 0) (b := |h|) (f := fun u => f (a + s * u) - f a - s * u * f' a)
    (f' := fun u => s * (f' (a + s * u) - f' a)) (B := fun u => M / 2 * u ^ 2) (B' := fun u => M * u)
    (fun u hu => (hd u hu).continuousAt.continuousWithinAt) (fun u hu => (hd u ⟨hu.1, hu.2.le⟩).hasDerivWithinAt) (by simp) hB
    (fun u hu => by
      have h1 := hM _ (hmem u ⟨hu.1, hu.2.le⟩)
      rw [Real.norm_eq_abs, abs_mul, hs1, one_mul]
      refine h1.trans_eq ?_
      rw [add_sub_cancel_left, abs_mul, hs1, one_mul, abs_of_nonneg hu.1])
    ⟨abs_nonneg h, le_rfl⟩
  rw [Real.norm_eq_abs] at hk
  simp only [hsh, sq_abs] at hk
  have e : (f (a + h) - f a) / h - f' a = (f (a + h) - f a - h * f' a) / h := by field_simp
  rw [e, abs_div, div_le_iff₀ (abs_pos.2 hh), mul_assoc, ← sq, sq_abs]
  exact hk

/-- The column of a parameter differs from the derivatives of the deviates by at most half of the step times a bound of the second derivative, between the
two points. -/
theorem C94_error {p m n : ℕ} (D : (Fin p → ℝ) → Fin m → ℝ) (dev : List XR → List XR) (hD : Computes dev D) (fr : Fin n → Fin p)
    (lims : List (FreeLim XR)) (ls : Fin n → Limit) (hl : LimitArrays lims ls) (x : Fin p → ℝ) (hsz : n * m ≤ 2147483647)
    (D' : Fin m → Fin n → ℝ → ℝ) (M : Fin m → Fin n → ℝ)
    (hD1 : ∀ i j t, |t - x (fr j)| ≤ stepSize (x (fr j)) → HasDerivAt (fun t => D (Function.update x (fr j) t) i) (D' i j t) t)
    (hD2 : ∀ i j t, |t - x (fr j)| ≤ stepSize (x (fr j)) → |D' i j t - D' i j (x (fr j))| ≤ M i j * |t - x (fr j)|) :
    ∃ J : Fin m → Fin n → ℝ, fdJac dev (List.ofFn fun j => (fr j : ℕ)) lims m (reals x) (reals (D x)) = .ok (List.ofFn fun j => reals fun i => J i j) ∧
      ∀ i j, |J i j - D' i j (x (fr j))| ≤ M i j / 2 * stepSize (x (fr j)) := by
  obtain ⟨h, h1, _, h3⟩ := C94_quotient D dev hD fr lims ls hl x hsz
  refine ⟨fun i j => quotient D x (fr j) (h j) i, h3, fun i j => ?_⟩
  have hh : h j ≠ 0 := by
    intro e
    have := h1 j
    rw [e, abs_zero] at this
    exact (stepSize_pos _).ne this
  have hnear : ∀ t ∈ Set.uIcc (x (fr j)) (x (fr j) + h j), |t - x (fr j)| ≤ stepSize (x (fr j)) := by
    intro t ht
    rw [← h1 j]
    have := Set.abs_sub_left_of_mem_uIcc ht
    simpa using this
  have := quotient_error (f := fun t => D (Function.update x (fr j) t) i) (f' := D' i j) hh (fun t ht => hD1 i j t (hnear t ht))
    (fun t ht => hD2 i j t (hnear t ht))
  rw [h1 j] at this
  simpa only [quotient, Function.update_eq_self] using this

/-- For more than 2147483647 elements, the product of the numbers of free parameters and of pixels, two `int`, overflows. -/
theorem C94_size_false (dev : List XR → List XR) (fr : List ℕ) (lims : List (FreeLim XR)) (m : ℕ) (x f : List XR) (h : 2147483647 < fr.length * m) :
    fdJac dev fr lims m x f = .error .overflow := by
  unfold fdJac
  rw [if_pos (by exact h)]

/-- Every function of the parameters is computed by some program. -/
example {p m : ℕ} (D : (Fin p → ℝ) → Fin m → ℝ) : ∃ dev, Computes dev D :=
  ⟨fun l => reals (D fun i => match l[(i : ℕ)]? with
    | some (fin r) => r
    | _ => 0), fun x => by
    beta_reduce
    congr 2
    funext i
    simp [reals]⟩

/-- 40 free parameters and an image of 8000 by 8000 pixels. -/
example (dev : List XR → List XR) (x f : List XR) : fdJac dev (List.range 40) [] (8000 * 8000) x f = .error .overflow :=
  C94_size_false _ _ _ _ _ _ (by simp)

/-- Two deviates `3 a - 2 c` and `a + c + 7` of three parameters `a`, `b`, `c`; `a` and `c` are free, `c` is at its upper limit. -/
example (dev : List XR → List XR) (hD : Computes dev fun (x : Fin 3 → ℝ) (i : Fin 2) => ![0, 7] i + ∑ k, !![3, 0, -2; 1, 0, 1] i k * x k)
    (x : Fin 3 → ℝ) (f : List XR) (hf : f = reals fun i => ![0, 7] i + ∑ k, !![3, 0, -2; 1, 0, 1] i k * x k) :
    fdJac dev [0, 2] [⟨false, false, fin 0, fin 0⟩, ⟨true, true, fin 0, fin (x 2)⟩] 2 (reals x) f = .ok [[fin 3, fin 1], [fin (-2), fin 1]] := by
  subst hf
  have h := C94_linear ![0, 7] !![3, 0, -2; 1, 0, 1] dev hD ![0, 2] [⟨false, false, fin 0, fin 0⟩, ⟨true, true, fin 0, fin (x 2)⟩]
    ![⟨false, none, none⟩, ⟨false, some 0, some (x 2)⟩] (Or.inr ⟨rfl, fun j q hq => by
      fin_cases j
      · simp at hq
        subst hq
        exact ⟨rfl, rfl, by simp, by simp⟩
      · simp at hq
        subst hq
        exact ⟨rfl, rfl, by simp, by simp⟩⟩) x (by norm_num)
  simpa [reals, List.ofFn_succ] using h

end Imfit
