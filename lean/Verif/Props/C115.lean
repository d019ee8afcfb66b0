import Verif.Model.Spline
import Verif.Spec.Spline
import Verif.Model.XR
import Verif.Lemmas.Fit
import Mathlib.Tactic.FieldSimp
import Mathlib.Tactic.IntervalCases
import Mathlib.Tactic.LinearCombination
import Mathlib.Tactic.Linarith
import Mathlib.Tactic.NormNum
import Mathlib.Tactic.Positivity

/-!
# C115: `Spline1D` is the natural cubic spline through its points

For three or four points with increasing radii the value at a distance up to the last radius is that of the natural cubic spline through the points: `C115_value_partial`. There is such a
spline (`C115_exists`), so it is the only one on the interval. `C115_runs` says for which parameters the program goes on.

It fails in these cases.

* Two points, which the comment in the header offers, abort the program (`C115_two_false`).
* So does a distance beyond the last point (`C115_beyond_false`), and so do radii that do not increase, which a fit can always try (`C115_runs`).
* With `N = 1` parameters of the next function are read, or the array beyond its end (`C115_one_false`).
* `N = 5` is refused but stored (`C115_five_false`).
* The spline of positive values may be negative (`C115_negative_false`), although the model is shown in magnitudes.

`profilefit` never calls `SetExtraParams`, so that `N` is always 4 there.
-/

namespace Imfit

open Spec XR

/-- A cubic by its values and second derivatives at the two ends. -/
theorem cubic_local (q : Cubic) (u v t : ℝ) (h : v - u ≠ 0) :
    q.val (u + t) = q.val u + t * ((q.val v - q.val u) / (v - u) - (v - u) * (q.curv v / 2 + 2 * (q.curv u / 2)) / 3 + t * (q.curv u / 2 + t * ((q.curv v / 2 - q.curv u / 2) / (3 * (v - u))))) := by
  unfold Cubic.val Cubic.curv
  field_simp
  ring

theorem cubic_slope_left (q : Cubic) (u v : ℝ) (h : v - u ≠ 0) : q.slope u = (q.val v - q.val u) / (v - u) - (v - u) * (q.curv v / 2 + 2 * (q.curv u / 2)) / 3 := by
  unfold Cubic.val Cubic.curv Cubic.slope
  field_simp
  ring

theorem cubic_slope_right (q : Cubic) (u v : ℝ) (h : v - u ≠ 0) : q.slope v = (q.val v - q.val u) / (v - u) + (v - u) * (2 * (q.curv v / 2) + q.curv u / 2) / 3 := by
  unfold Cubic.val Cubic.curv Cubic.slope
  field_simp
  ring

/-! ## The library -/

/-- The value on one interval. -/
noncomputable def pieceVal (u v yu yv cu cv r : ℝ) : ℝ := yu + (r - u) * ((yv - yu) / (v - u) - (v - u) * (cv + 2 * cu) / 3 + (r - u) * (cu + (r - u) * ((cv - cu) / (3 * (v - u)))))

theorem pieceVal_eq (q : Cubic) (u v r : ℝ) (h : v - u ≠ 0) : pieceVal u v (q.val u) (q.val v) (q.curv u / 2) (q.curv v / 2) r = q.val r := by
  have := cubic_local q u v (r - u) h
  rw [show u + (r - u) = r by ring] at this
  rw [this, pieceVal]

noncomputable def rpoints (n : ℕ) (x y : ℕ → ℝ) : List (XR × XR) := (List.range n).map fun i => (fin (x i), fin (y i))

theorem rd_rpoints (n : ℕ) (x y : ℕ → ℝ) (i : ℕ) (h : i < n) : rd (rpoints n x y) i = .ok (fin (x i), fin (y i)) := by
  rw [rd_ok (by simpa [rpoints] using h)]
  simp [rpoints]

/-- The equation for the slopes at the common point of two intervals. -/
theorem slopes_agree (q q' : Cubic) (u v w : ℝ) (h : v - u ≠ 0) (h' : w - v ≠ 0) (hv : q.val v = q'.val v) (hs : q.slope v = q'.slope v) (hc : q.curv v = q'.curv v) :
    (v - u) * (q.curv u / 2) + 2 * ((w - v) + (v - u)) * (q.curv v / 2) + (w - v) * (q'.curv w / 2) = 3 * ((q'.val w - q.val v) / (w - v) - (q.val v - q.val u) / (v - u)) := by
  rw [cubic_slope_right q u v h, cubic_slope_left q' v w h', ← hv, ← hc] at hs
  linear_combination (3 : ℝ) * hs

/-- On its interval the library's value is that of the spline, if the coefficients are right. -/
theorem gslEval_eq (n : ℕ) (x y c : ℕ → ℝ) (hn : 2 ≤ n) (hx : ∀ i, i + 1 < n → x i < x (i + 1)) (r : ℝ) (h0 : x 0 ≤ r) (h1 : r ≤ x (n - 1)) (i : ℕ) (hi : i + 1 < n)
    (hidx : splineIndex (fin r) 0 (rpoints n x y) = i) :
    gslEval ⟨rpoints n x y, (List.range n).map fun i => fin (c i)⟩ (fin r) = .ok (fin (pieceVal (x i) (x (i + 1)) (y i) (y (i + 1)) (c i) (c (i + 1)) r)) := by
  have hl : (rpoints n x y).length = n := by simp [rpoints]
  have hc (j : ℕ) (hj : j < n) : rd ((List.range n).map fun i => fin (c i)) j = .ok (fin (c j)) := by
    rw [rd_ok (by simpa using hj)]
    simp
  have hd : x (i + 1) - x i ≠ 0 := (sub_pos.2 (hx i hi)).ne'
  have h3 : (3 : ℝ) * (x (i + 1) - x i) ≠ 0 := mul_ne_zero (by norm_num) hd
  unfold gslEval
  dsimp only
  rw [hl, rd_rpoints n x y 0 (by omega), ok_bind, rd_rpoints n x y (n - 1) (by omega), ok_bind, flt_fin, flt_fin, decide_eq_false (not_lt.2 h0), decide_eq_false (not_lt.2 h1), if_neg (by simp), hidx,
    rd_rpoints n x y i (by omega), ok_bind, rd_rpoints n x y (i + 1) (by omega), ok_bind, hc i (by omega), ok_bind, hc (i + 1) hi, ok_bind]
  simp only [lit_def, fin_sub, fin_add, fin_mul]
  rw [fin_div_of_ne hd, fin_div_of_ne (by norm_num), fin_div_of_ne (by push_cast; exact h3)]
  simp only [fin_sub, fin_add, fin_mul, pieceVal]
  push_cast
  rfl

theorem increasing_rpoints (n : ℕ) (x y : ℕ → ℝ) : increasing (rpoints n x y) = true ↔ ∀ i, i + 1 < n → x i < x (i + 1) := by
  suffices h : ∀ n a, increasing ((List.range' a n).map fun i => (fin (x i), fin (y i))) = true ↔ ∀ i, a ≤ i → i + 1 < a + n → x i < x (i + 1) by
    have := h n 0
    rw [← List.range_eq_range'] at this
    simpa [rpoints] using this
  intro n
  induction n with
  | zero => intro a; simp [increasing]; intro i h1 h2; omega
  | succ n ih =>
    intro a
    match n with
    | 0 => simp [increasing]; intro i h1 h2; omega
    | m + 1 =>
      have := ih (a + 1)
      rw [List.range'_succ, List.range'_succ] at *
      simp only [List.map_cons] at *
      rw [increasing, flt_fin]
      by_cases h : x a < x (a + 1)
      · rw [decide_eq_true h, if_pos rfl]
        rw [this]
        constructor
        · intro g i h1 h2
          rcases Nat.eq_or_lt_of_le h1 with rfl | h3
          · exact h
          · exact g i h3 (by omega)
        · intro g i h1 h2
          exact g i (by omega) (by omega)
      · rw [decide_eq_false h, if_neg (by simp)]
        simp only [Bool.false_eq_true, false_iff, not_forall]
        exact ⟨a, le_rfl, by omega, h⟩

noncomputable def c3 (x y : ℕ → ℝ) : ℕ → ℝ := fun i => if i = 1 then 3 * ((y 2 - y 1) * (1 / (x 2 - x 1)) - (y 1 - y 0) * (1 / (x 1 - x 0))) / (2 * ((x 2 - x 1) + (x 1 - x 0))) else 0

theorem coeffs3 (x y : ℕ → ℝ) (h0 : x 0 < x 1) (h1 : x 1 < x 2) : splineCoeffs (rpoints 3 x y) = .ok ((List.range 3).map fun i => fin (c3 x y i)) := by
  have d0 : x 1 - x 0 ≠ 0 := (sub_pos.2 h0).ne'
  have d1 : x 2 - x 1 ≠ 0 := (sub_pos.2 h1).ne'
  have d2 : (2 : ℝ) * ((x 2 - x 1) + (x 1 - x 0)) ≠ 0 := by linarith
  simp only [rpoints, List.range_succ, List.range_zero, List.nil_append, List.map_cons, List.map_nil, List.cons_append, splineCoeffs, lit_def, fin_sub, one_def]
  rw [fin_div_of_ne d0, fin_div_of_ne d1]
  simp only [fin_sub, fin_add, fin_mul]
  rw [fin_div_of_ne (by push_cast; exact d2)]
  simp [c3, zero_def]

noncomputable def c4b (x y : ℕ → ℝ) : ℝ :=
  (3 * ((y 3 - y 2) * (1 / (x 3 - x 2)) - (y 2 - y 1) * (1 / (x 2 - x 1)))
    - (x 2 - x 1) / (2 * ((x 2 - x 1) + (x 1 - x 0))) * (3 * ((y 2 - y 1) * (1 / (x 2 - x 1)) - (y 1 - y 0) * (1 / (x 1 - x 0)))))
    / (2 * ((x 3 - x 2) + (x 2 - x 1)) - (x 2 - x 1) * ((x 2 - x 1) / (2 * ((x 2 - x 1) + (x 1 - x 0)))))

noncomputable def c4 (x y : ℕ → ℝ) : ℕ → ℝ := fun i =>
  if i = 1 then 3 * ((y 2 - y 1) * (1 / (x 2 - x 1)) - (y 1 - y 0) * (1 / (x 1 - x 0))) / (2 * ((x 2 - x 1) + (x 1 - x 0))) - (x 2 - x 1) / (2 * ((x 2 - x 1) + (x 1 - x 0))) * c4b x y
  else if i = 2 then c4b x y else 0

/-- The last pivot of the elimination. -/
theorem pivot_pos (h0 h1 h2 : ℝ) (p0 : 0 < h0) (p1 : 0 < h1) (p2 : 0 < h2) : 0 < 2 * (h2 + h1) - h1 * (h1 / (2 * (h1 + h0))) := by
  have : h1 / (2 * (h1 + h0)) < 1 := by
    rw [div_lt_one (by positivity)]
    linarith
  nlinarith

theorem coeffs4 (x y : ℕ → ℝ) (h0 : x 0 < x 1) (h1 : x 1 < x 2) (h2 : x 2 < x 3) : splineCoeffs (rpoints 4 x y) = .ok ((List.range 4).map fun i => fin (c4 x y i)) := by
  have d0 : x 1 - x 0 ≠ 0 := (sub_pos.2 h0).ne'
  have d1 : x 2 - x 1 ≠ 0 := (sub_pos.2 h1).ne'
  have d3 : x 3 - x 2 ≠ 0 := (sub_pos.2 h2).ne'
  have d2 : (2 : ℝ) * ((x 2 - x 1) + (x 1 - x 0)) ≠ 0 := by linarith
  have d4 := (pivot_pos _ _ _ (sub_pos.2 h0) (sub_pos.2 h1) (sub_pos.2 h2)).ne'
  simp only [rpoints, List.range_succ, List.range_zero, List.nil_append, List.map_cons, List.map_nil, List.cons_append, splineCoeffs, lit_def, fin_sub, one_def]
  rw [fin_div_of_ne d0, fin_div_of_ne d1, fin_div_of_ne d3]
  simp only [fin_sub, fin_add, fin_mul]
  rw [fin_div_of_ne (by push_cast; exact d2), fin_div_of_ne (by push_cast; exact d2)]
  simp only [fin_sub, fin_mul]
  rw [fin_div_of_ne (by push_cast; exact d4)]
  simp [c4, c4b, zero_def]

theorem spline_ends {n : ℕ} {x y : ℕ → ℝ} {S : ℝ → ℝ} {q : ℕ → Cubic} (hx : ∀ i, i + 1 < n → x i < x (i + 1)) (h1 : ∀ i, i < n → S (x i) = y i)
    (h2 : ∀ i, i + 1 < n → ∀ r ∈ Set.Icc (x i) (x (i + 1)), S r = (q i).val r) (i : ℕ) (hi : i + 1 < n) : (q i).val (x i) = y i ∧ (q i).val (x (i + 1)) = y (i + 1) := by
  rw [← h1 i (by omega), ← h1 (i + 1) hi]
  exact ⟨(h2 i hi _ ⟨le_rfl, (hx i hi).le⟩).symm, (h2 i hi _ ⟨(hx i hi).le, le_rfl⟩).symm⟩

/-- The coefficients of the library are half of the second derivatives of the natural spline. -/
theorem coeffs3_curv {x y : ℕ → ℝ} {S : ℝ → ℝ} {q : ℕ → Cubic} (hx : ∀ i, i + 1 < 3 → x i < x (i + 1)) (h1 : ∀ i, i < 3 → S (x i) = y i)
    (h2 : ∀ i, i + 1 < 3 → ∀ r ∈ Set.Icc (x i) (x (i + 1)), S r = (q i).val r)
    (h3 : ∀ i, i + 2 < 3 → (q i).slope (x (i + 1)) = (q (i + 1)).slope (x (i + 1)) ∧ (q i).curv (x (i + 1)) = (q (i + 1)).curv (x (i + 1)))
    (h4 : (q 0).curv (x 0) = 0) (h5 : (q 1).curv (x 2) = 0) : ∀ i, i + 1 < 3 → c3 x y i = (q i).curv (x i) / 2 ∧ c3 x y (i + 1) = (q i).curv (x (i + 1)) / 2 := by
  have e0 := spline_ends hx h1 h2 0 (by norm_num)
  have e1 := spline_ends hx h1 h2 1 (by norm_num)
  have p0 : 0 < x 1 - x 0 := sub_pos.2 (hx 0 (by norm_num))
  have p1 : 0 < x 2 - x 1 := sub_pos.2 (hx 1 (by norm_num))
  obtain ⟨s, c⟩ := h3 0 (by norm_num)
  simp only [Nat.zero_add, Nat.reduceAdd] at *
  have k := slopes_agree (q 0) (q 1) (x 0) (x 1) (x 2) p0.ne' p1.ne' (by rw [e0.2, e1.1]) s c
  rw [h4, h5, e0.1, e0.2, e1.2] at k
  have key : c3 x y 1 = (q 0).curv (x 1) / 2 := by
    have hd : (2 : ℝ) * ((x 2 - x 1) + (x 1 - x 0)) ≠ 0 := by linarith
    unfold c3
    rw [if_pos rfl, div_eq_iff hd]
    rw [div_eq_mul_one_div (y 2 - y 1), div_eq_mul_one_div (y 1 - y 0)] at k
    linarith
  intro i hi
  have hi2 : i < 2 := by omega
  interval_cases i
  · exact ⟨by rw [h4]; simp [c3], key⟩
  · exact ⟨by rw [key, c], by rw [h5]; simp [c3]⟩

theorem coeffs4_curv {x y : ℕ → ℝ} {S : ℝ → ℝ} {q : ℕ → Cubic} (hx : ∀ i, i + 1 < 4 → x i < x (i + 1)) (h1 : ∀ i, i < 4 → S (x i) = y i)
    (h2 : ∀ i, i + 1 < 4 → ∀ r ∈ Set.Icc (x i) (x (i + 1)), S r = (q i).val r)
    (h3 : ∀ i, i + 2 < 4 → (q i).slope (x (i + 1)) = (q (i + 1)).slope (x (i + 1)) ∧ (q i).curv (x (i + 1)) = (q (i + 1)).curv (x (i + 1)))
    (h4 : (q 0).curv (x 0) = 0) (h5 : (q 2).curv (x 3) = 0) : ∀ i, i + 1 < 4 → c4 x y i = (q i).curv (x i) / 2 ∧ c4 x y (i + 1) = (q i).curv (x (i + 1)) / 2 := by
  have e0 := spline_ends hx h1 h2 0 (by norm_num)
  have e1 := spline_ends hx h1 h2 1 (by norm_num)
  have e2 := spline_ends hx h1 h2 2 (by norm_num)
  have p0 : 0 < x 1 - x 0 := sub_pos.2 (hx 0 (by norm_num))
  have p1 : 0 < x 2 - x 1 := sub_pos.2 (hx 1 (by norm_num))
  have p2 : 0 < x 3 - x 2 := sub_pos.2 (hx 2 (by norm_num))
  obtain ⟨s, c⟩ := h3 0 (by norm_num)
  obtain ⟨s', c'⟩ := h3 1 (by norm_num)
  simp only [Nat.zero_add, Nat.reduceAdd] at *
  have k := slopes_agree (q 0) (q 1) (x 0) (x 1) (x 2) p0.ne' p1.ne' (by rw [e0.2, e1.1]) s c
  have k' := slopes_agree (q 1) (q 2) (x 1) (x 2) (x 3) p1.ne' p2.ne' (by rw [e1.2, e2.1]) s' c'
  rw [h4, e0.1, e0.2, e1.2] at k
  rw [h5, ← c, e1.1, e1.2, e2.2] at k'
  rw [div_eq_mul_one_div (y 2 - y 1), div_eq_mul_one_div (y 1 - y 0)] at k
  rw [div_eq_mul_one_div (y 2 - y 1), div_eq_mul_one_div (y 3 - y 2)] at k'
  have hd : (2 : ℝ) * ((x 2 - x 1) + (x 1 - x 0)) ≠ 0 := by linarith
  have hp := (pivot_pos _ _ _ p0 p1 p2).ne'
  have hg : (x 2 - x 1) / (2 * ((x 2 - x 1) + (x 1 - x 0))) * (2 * ((x 2 - x 1) + (x 1 - x 0))) = x 2 - x 1 := div_mul_cancel₀ _ hd
  have key2 : c4b x y = (q 1).curv (x 2) / 2 := by
    unfold c4b
    rw [div_eq_iff hp]
    generalize (x 2 - x 1) / (2 * ((x 2 - x 1) + (x 1 - x 0))) = γ at *
    linear_combination γ * k - k' - (q 0).curv (x 1) / 2 * hg
  have key1 : c4 x y 1 = (q 0).curv (x 1) / 2 := by
    unfold c4
    rw [if_pos rfl, key2, div_mul_eq_mul_div, ← sub_div, div_eq_iff hd]
    linarith
  have key2' : c4 x y 2 = (q 1).curv (x 2) / 2 := by simpa [c4] using key2
  intro i hi
  have hi3 : i < 3 := by omega
  interval_cases i
  · exact ⟨by rw [h4]; simp [c4], key1⟩
  · exact ⟨by rw [key1, c], key2'⟩
  · exact ⟨by rw [key2', c'], by rw [h5]; simp [c4]⟩

/-- The interval that is found contains the radius. -/
theorem splineIndex_spec (n : ℕ) (x y : ℕ → ℝ) (hn : 2 ≤ n) (r : ℝ) (h0 : x 0 ≤ r) (h1 : r ≤ x (n - 1)) :
    ∃ i, i + 1 < n ∧ splineIndex (fin r) 0 (rpoints n x y) = i ∧ x i ≤ r ∧ r ≤ x (i + 1) := by
  suffices h : ∀ m a, a + m = n → 1 ≤ m → (a = 0 ∧ 2 ≤ m ∨ 1 ≤ a ∧ x (a - 1) ≤ r) →
      ∃ i, i + 1 < n ∧ splineIndex (fin r) a ((List.range' a m).map fun i => (fin (x i), fin (y i))) = i ∧ x i ≤ r ∧ r ≤ x (i + 1) by
    have := h n 0 (by omega) (by omega) (Or.inl ⟨rfl, hn⟩)
    rw [← List.range_eq_range'] at this
    exact this
  intro m
  induction m with
  | zero => intro a _ h; omega
  | succ m ih =>
    intro a ha _ hb
    match m with
    | 0 =>
      rcases hb with ⟨_, h2⟩ | ⟨hb, hr⟩
      · omega
      · refine ⟨a - 1, by omega, by simp [splineIndex], hr, ?_⟩
        rw [show a - 1 + 1 = n - 1 by omega]
        exact h1
    | k + 1 =>
      have := ih (a + 1) (by omega) (by omega)
      rw [List.range'_succ, List.range'_succ] at *
      simp only [List.map_cons] at *
      rw [splineIndex, flt_fin]
      by_cases h : r < x a
      · rw [decide_eq_true h, if_pos rfl]
        rcases hb with ⟨rfl, _⟩ | ⟨hb, hr⟩
        · exact absurd h (not_lt.2 h0)
        · refine ⟨a - 1, by omega, rfl, hr, ?_⟩
          rw [show a - 1 + 1 = a by omega]
          exact h.le
      · rw [decide_eq_false h, if_neg (by simp)]
        exact this (Or.inr ⟨by omega, by simpa using not_lt.1 h⟩)

/-- For three or four increasing points the library computes the natural spline through them. -/
theorem gslSpline_eq (n : ℕ) (hn : n = 3 ∨ n = 4) (x y : ℕ → ℝ) (hx : ∀ i, i + 1 < n → x i < x (i + 1)) :
    ∃ g, gslSpline (rpoints n x y) = .ok g ∧ g.points = rpoints n x y ∧ ∀ S, IsNaturalSpline n x y S → ∀ r, x 0 ≤ r → r ≤ x (n - 1) → gslEval g (fin r) = .ok (fin (S r)) := by
  obtain ⟨c, hc, hcv⟩ : ∃ c : ℕ → ℝ, splineCoeffs (rpoints n x y) = .ok ((List.range n).map fun i => fin (c i)) ∧ ∀ (S : ℝ → ℝ) (q : ℕ → Cubic), (∀ i, i < n → S (x i) = y i) →
      (∀ i, i + 1 < n → ∀ r ∈ Set.Icc (x i) (x (i + 1)), S r = (q i).val r) →
      (∀ i, i + 2 < n → (q i).slope (x (i + 1)) = (q (i + 1)).slope (x (i + 1)) ∧ (q i).curv (x (i + 1)) = (q (i + 1)).curv (x (i + 1))) → (q 0).curv (x 0) = 0 →
      (q (n - 2)).curv (x (n - 1)) = 0 → ∀ i, i + 1 < n → c i = (q i).curv (x i) / 2 ∧ c (i + 1) = (q i).curv (x (i + 1)) / 2 := by
    rcases hn with rfl | rfl
    · exact ⟨c3 x y, coeffs3 x y (hx 0 (by norm_num)) (hx 1 (by norm_num)), fun S q a b c d e => coeffs3_curv hx a b c d e⟩
    · exact ⟨c4 x y, coeffs4 x y (hx 0 (by norm_num)) (hx 1 (by norm_num)) (hx 2 (by norm_num)), fun S q a b c d e => coeffs4_curv hx a b c d e⟩
  refine ⟨⟨rpoints n x y, (List.range n).map fun i => fin (c i)⟩, ?_, rfl, ?_⟩
  · unfold gslSpline
    rw [if_pos ((increasing_rpoints n x y).2 hx), hc, ok_bind]
  · rintro S ⟨h1, q, h2, h3, h4, h5⟩ r hr0 hr1
    obtain ⟨i, hi, hidx, ha, hb⟩ := splineIndex_spec n x y (by omega) r hr0 hr1
    rw [gslEval_eq n x y c (by omega) hx r hr0 hr1 i hi hidx]
    obtain ⟨ci, ci'⟩ := hcv S q h1 h2 h3 h4 h5 i hi
    obtain ⟨ei, ei'⟩ := spline_ends hx h1 h2 i hi
    rw [ci, ci', ← ei, ← ei', pieceVal_eq _ _ _ _ (sub_pos.2 (hx i hi)).ne', h2 i hi r ⟨ha, hb⟩]

/-! ## There is a natural spline -/

/-- A cubic by its coefficients around `u`. -/
noncomputable def cubicAt (u A B C D : ℝ) : Cubic := ⟨A - B * u + C * u ^ 2 - D * u ^ 3, B - 2 * C * u + 3 * D * u ^ 2, C - 3 * D * u, D⟩

/-- The cubic with the values and halves of second derivatives at the two ends. -/
noncomputable def cubicOf (u v yu yv cu cv : ℝ) : Cubic := cubicAt u yu ((yv - yu) / (v - u) - (v - u) * (cv + 2 * cu) / 3) cu ((cv - cu) / (3 * (v - u)))

theorem cubicOf_spec (u v yu yv cu cv : ℝ) (h : v - u ≠ 0) :
    (cubicOf u v yu yv cu cv).val u = yu ∧ (cubicOf u v yu yv cu cv).val v = yv ∧ (cubicOf u v yu yv cu cv).curv u = 2 * cu ∧ (cubicOf u v yu yv cu cv).curv v = 2 * cv := by
  refine ⟨?_, ?_, ?_, ?_⟩ <;> simp only [cubicOf, cubicAt, Cubic.val, Cubic.curv] <;> field_simp <;> ring

theorem natural_exists (n : ℕ) (hn : n = 3 ∨ n = 4) (x y c : ℕ → ℝ) (hx : ∀ i, i + 1 < n → x i < x (i + 1)) (h0 : c 0 = 0) (hl : c (n - 1) = 0)
    (hc : ∀ i, i + 2 < n → (x (i + 1) - x i) * c i + 2 * ((x (i + 2) - x (i + 1)) + (x (i + 1) - x i)) * c (i + 1) + (x (i + 2) - x (i + 1)) * c (i + 2)
      = 3 * ((y (i + 2) - y (i + 1)) / (x (i + 2) - x (i + 1)) - (y (i + 1) - y i) / (x (i + 1) - x i))) : ∃ S, IsNaturalSpline n x y S := by
  obtain ⟨q, hq⟩ : ∃ q : ℕ → Cubic, ∀ i, q i = cubicOf (x i) (x (i + 1)) (y i) (y (i + 1)) (c i) (c (i + 1)) := ⟨_, fun _ => rfl⟩
  have sp (i : ℕ) (hi : i + 1 < n) : (q i).val (x i) = y i ∧ (q i).val (x (i + 1)) = y (i + 1) ∧ (q i).curv (x i) = 2 * c i ∧ (q i).curv (x (i + 1)) = 2 * c (i + 1) := by
    rw [hq]
    exact cubicOf_spec _ _ _ _ _ _ (sub_pos.2 (hx i hi)).ne'
  have hsl (i : ℕ) (hi : i + 2 < n) : (q i).slope (x (i + 1)) = (q (i + 1)).slope (x (i + 1)) := by
    have d0 := (sub_pos.2 (hx i (by omega))).ne'
    have d1 := (sub_pos.2 (hx (i + 1) (by omega))).ne'
    obtain ⟨a1, a2, a3, a4⟩ := sp i (by omega)
    obtain ⟨b1, b2, b3, b4⟩ := sp (i + 1) (by omega)
    rw [cubic_slope_right (q i) (x i) (x (i + 1)) d0, cubic_slope_left (q (i + 1)) (x (i + 1)) (x (i + 1 + 1)) d1, a1, a2, a3, a4, b1, b2, b3, b4]
    have := hc i hi
    linear_combination this / 3
  refine ⟨fun r => if r ≤ x 1 then (q 0).val r else if r ≤ x 2 then (q 1).val r else (q 2).val r, ?_, q, ?_, ?_, ?_, ?_⟩
  · have m0 := hx 0 (by omega)
    have m1 := hx 1 (by omega)
    intro i hi
    have hi4 : i < 4 := by omega
    beta_reduce
    simp only [Nat.zero_add, Nat.reduceAdd] at m0 m1
    interval_cases i
    · rw [if_pos m0.le]; exact (sp 0 (by omega)).1
    · rw [if_pos le_rfl]; exact (sp 0 (by omega)).2.1
    · rw [if_neg (not_le.2 m1), if_pos le_rfl]; exact (sp 1 (by omega)).2.1
    · have m2 := hx 2 (by omega)
      simp only [Nat.reduceAdd] at m2
      rw [if_neg (not_le.2 (m1.trans m2)), if_neg (not_le.2 m2)]; exact (sp 2 (by omega)).2.1
  · have m1 := hx 1 (by omega)
    simp only [Nat.reduceAdd] at m1
    intro i hi r hr
    have hi4 : i < 3 := by omega
    beta_reduce
    interval_cases i
    · rw [if_pos hr.2]
    · by_cases h : r ≤ x 1
      · have : r = x 1 := le_antisymm h hr.1
        rw [if_pos h, this, (sp 1 (by omega)).1]
        exact (sp 0 (by omega)).2.1
      · rw [if_neg h, if_pos hr.2]
    · rw [if_neg (not_le.2 (lt_of_lt_of_le m1 hr.1))]
      by_cases h : r ≤ x 2
      · have : r = x 2 := le_antisymm h hr.1
        rw [if_pos h, this, (sp 2 (by omega)).1]
        exact (sp 1 (by omega)).2.1
      · rw [if_neg h]
  · intro i hi
    refine ⟨hsl i hi, ?_⟩
    rw [(sp i (by omega)).2.2.2, (sp (i + 1) (by omega)).2.2.1]
  · rw [(sp 0 (by omega)).2.2.1, h0, mul_zero]
  · have := (sp (n - 2) (by omega)).2.2.2
    rw [show n - 2 + 1 = n - 1 by omega] at this
    rw [this, hl, mul_zero]

/-- Through three or four points with increasing radii there is a natural spline. -/
theorem C115_exists (n : ℕ) (hn : n = 3 ∨ n = 4) (x y : ℕ → ℝ) (hx : ∀ i, i + 1 < n → x i < x (i + 1)) : ∃ S, IsNaturalSpline n x y S := by
  have p0 : 0 < x 1 - x 0 := sub_pos.2 (hx 0 (by omega))
  have p1 : 0 < x 2 - x 1 := sub_pos.2 (hx 1 (by omega))
  have hd : (2 : ℝ) * ((x 2 - x 1) + (x 1 - x 0)) ≠ 0 := by linarith
  rcases hn with rfl | rfl
  · refine natural_exists 3 (Or.inl rfl) x y (c3 x y) hx (by simp [c3]) (by simp [c3]) ?_
    intro i hi
    obtain rfl : i = 0 := by omega
    have : c3 x y 1 * (2 * ((x 2 - x 1) + (x 1 - x 0))) = _ := div_mul_cancel₀ _ hd
    rw [show c3 x y 0 = 0 by simp [c3], show c3 x y 2 = 0 by simp [c3], div_eq_mul_one_div (y 2 - y 1), div_eq_mul_one_div (y 1 - y 0)]
    linarith
  · have p2 : 0 < x 3 - x 2 := sub_pos.2 (hx 2 (by omega))
    have hp := (pivot_pos _ _ _ p0 p1 p2).ne'
    have hg : (x 2 - x 1) / (2 * ((x 2 - x 1) + (x 1 - x 0))) * (2 * ((x 2 - x 1) + (x 1 - x 0))) = x 2 - x 1 := div_mul_cancel₀ _ hd
    have e2 : c4b x y * _ = _ := div_mul_cancel₀ _ hp
    have e1 : c4 x y 1 * (2 * ((x 2 - x 1) + (x 1 - x 0))) = 3 * ((y 2 - y 1) * (1 / (x 2 - x 1)) - (y 1 - y 0) * (1 / (x 1 - x 0))) - (x 2 - x 1) * c4b x y := by
      unfold c4
      rw [if_pos rfl, sub_mul, div_mul_cancel₀ _ hd]
      linear_combination - c4b x y * hg
    refine natural_exists 4 (Or.inr rfl) x y (c4 x y) hx (by simp [c4]) (by simp [c4]) ?_
    intro i hi
    have hi2 : i < 2 := by omega
    interval_cases i
    · rw [show c4 x y 0 = 0 by simp [c4], show c4 x y 2 = c4b x y by simp [c4], div_eq_mul_one_div (y 2 - y 1), div_eq_mul_one_div (y 1 - y 0)]
      linarith
    · rw [show c4 x y (1 + 1) = c4b x y by simp [c4], show c4 x y (1 + 2) = 0 by simp [c4]]
      simp only [Nat.reduceAdd]
      rw [div_eq_mul_one_div (y 3 - y 2), div_eq_mul_one_div (y 2 - y 1)]
      generalize (x 2 - x 1) / (2 * ((x 2 - x 1) + (x 1 - x 0))) = γ at *
      linear_combination e2 + γ * e1 - c4 x y 1 * hg

/-! ## The function -/

/-- What `Setup` hands to the library. -/
theorem setup_points (m : ℕ) (hm : m = 2 ∨ m = 3 ∨ m = 4) (np : Int) (params : List XR) (o : ℕ) (p : ℕ → ℝ) (hp : ∀ k, k < 2 * m - 1 → rd params (o + k) = .ok (fin (p k))) :
    splineSetup ⟨m, np⟩ params o = gslSpline (rpoints (usedPoints m p) (knotR p) (knotI p)) := by
  have r0 : rd params o = .ok (fin (p 0)) := hp 0 (by omega)
  have r1 : rd params (1 + o) = .ok (fin (p 1)) := by rw [Nat.add_comm]; exact hp 1 (by omega)
  have r2 : rd params (2 + o) = .ok (fin (p 2)) := by rw [Nat.add_comm]; exact hp 2 (by omega)
  unfold splineSetup
  dsimp only
  rw [r0, ok_bind, r1, ok_bind, r2, ok_bind]
  rcases hm with rfl | rfl | rfl
  · simp [splinePoints, usedPoints, rpoints, List.range_succ, knotR, knotI, zero_def]
  · have r3 : rd params (2 * 2 - 1 + o) = .ok (fin (p 3)) := by rw [Nat.add_comm]; exact hp 3 (by omega)
    have r4 : rd params (2 * 2 - 1 + o + 1) = .ok (fin (p 4)) := by rw [show 2 * 2 - 1 + o + 1 = o + 4 by omega]; exact hp 4 (by omega)
    rw [show (((3 : ℕ) : Int) - 2).toNat = 1 from rfl, splinePoints, r3, ok_bind, zero_def, flt_fin]
    by_cases h : p 3 < 0
    · simp [usedPoints, rpoints, List.range_succ, knotR, knotI, h]
    · simp only [h, decide_false, Bool.false_eq_true, if_false]
      rw [if_neg (by decide), r4, ok_bind, splinePoints, ok_bind]
      simp [usedPoints, rpoints, List.range_succ, knotR, knotI, h]
  · have r3 : rd params (2 * 2 - 1 + o) = .ok (fin (p 3)) := by rw [Nat.add_comm]; exact hp 3 (by omega)
    have r4 : rd params (2 * 2 - 1 + o + 1) = .ok (fin (p 4)) := by rw [show 2 * 2 - 1 + o + 1 = o + 4 by omega]; exact hp 4 (by omega)
    have r5 : rd params (2 * (2 + 1) - 1 + o) = .ok (fin (p 5)) := by rw [Nat.add_comm]; exact hp 5 (by omega)
    have r6 : rd params (2 * (2 + 1) - 1 + o + 1) = .ok (fin (p 6)) := by rw [show 2 * (2 + 1) - 1 + o + 1 = o + 6 by omega]; exact hp 6 (by omega)
    rw [show (((4 : ℕ) : Int) - 2).toNat = 2 from rfl, splinePoints, r3, ok_bind, zero_def, flt_fin]
    by_cases h : p 3 < 0
    · simp [usedPoints, rpoints, List.range_succ, knotR, knotI, h]
    · simp only [h, decide_false, Bool.false_eq_true, if_false]
      rw [if_neg (by decide), r4, ok_bind, splinePoints, r5, ok_bind, zero_def, flt_fin]
      by_cases h' : p 5 < 0
      · simp [usedPoints, rpoints, List.range_succ, knotR, knotI, h, h']
      · simp only [h', decide_false, Bool.false_eq_true, if_false]
        rw [if_neg (by decide), r6, ok_bind, splinePoints, ok_bind]
        simp [usedPoints, rpoints, List.range_succ, knotR, knotI, h, h']

theorem used_range {m : ℕ} (hm : m = 3 ∨ m = 4) (p : ℕ → ℝ) : usedPoints m p = 2 ∨ usedPoints m p = 3 ∨ usedPoints m p = 4 := by
  unfold usedPoints
  rcases hm with rfl | rfl <;> split_ifs <;> simp

/-- The value is that of the natural spline through the points, for radii up to the last point. -/
theorem C115_value_partial (m : ℕ) (hm : m = 3 ∨ m = 4) (np : Int) (params : List XR) (o : ℕ) (p : ℕ → ℝ) (hp : ∀ k, k < 2 * m - 1 → rd params (o + k) = .ok (fin (p k)))
    (hn : 3 ≤ usedPoints m p) (hx : ∀ i, i + 1 < usedPoints m p → knotR p i < knotR p (i + 1)) (S : ℝ → ℝ) (hS : IsNaturalSpline (usedPoints m p) (knotR p) (knotI p) S) (x0 x : ℝ)
    (hr : |x - x0| ≤ knotR p (usedPoints m p - 1)) : splineValue ⟨m, np⟩ params o (fin x0) (fin x) = .ok (fin (S |x - x0|)) := by
  obtain ⟨g, hg, -, hv⟩ := gslSpline_eq (usedPoints m p) (by rcases used_range hm p with h | h | h <;> omega) (knotR p) (knotI p) hx
  unfold splineValue
  rw [setup_points m (by omega) np params o p hp, hg, ok_bind, fin_sub, fabs_fin]
  exact hv S hS _ (by simp [knotR]) hr

/-- At the radii of the points the values are the given ones, on both sides of the centre. -/
theorem C115_points (m : ℕ) (hm : m = 3 ∨ m = 4) (np : Int) (params : List XR) (o : ℕ) (p : ℕ → ℝ) (hp : ∀ k, k < 2 * m - 1 → rd params (o + k) = .ok (fin (p k)))
    (hn : 3 ≤ usedPoints m p) (hx : ∀ i, i + 1 < usedPoints m p → knotR p i < knotR p (i + 1)) (x0 x : ℝ) (i : ℕ) (hi : i < usedPoints m p) (hr : |x - x0| = knotR p i) :
    splineValue ⟨m, np⟩ params o (fin x0) (fin x) = .ok (fin (knotI p i)) := by
  obtain ⟨S, hS⟩ := C115_exists (usedPoints m p) (by rcases used_range hm p with h | h | h <;> omega) (knotR p) (knotI p) hx
  have hmono : ∀ d, i + d < usedPoints m p → knotR p i ≤ knotR p (i + d) := by
    intro d
    induction d with
    | zero => intro _; exact le_rfl
    | succ d ih => intro h; exact (ih (by omega)).trans (hx (i + d) (by omega)).le
  have hle := hmono (usedPoints m p - 1 - i) (by omega)
  rw [show i + (usedPoints m p - 1 - i) = usedPoints m p - 1 by omega] at hle
  rw [C115_value_partial m hm np params o p hp hn hx S hS x0 x (hr ▸ hle), hr, hS.1 i hi]

theorem coeffs_few (n : ℕ) (hn : n < 3) (x y : ℕ → ℝ) : splineCoeffs (rpoints n x y) = .error .assert := by
  interval_cases n <;> rfl

/-- `Setup` succeeds just if there are three points at least and their radii increase; else the program is aborted. -/
theorem C115_runs (m : ℕ) (hm : m = 3 ∨ m = 4) (np : Int) (params : List XR) (o : ℕ) (p : ℕ → ℝ) (hp : ∀ k, k < 2 * m - 1 → rd params (o + k) = .ok (fin (p k))) :
    ((∃ g, splineSetup ⟨m, np⟩ params o = .ok g) ↔ 3 ≤ usedPoints m p ∧ ∀ i, i + 1 < usedPoints m p → knotR p i < knotR p (i + 1)) ∧
    (¬ (3 ≤ usedPoints m p ∧ ∀ i, i + 1 < usedPoints m p → knotR p i < knotR p (i + 1)) → splineSetup ⟨m, np⟩ params o = .error .assert) := by
  rw [setup_points m (by omega) np params o p hp]
  have hneg : ¬ (3 ≤ usedPoints m p ∧ ∀ i, i + 1 < usedPoints m p → knotR p i < knotR p (i + 1)) → gslSpline (rpoints (usedPoints m p) (knotR p) (knotI p)) = .error .assert := by
    intro h
    unfold gslSpline
    split
    · rename_i hi
      rw [coeffs_few _ (by by_contra h3; exact h ⟨by omega, (increasing_rpoints _ _ _).1 hi⟩)]
      rfl
    · rfl
  refine ⟨⟨?_, ?_⟩, hneg⟩
  · rintro ⟨g, hg⟩
    by_contra h
    rw [hneg h] at hg
    cases hg
  · rintro ⟨h3, hx⟩
    obtain ⟨g, hg, -⟩ := gslSpline_eq (usedPoints m p) (by rcases used_range hm p with h | h | h <;> omega) (knotR p) (knotI p) hx
    exact ⟨g, hg⟩

/-- Beyond the last point the program is aborted. -/
theorem C115_beyond_false (m : ℕ) (hm : m = 3 ∨ m = 4) (np : Int) (params : List XR) (o : ℕ) (p : ℕ → ℝ) (hp : ∀ k, k < 2 * m - 1 → rd params (o + k) = .ok (fin (p k)))
    (x0 x : ℝ) (hr : knotR p (usedPoints m p - 1) < |x - x0|) : splineValue ⟨m, np⟩ params o (fin x0) (fin x) = .error .assert := by
  unfold splineValue
  by_cases h : 3 ≤ usedPoints m p ∧ ∀ i, i + 1 < usedPoints m p → knotR p i < knotR p (i + 1)
  · obtain ⟨g, hg, hpt, -⟩ := gslSpline_eq (usedPoints m p) (by rcases used_range hm p with h | h | h <;> omega) (knotR p) (knotI p) h.2
    rw [setup_points m (by omega) np params o p hp, hg, ok_bind, fin_sub, fabs_fin]
    unfold gslEval
    have hl : (rpoints (usedPoints m p) (knotR p) (knotI p)).length = usedPoints m p := by simp [rpoints]
    rw [hpt, hl, rd_rpoints _ _ _ 0 (by omega), ok_bind, rd_rpoints _ _ _ _ (by omega), ok_bind]
    exact if_pos (by rw [flt_fin, flt_fin, decide_eq_true hr, Bool.or_true])
  · rw [(C115_runs m hm np params o p hp).2 h]
    rfl

/-- Two points, which the header offers, always abort the program: `N = 2`, or a negative `r_2`. -/
theorem C115_two_false (params : List XR) (o : ℕ) (p : ℕ → ℝ) (x0 x : XR) :
    ((∀ k, k < 3 → rd params (o + k) = .ok (fin (p k))) → splineValue ⟨2, 3⟩ params o x0 x = .error .assert) ∧
    ((∀ k, k < 7 → rd params (o + k) = .ok (fin (p k))) → p 3 < 0 → splineValue newSpline params o x0 x = .error .assert) := by
  constructor
  · intro hp
    unfold splineValue
    have h2 : usedPoints 2 p = 2 := by simp [usedPoints]
    have e := setup_points 2 (Or.inl rfl) 3 params o p hp
    rw [Nat.cast_ofNat] at e
    rw [e, h2]
    unfold gslSpline
    split
    · rw [coeffs_few _ (by norm_num)]; rfl
    · rfl
  · intro hp h
    unfold splineValue
    have h2 : usedPoints 4 p = 2 := by simp [usedPoints, knotR, h]
    have := (C115_runs 4 (Or.inr rfl) 7 params o p hp).2 (by rw [h2]; omega)
    rw [show newSpline = ⟨((4 : ℕ) : Int), 7⟩ from rfl, this]
    rfl

/-- With `N = 1`, and the parameters of the function at the end of the array, the array is read beyond its end. -/
theorem C115_one_false (params : List XR) (i0 x0 x : XR) : splineExtra newSpline [("N".toList, "1".toList)] = .ok (1, ⟨1, 1⟩) ∧
    splineValue ⟨1, 1⟩ (params ++ [i0]) params.length x0 x = .error .oob := by
  refine ⟨rfl, ?_⟩
  unfold splineValue splineSetup
  rw [rd_ok (by simp), ok_bind, rd_oob (by simp)]
  rfl

/-- `N = 5` is refused, but kept: used all the same, the object writes beyond its arrays. -/
theorem C115_five_false (params : List XR) (o : ℕ) (p : ℕ → ℝ) (hp : ∀ k, k < 9 → rd params (o + k) = .ok (fin (p k))) (h2 : 0 ≤ p 3) (h3 : 0 ≤ p 5) (h4 : 0 ≤ p 7) :
    splineExtra newSpline [("N".toList, "5".toList)] = .ok (-3, ⟨5, 7⟩) ∧ splineSetup ⟨5, 7⟩ params o = .error .oob := by
  refine ⟨rfl, ?_⟩
  have r (j k : ℕ) (h : j = o + k) (hk : k < 9) : rd params j = .ok (fin (p k)) := by rw [h]; exact hp k hk
  unfold splineSetup
  dsimp only
  rw [r o 0 rfl (by norm_num), ok_bind, r (1 + o) 1 (by omega) (by norm_num), ok_bind, r (2 + o) 2 (by omega) (by norm_num), ok_bind, show ((5 : Int) - 2).toNat = 3 from rfl]
  rw [splinePoints, r _ 3 (by omega) (by norm_num), ok_bind, zero_def, flt_fin, decide_eq_false (not_lt.2 h2), if_neg (by simp), if_neg (by decide), r _ 4 (by omega) (by norm_num), ok_bind]
  rw [splinePoints, r _ 5 (by omega) (by norm_num), ok_bind, zero_def, flt_fin, decide_eq_false (not_lt.2 h3), if_neg (by simp), if_neg (by decide), r _ 6 (by omega) (by norm_num), ok_bind]
  rw [splinePoints, r _ 7 (by omega) (by norm_num), ok_bind, zero_def, flt_fin, decide_eq_false (not_lt.2 h4), if_neg (by simp), if_pos (by decide)]
  rfl

/-- The spline through positive values may be negative: 10, 0.1, 0.1 at the radii 0, 1, 2. -/
theorem C115_negative_false : ∃ v : ℝ, v < 0 ∧ splineValue newSpline [fin 10, fin 1, fin (1 / 10), fin 2, fin (1 / 10), fin (-1), fin 0] 0 (fin 0) (fin (3 / 2)) = .ok (fin v) := by
  obtain ⟨p, hp⟩ : ∃ p : ℕ → ℝ, p = fun k => [10, 1, 1 / 10, 2, 1 / 10, -1, 0].getD k 0 := ⟨_, rfl⟩
  have hu : usedPoints 4 p = 3 := by rw [hp]; norm_num [usedPoints, knotR]
  have hr : ∀ k, k < 7 → rd [fin 10, fin 1, fin (1 / 10), fin 2, fin (1 / 10), fin (-1), fin 0] (0 + k) = .ok (fin (p k)) := by
    intro k hk
    rw [hp]
    interval_cases k <;> rfl
  have hx : ∀ i, i + 1 < usedPoints 4 p → knotR p i < knotR p (i + 1) := by
    rw [hu, hp]
    intro i hi
    have : i < 2 := by omega
    interval_cases i <;> norm_num [knotR]
  obtain ⟨S, hS⟩ := C115_exists 3 (Or.inl rfl) (knotR p) (knotI p) (hu ▸ hx)
  have hv := C115_value_partial 4 (Or.inr rfl) 7 _ 0 p hr (by rw [hu]) hx S (by rw [hu]; exact hS) 0 (3 / 2) (by rw [hu, hp]; norm_num [knotR, abs_of_pos])
  refine ⟨_, ?_, hv⟩
  obtain ⟨h1, q, h2, h3, h4, h5⟩ := hS
  have k1 := (coeffs3_curv (hu ▸ hx) h1 h2 h3 h4 h5 1 (by norm_num)).1
  have e1 := spline_ends (hu ▸ hx) h1 h2 1 (by norm_num)
  have k0 : knotR p 0 = 0 ∧ knotR p 1 = 1 ∧ knotR p 2 = 2 := by rw [hp]; norm_num [knotR]
  have i0 : knotI p 0 = 10 ∧ knotI p 1 = 1 / 10 ∧ knotI p 2 = 1 / 10 := by rw [hp]; norm_num [knotI]
  have e2 := h2 1 (by norm_num) (3 / 2) (by rw [show 1 + 1 = 2 from rfl, k0.2.1, k0.2.2]; norm_num)
  rw [sub_zero, abs_of_pos (by norm_num), e2, ← pieceVal_eq (q 1) 1 2 (3 / 2) (by norm_num)]
  simp only [Nat.reduceAdd, k0.2.1, k0.2.2, i0.2.1, i0.2.2] at e1 k1 h5
  rw [e1.1, e1.2, ← k1, h5]
  unfold c3 pieceVal
  rw [k0.1, k0.2.1, k0.2.2, i0.1, i0.2.1, i0.2.2]
  norm_num

/-- Points on a straight line: the spline is the line. -/
example (x0 x : ℝ) (h : |x - x0| ≤ 3) : splineValue newSpline [fin 7, fin 1, fin 5, fin 2, fin 3, fin 3, fin 1] 0 (fin x0) (fin x) = .ok (fin (7 - 2 * |x - x0|)) := by
  obtain ⟨p, hp⟩ : ∃ p : ℕ → ℝ, p = fun k => [7, 1, 5, 2, 3, 3, 1].getD k 0 := ⟨_, rfl⟩
  have hu : usedPoints 4 p = 4 := by rw [hp]; norm_num [usedPoints, knotR]
  have hr : ∀ k, k < 7 → rd [fin 7, fin 1, fin 5, fin 2, fin 3, fin 3, fin 1] (0 + k) = .ok (fin (p k)) := by
    intro k hk
    rw [hp]
    interval_cases k <;> rfl
  have hx : ∀ i, i + 1 < usedPoints 4 p → knotR p i < knotR p (i + 1) := by
    rw [hu, hp]
    intro i hi
    have : i < 3 := by omega
    interval_cases i <;> norm_num [knotR]
  refine C115_value_partial 4 (Or.inr rfl) 7 _ 0 p hr (by omega) hx (fun r => 7 - 2 * r) ?_ x0 x (by rw [hu, hp]; simpa [knotR] using h)
  rw [hu]
  refine ⟨?_, fun _ => ⟨7, -2, 0, 0⟩, ?_, ?_, ?_, ?_⟩
  · intro i hi
    rw [hp]
    interval_cases i <;> norm_num [knotR, knotI]
  · intro i _ r _
    simp only [Cubic.val]
    ring
  · intro i _
    exact ⟨rfl, rfl⟩
  · simp [Cubic.curv]
  · simp [Cubic.curv]

end Imfit
