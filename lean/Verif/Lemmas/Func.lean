import Verif.Model.Func
import Verif.Spec.Func
import Verif.Lemmas.Fit
import Mathlib.Tactic.Positivity
import Mathlib.Tactic.FieldSimp
import Mathlib.Tactic.Linarith
import Mathlib.Tactic.Ring

/-!
# Exact values of elliptical image functions
-/

namespace Imfit

open Spec XR Finset

/-- A prepared function object with finite geometry whose profile is `p`. -/
structure IsEll (f : EllFn XR) (x0 y0 q θ : ℝ) (p : ℝ → ℝ) : Prop where
  geo : f.geo = ⟨fin x0, fin y0, fin q, fin (Real.cos θ), fin (Real.sin θ)⟩
  q_ne : q ≠ 0
  profile : ∀ r, 0 ≤ r → f.profile (fin r) = fin (p r)

theorem ellRadius_nonneg (q θ dx dy : ℝ) : 0 ≤ ellRadius q θ dx dy := Real.sqrt_nonneg _

theorem radius_fin {f : EllFn XR} {x0 y0 q θ : ℝ} {p : ℝ → ℝ} (h : IsEll f x0 y0 q θ p) (dx dy : ℝ) :
    f.geo.radius (fin dx) (fin dy) = fin (ellRadius q θ dx dy) := by
  have hq := h.q_ne
  rw [h.geo]
  simp only [EllGeo.radius, fin_mul, fin_add, fin_neg, fin_div_of_ne hq]
  rw [fsqrt_fin_of_nonneg (add_nonneg (mul_self_nonneg _) (mul_self_nonneg _))]
  congr 2
  ring

theorem foldl_fin_add (l : List ℕ) (g : ℕ → XR) (v : ℕ → ℝ) (hg : ∀ i ∈ l, g i = fin (v i)) (a : ℝ) :
    l.foldl (fun acc i => acc + g i) (fin a) = fin (a + (l.map v).sum) := by
  induction l generalizing a with
  | nil => simp
  | cons x l ih =>
    simp only [List.foldl_cons, List.map_cons, List.sum_cons]
    rw [hg x (by simp), fin_add, ih (fun i hi => hg i (by simp [hi]))]
    rw [add_assoc]

theorem foldl_fin_step (l : List ℕ) (g : XR → ℕ → XR) (v : ℕ → ℝ) (hg : ∀ i ∈ l, ∀ a : ℝ, g (fin a) i = fin (a + v i)) (a : ℝ) :
    l.foldl g (fin a) = fin (a + (l.map v).sum) := by
  induction l generalizing a with
  | nil => simp
  | cons x l ih =>
    simp only [List.foldl_cons, List.map_cons, List.sum_cons]
    rw [hg x (by simp), ih (fun i hi => hg i (by simp [hi]))]
    rw [add_assoc]

theorem sum_list_range (n : ℕ) (v : ℕ → ℝ) : ((List.range n).map v).sum = ∑ i ∈ range n, v i := by
  induction n with
  | zero => simp
  | succ n ih => rw [List.range_succ, List.map_append, List.sum_append, ih, Finset.sum_range_succ]; simp

theorem subMean_fin {f : EllFn XR} {x0 y0 q θ : ℝ} {p : ℝ → ℝ} (h : IsEll f x0 y0 q θ p) (n : ℕ) (hn : 0 < n) (x y : ℝ) :
    subMean f n (fin x) (fin y) = fin (pixelMean n (fun a b => p (ellRadius q θ (a - x0) (b - y0))) x y) := by
  have hn' : (n : ℝ) ≠ 0 := by positivity
  have hx : f.geo.x0 = fin x0 := by rw [h.geo]
  have hy : f.geo.y0 = fin y0 := by rw [h.geo]
  unfold subMean
  simp only [lit_def, one_def, zero_def, hx, hy]
  rw [fin_div_of_ne (by exact_mod_cast hn')]
  simp only [fin_mul, fin_add, fin_sub]
  rw [foldl_fin_step _ _ (fun i => ∑ j ∈ range n, p (ellRadius q θ (gridPoint n i x - x0) (gridPoint n j y - y0)))]
  · rw [fin_div_of_ne (by push_cast; positivity), sum_list_range, zero_add]
    unfold pixelMean
    push_cast
    rfl
  · intro i hi a
    rw [foldl_fin_step _ _ (fun j => p (ellRadius q θ (gridPoint n i x - x0) (gridPoint n j y - y0))), sum_list_range]
    intro j hj b
    rw [radius_fin h, h.profile _ (ellRadius_nonneg _ _ _ _), fin_add]
    have e : ∀ (k : ℕ) (z : ℝ), z - ((1 / 2 : ℚ) : ℝ) + ((1 / 2 : ℚ) : ℝ) * (1 / ((n : ℚ) : ℝ)) + ((k : ℚ) : ℝ) * (1 / ((n : ℚ) : ℝ)) = gridPoint n k z := by
      intro k z
      unfold gridPoint
      push_cast
      field_simp
      ring
    rw [e, e]

theorem pixelMean_one (g : ℝ → ℝ → ℝ) (x y : ℝ) : pixelMean 1 g x y = g x y := by
  simp [pixelMean, gridPoint]

/-- `GetValue` with `n` sub-pixels is the mean over the grid, for `n = 1` too. -/
theorem ellValue_fin {f : EllFn XR} {x0 y0 q θ : ℝ} {p : ℝ → ℝ} (h : IsEll f x0 y0 q θ p) (x y : ℝ) (n : ℕ) (hn : 1 ≤ n)
    (hs : f.nsub (fin (ellRadius q θ (x - x0) (y - y0))) = .ok (n : Int)) :
    ellValue f (fin x) (fin y) = .ok (fin (pixelMean n (fun a b => p (ellRadius q θ (a - x0) (b - y0))) x y)) := by
  have hr : f.geo.radius (fin x - f.geo.x0) (fin y - f.geo.y0) = fin (ellRadius q θ (x - x0) (y - y0)) := by
    rw [show f.geo.x0 = fin x0 by rw [h.geo], show f.geo.y0 = fin y0 by rw [h.geo], fin_sub, fin_sub, radius_fin h]
  unfold ellValue
  simp only [hr, hs, ok_bind, pure_eq_ok]
  congr 1
  by_cases h1 : n = 1
  · subst h1
    rw [if_neg (by norm_num), pixelMean_one, h.profile _ (ellRadius_nonneg _ _ _ _)]
  · rw [if_pos (by omega), Int.toNat_natCast, subMean_fin h n (by omega)]

theorem ellValue_error {f : EllFn XR} {x0 y0 q θ : ℝ} {p : ℝ → ℝ} (h : IsEll f x0 y0 q θ p) (x y : ℝ) (e : Fault)
    (hs : f.nsub (fin (ellRadius q θ (x - x0) (y - y0))) = .error e) : ellValue f (fin x) (fin y) = .error e := by
  have hr : f.geo.radius (fin x - f.geo.x0) (fin y - f.geo.y0) = fin (ellRadius q θ (x - x0) (y - y0)) := by
    rw [show f.geo.x0 = fin x0 by rw [h.geo], show f.geo.y0 = fin y0 by rw [h.geo], fin_sub, fin_sub, radius_fin h]
  unfold ellValue
  simp only [hr, hs]
  rfl

theorem ftoi_fin {v : ℝ} (h0 : 0 ≤ v) (h1 : v < 2147483648) : (ftoi (fin v) : Res Int) = .ok (⌊v⌋) := by
  show XR.toInt (fin v) = _
  simp only [XR.toInt]
  rw [if_neg (by rintro (h | h) <;> linarith), if_pos h0]

theorem ftoi_big {v : ℝ} (h1 : 2147483648 ≤ v) : (ftoi (fin v) : Res Int) = .error .overflow := by
  show XR.toInt (fin v) = _
  simp only [XR.toInt]
  rw [if_pos (Or.inr h1)]

theorem capped_fin {v : ℝ} (h0 : 1 ≤ v) (h1 : v < 2147483648) : ∃ n : ℕ, capped (fin v) = .ok (n : Int) ∧ 1 ≤ n ∧ n ≤ 100 := by
  have hf : (1 : ℤ) ≤ ⌊v⌋ := Int.le_floor.2 (by exact_mod_cast h0)
  refine ⟨(min 100 ⌊v⌋).toNat, ?_, ?_, ?_⟩
  · unfold capped
    rw [ftoi_fin (by linarith) h1]
    simp only [ok_bind, pure_eq_ok]
    rw [Int.toNat_of_nonneg (by omega)]
  · omega
  · omega

/-- The number of sub-pixels along a side. -/
theorem galfitSub_fin (doSub : Bool) (num thresh : ℚ) (hnum : 1 ≤ num) (hth : 1 ≤ thresh) (s r : ℝ) (hs : 0 < s)
    (hbig : doSub = true → (num : ℝ) / s < 2147483648 ∨ 1 < s ∨ 1 < r) :
    ∃ n : ℕ, galfitSub doSub num thresh (fin s) (fin r) = .ok (n : Int) ∧ 1 ≤ n ∧ n ≤ 100 := by
  unfold galfitSub
  cases doSub with
  | false => exact ⟨1, rfl, le_rfl, by norm_num⟩
  | true =>
    simp only [lit_def, one_def, Bool.true_and, flt_fin, fle_fin]
    by_cases h10 : r < ((10 : ℚ) : ℝ)
    · simp only [h10, decide_true, if_true]
      by_cases h1 : s ≤ 1 ∧ r ≤ 1
      · simp only [h1.1, h1.2, decide_true, Bool.and_self, if_true, fin_div_of_ne hs.ne']
        refine capped_fin ?_ ?_
        · rw [le_div_iff₀ hs]
          have : (1 : ℝ) ≤ num := by exact_mod_cast hnum
          linarith [h1.1]
        · rcases hbig rfl with h | h | h
          · exact h
          · linarith [h1.1]
          · linarith [h1.2]
      · have hb : (decide (s ≤ 1) && decide (r ≤ 1)) = false := by simpa using h1
        simp only [hb, Bool.false_eq_true, if_false]
        by_cases ht : r ≤ (thresh : ℝ)
        · simp only [ht, decide_true, if_true]
          exact ⟨20, rfl, by norm_num, by norm_num⟩
        · simp only [ht, decide_false, Bool.false_eq_true, if_false]
          have hth' : (1 : ℝ) ≤ thresh := by exact_mod_cast hth
          have hr0 : 0 < r := by push Not at ht; linarith
          rw [fin_div_of_ne hr0.ne']
          refine capped_fin ?_ ?_
          · rw [le_div_iff₀ hr0]
            push_cast at h10 ⊢
            linarith
          · rw [div_lt_iff₀ hr0]
            push_cast
            push Not at ht
            linarith
    · simp only [h10, decide_false, Bool.false_eq_true, if_false]
      exact ⟨1, rfl, le_rfl, by norm_num⟩

end Imfit
