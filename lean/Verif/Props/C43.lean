import Verif.Lemmas.Stats
import Mathlib.Analysis.SpecialFunctions.Log.Basic

/-!
# C43 — model-selection statistics

`stat` is `-2 ln L` (the value itself with the chi-square flag, minus twice the argument otherwise).
-/

namespace Imfit

open XR

/-- What the argument means: `-2 ln L`. -/
def Spec.minus2lnL (x : ℝ) (chiSquare : Bool) : ℝ := if chiSquare then x else -2 * x

theorem m2ll_fin (x : ℝ) (c : Bool) : minusTwoLogL (fin x) c = fin (Spec.minus2lnL x c) := by
  unfold minusTwoLogL Spec.minus2lnL
  cases c <;> simp

/-- The AIC formula, whenever `n ≠ k + 1`. -/
theorem C43_aic (x : ℝ) (k n : Int) (c : Bool) (h : n ≠ k + 1) :
    aicCorrected (fin x) k n c = fin (Spec.minus2lnL x c + 2 * k + 2 * k * (k + 1) / (n - k - 1)) := by
  have hne : ((n : ℝ) - k - 1) ≠ 0 := by
    intro h0
    apply h
    have : (n : ℝ) = k + 1 := by linarith
    exact_mod_cast this
  unfold aicCorrected
  simp only [m2ll_fin, lit_def, fin_mul, fin_add, fin_sub, Rat.cast_intCast, Rat.cast_one, Rat.cast_ofNat]
  rw [fin_div_of_ne hne, fin_add]

/-- At `n = k + 1` (with parameters) the correction divides by zero: the result is not finite. -/
theorem C43_aic_degenerate (x : ℝ) (k : Int) (hk : 0 < k) (c : Bool) : aicCorrected (fin x) k (k + 1) c = pinf := by
  have hpos : (0 : ℝ) < 2 * k * (k + 1) := by
    have : (0 : ℝ) < k := by exact_mod_cast hk
    positivity
  have h0 : (((k + 1 : Int) : ℚ) : ℝ) - ((k : ℚ) : ℝ) - ((1 : ℚ) : ℝ) = 0 := by push_cast; ring
  unfold aicCorrected
  simp only [m2ll_fin, lit_def, fin_mul, fin_add, fin_sub, h0]
  rw [fin_div_zero, infSign_pos (by push_cast; exact hpos)]
  rfl

/-- The BIC formula. -/
theorem C43_bic (x : ℝ) (k n : Int) (c : Bool) (hn : 0 < n) :
    bic (fin x) k n c = fin (Spec.minus2lnL x c + k * Real.log n) := by
  have hp : (0 : ℝ) < ((n : ℚ) : ℝ) := by exact_mod_cast hn
  unfold bic
  simp only [m2ll_fin, lit_def]
  rw [flog_fin_of_pos hp]
  simp

/-- Corrected AIC strictly increases with the number of parameters: one more parameter, same fit, `n > k + 2`. -/
theorem C43_aic_increases (x : ℝ) (k n : Int) (c : Bool) (hk : 0 ≤ k) (h : n > k + 2) :
    flt (aicCorrected (fin x) k n c) (aicCorrected (fin x) (k + 1) n c) = true := by
  rw [C43_aic _ _ _ _ (by omega), C43_aic _ _ _ _ (by omega), flt_fin, decide_eq_true_eq]
  have hk' : (0 : ℝ) ≤ k := by exact_mod_cast hk
  have hn : (0 : ℝ) < (n : ℝ) - k - 2 := by
    have : (n : ℝ) > k + 2 := by exact_mod_cast h
    linarith
  push_cast
  have e1 : 2 * (k : ℝ) * (k + 1) / (n - k - 1) ≤ 2 * (k : ℝ) * (k + 1) / (n - k - 2) := by
    apply div_le_div_of_nonneg_left (by positivity) hn (by linarith)
  have e2 : 2 * (k : ℝ) * (k + 1) / (n - k - 2) ≤ 2 * ((k : ℝ) + 1) * (k + 1 + 1) / (n - (k + 1) - 1) := by
    have : (n : ℝ) - (k + 1) - 1 = n - k - 2 := by ring
    rw [this]
    apply div_le_div_of_nonneg_right _ hn.le
    nlinarith
  linarith

/-- BIC strictly increases with the number of parameters as soon as there are two data points. -/
theorem C43_bic_increases (x : ℝ) (k n : Int) (c : Bool) (h : n > 1) : flt (bic (fin x) k n c) (bic (fin x) (k + 1) n c) = true := by
  rw [C43_bic _ _ _ _ (by omega), C43_bic _ _ _ _ (by omega), flt_fin, decide_eq_true_eq]
  have : 0 < Real.log (n : ℝ) := Real.log_pos (by exact_mod_cast h)
  push_cast
  linarith

/-- For any number of additional parameters. -/
theorem C43_aic_monotone (x : ℝ) (k n : Int) (c : Bool) (hk : 0 ≤ k) (d : Nat) (h : n > k + d + 2) :
    flt (aicCorrected (fin x) k n c) (aicCorrected (fin x) (k + d + 1) n c) = true := by
  induction d with
  | zero => simpa using C43_aic_increases x k n c hk (by simpa using h)
  | succ d ih =>
    have h1 := ih (by push_cast at h; omega)
    have h2 := C43_aic_increases x (k + d + 1) n c (by omega) (by push_cast at h; omega)
    have e : k + ((d + 1 : Nat) : Int) + 1 = k + d + 1 + 1 := by push_cast; ring
    rw [e]
    rw [C43_aic _ _ _ _ (by push_cast at h; omega), C43_aic _ _ _ _ (by push_cast at h; omega), flt_fin, decide_eq_true_eq] at *
    linarith

/-- Two models with equal `k` (and `n`) are ranked by their statistic, by both criteria. -/
theorem C43_ranking (x y : ℝ) (k n : Int) (c : Bool) (h : n ≠ k + 1) (hn : 0 < n) :
    (flt (aicCorrected (fin x) k n c) (aicCorrected (fin y) k n c) = true ↔ Spec.minus2lnL x c < Spec.minus2lnL y c) ∧
    (flt (bic (fin x) k n c) (bic (fin y) k n c) = true ↔ Spec.minus2lnL x c < Spec.minus2lnL y c) := by
  rw [C43_aic _ _ _ _ h, C43_aic _ _ _ _ h, C43_bic _ _ _ _ hn, C43_bic _ _ _ _ hn, flt_fin, flt_fin, decide_eq_true_eq, decide_eq_true_eq]
  constructor <;> constructor <;> intro h <;> linarith

/-- Non-vacuous: 3 parameters, 10 data points. -/
example : aicCorrected (fin 7) 3 10 true = fin 17 := by
  rw [C43_aic _ _ _ _ (by norm_num)]
  norm_num [Spec.minus2lnL]

example : flt (bic (fin 7) 3 10 true) (bic (fin 7) 4 10 true) = true := C43_bic_increases 7 3 10 true (by norm_num)

end Imfit
