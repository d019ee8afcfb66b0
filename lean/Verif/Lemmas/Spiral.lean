import Verif.Model.Spiral
import Verif.Spec.Spiral
import Verif.Lemmas.PlaneProfiles
import Mathlib.Analysis.SpecialFunctions.Trigonometric.Angle

/-!
# Exact values of spirals
-/

namespace Imfit

open Spec XR

theorem ftan_fin {a : ℝ} (h : Real.cos a ≠ 0) : (ftan (fin a) : XR) = fin (Real.tan a) := if_neg h

theorem fatan2_fin (y x : ℝ) : (fatan2 (fin y) (fin x) : XR) = fin (Complex.arg ⟨x, y⟩) := rfl

theorem fpi_fin : (fpi : XR) = fin Real.pi := rfl

theorem ffmod_fin {a b : ℝ} (h : b ≠ 0) : (ffmod (fin a) (fin b) : XR) = fin (a - b * truncZ (a / b)) := if_neg h

theorem along_planePoint (θ q r φ : ℝ) : along θ (planePoint θ q r φ).1 (planePoint θ q r φ).2 = r * Real.cos φ := by
  have h := Real.sin_sq_add_cos_sq θ
  unfold along planePoint
  linear_combination (r * Real.cos φ) * h

theorem across_planePoint (θ q r φ : ℝ) : across θ (planePoint θ q r φ).1 (planePoint θ q r φ).2 = q * (r * Real.sin φ) := by
  have h := Real.sin_sq_add_cos_sq θ
  unfold across planePoint
  linear_combination (q * (r * Real.sin φ)) * h

theorem ellDist_polar {q r : ℝ} (hq : q ≠ 0) (hr : 0 ≤ r) (φ : ℝ) : ellDist q (r * Real.cos φ) (q * (r * Real.sin φ)) = r := by
  unfold ellDist
  rw [mul_div_cancel_left₀ _ hq, show (r * Real.cos φ) ^ 2 + (r * Real.sin φ) ^ 2 = r ^ 2 by
    have h := Real.sin_sq_add_cos_sq φ
    linear_combination r ^ 2 * h, Real.sqrt_sq hr]

/-- The angle found by `atan2` is the angle of the point, up to full turns. -/
theorem arg_polar {r : ℝ} (hr : 0 < r) (φ : ℝ) : ∃ k : ℤ, Complex.arg ⟨r * Real.cos φ, r * Real.sin φ⟩ = φ + k * (2 * Real.pi) := by
  have e : (⟨r * Real.cos φ, r * Real.sin φ⟩ : ℂ) = r * (Complex.cos φ + Complex.sin φ * Complex.I) := by
    apply Complex.ext
    · simp [Complex.cos_ofReal_re, Complex.sin_ofReal_re, Complex.cos_ofReal_im, Complex.sin_ofReal_im]
    · simp [Complex.cos_ofReal_re, Complex.sin_ofReal_re, Complex.cos_ofReal_im, Complex.sin_ofReal_im]
  have h := Complex.arg_mul_cos_add_sin_mul_I_coe_angle hr (φ : Real.Angle)
  rw [e]
  have h2 : ((Complex.arg (r * (Complex.cos φ + Complex.sin φ * Complex.I)) : ℝ) : Real.Angle) = (φ : Real.Angle) := by
    rw [← h]
    simp [Real.Angle.cos_coe, Real.Angle.sin_coe]
  obtain ⟨k, hk⟩ := Real.Angle.angle_eq_iff_two_pi_dvd_sub.1 h2
  exact ⟨k, by linear_combination hk⟩

theorem spiralRadius_pos {r : ℝ} (h : 0 < r) : spiralRadius (fin r) = fin r := by
  have e : fle (fin r) (0 : XR) = false := by simp [zero_def, fle_fin, h]
  unfold spiralRadius
  rw [e]
  rfl

theorem spiralRadius_zero : spiralRadius (fin 0) = fin (1 / 1000) := by
  simp [spiralRadius]

/-- The azimuthal term for the angle `φ + 2πk` is the ridge of the specification if the number of arms is an integer. -/
theorem spiralTerm_fin {pitch ri σ : ℝ} (hs : Real.sin (pitch * degree) ≠ 0) (hc : Real.cos (pitch * degree) ≠ 0) (hri : 0 < ri) (hσ : σ ≠ 0) (m γ : ℝ) {r : ℝ}
    (hr : 0 < r) (ψ : ℝ) :
    spiralTerm (spiralPattern (fin m) (fin pitch) (fin ri) (fin σ) (fin γ)) (fin r) (fin ψ) = fin (ridge m σ r (ψ - armAngle pitch ri γ r)) := by
  have e : ((DEG2RAD : ℚ) : ℝ) = degree := by unfold degree DEG2RAD; push_cast; rfl
  have ht : Real.tan (pitch * degree) ≠ 0 := by
    rw [Real.tan_eq_sin_div_cos]
    exact div_ne_zero hs hc
  unfold spiralTerm spiralPattern
  simp only [lit_def, e, fin_mul, ftan_fin hc, fin_div_of_ne ht, fin_div_of_ne hri.ne', flog_fin_of_pos (div_pos hr hri), fin_add, fin_sub, fcos_fin, one_def,
    fin_neg, fin_div_of_ne (mul_self_ne_zero.2 hσ), fexp_fin]
  unfold ridge armAngle
  congr 2
  rw [show m * ψ - (m / Real.tan (pitch * degree) * Real.log (r / ri) + m * γ * degree) = m * (ψ - (γ * degree + Real.log (r / ri) / Real.tan (pitch * degree))) by ring]
  rw [show -r * r / (σ * σ) = -(r ^ 2 / σ ^ 2) by ring]
  ring

theorem ridge_turns (m k : ℤ) (σ r δ : ℝ) : ridge m σ r (δ + k * (2 * Real.pi)) = ridge m σ r δ := by
  unfold ridge
  rw [mul_add, show (m : ℝ) * ((k : ℝ) * (2 * Real.pi)) = ((m * k : ℤ) : ℝ) * (2 * Real.pi) by push_cast; ring, Real.cos_add_int_mul_two_pi]

/-- The function class of a specified amplitude. -/
def Spec.Amplitude.fn : Amplitude → SpiralFun
  | .plain _ => .plain
  | .trunc .. => .trunc
  | .broken .. => .broken
  | .expo .. => .expo
  | .gauss .. => .gauss

/-- Where the amplitude of the code is the documented one: everywhere, except that `LogSpiral3` uses an approximation far outside the break. -/
def Spec.Amplitude.Exact : Amplitude → ℝ → Prop
  | .broken _ _ _ rb a _ _, r => a * (r - rb) ≤ 100
  | _, _ => True

/-- The amplitude in the model. -/
noncomputable def Spec.Amplitude.code : Amplitude → XR → XR → XR
  | .plain i0, _, _ => fin i0
  | .trunc i0 h rmax s, _, r => amp2 (fin i0) (fin h) (fin rmax) (fin s) r
  | .broken i0 h1 h2 rb a rmax s, _, r => amp3 (fin i0) (fin h1) (fin h2) (fin rb) (fin a) (fin rmax) (fin s) r
  | .expo imax h rmax s, _, r => ampExp (fin imax) (fin h) (fin rmax) (fin s) r
  | .gauss imax rmax si so, rd, r => ampGauss (fin imax) (fin rmax) (fin si) (fin so) rd r

theorem bell_code {s : ℝ} (hs : 0 < s) (m r : ℝ) : -((m - r) * (m - r)) / (2 * s * s) = -((r - m) ^ 2 / (2 * s ^ 2)) := by
  field_simp
  ring

theorem amp_fin (A : Amplitude) (hA : A.Ok) {r : ℝ} (hE : A.Exact r) : A.code (fin r) (fin r) = fin (A.at r) := by
  cases A with
  | plain i0 => rfl
  | trunc i0 h rmax s =>
    obtain ⟨h1, h2, h3, h4⟩ := hA
    have hs : 2 * s * s ≠ 0 := by positivity
    simp only [Amplitude.code, Amplitude.at, amp2, lit2, flt_fin, fin_sub, fin_mul, fin_neg, fin_div_of_ne hs, fexp_fin, fin_div_of_ne h3.ne', fin_div_of_ne h2.ne', one_def]
    unfold bell
    by_cases hr : r < rmax
    · simp only [hr, decide_true, if_true, fin_mul, bell_code h4, neg_div]
      congr 1; ring
    · simp only [hr, decide_false, Bool.false_eq_true, if_false, fin_mul, neg_div]
      congr 1; ring
  | broken i0 h1 h2 rb a rmax s =>
    obtain ⟨k1, k2, k3, k4, k5, k6⟩ := hA
    have hs : 2 * s * s ≠ 0 := by positivity
    simp only [Amplitude.code, Amplitude.at, amp3, lit2, flt_fin]
    by_cases hr : r < rmax
    · simp only [hr, decide_true, if_true, fin_sub, fin_mul, fin_neg, fin_div_of_ne hs, fexp_fin, fin_div_of_ne k5.ne', fin_div_of_ne k2.ne', bell_code k6, neg_div]
      unfold bell
      congr 1; ring
    · simp only [hr, decide_false, Bool.false_eq_true, if_false]
      rw [brokenProfile_fin k2.ne' k3.ne' k4.ne', brokenCode, if_neg (not_lt.2 hE)]
  | expo imax h rmax s =>
    obtain ⟨h1, h2, h3, h4⟩ := hA
    have hs : 2 * s * s ≠ 0 := by positivity
    simp only [Amplitude.code, Amplitude.at, ampExp, lit2, flt_fin, fin_sub, fin_mul, fin_neg, fin_div_of_ne hs, fexp_fin, fin_div_of_ne h2.ne',
      fin_div_of_ne (Real.exp_pos _).ne']
    by_cases hr : r < rmax
    · simp only [hr, decide_true, if_true, bell_code h4]
      rfl
    · simp only [hr, decide_false, Bool.false_eq_true, if_false]
      congr 1
      rw [div_mul_eq_mul_div, mul_div_assoc, ← Real.exp_sub]
      congr 2
      ring
  | gauss imax rmax si so =>
    obtain ⟨h1, h2, h3, h4⟩ := hA
    have hi : 2 * si * si ≠ 0 := by positivity
    have ho : 2 * so * so ≠ 0 := by positivity
    have e : |r - rmax| * |r - rmax| = (rmax - r) * (rmax - r) := by rw [abs_mul_abs_self]; ring
    simp only [Amplitude.code, Amplitude.at, ampGauss, lit2, flt_fin, fin_sub, fin_mul, fin_neg, fabs_fin, e]
    by_cases hr : r < rmax
    · simp only [hr, decide_true, if_true, fin_div_of_ne hi, fexp_fin, fin_mul, bell_code h3]
      rfl
    · simp only [hr, decide_false, Bool.false_eq_true, if_false, fin_div_of_ne ho, fexp_fin, fin_mul, bell_code h4]
      rfl

theorem spiral_build (A : Amplitude) (pa ell m pitch ri σ γ x0 y0 : ℝ) :
    A.fn.build (fin x0) (fin y0) ((A.params pa ell m pitch ri σ γ).map fin) =
      .ok (spiralFn (fin pa) (fin ell) (fin x0) (fin y0) (spiralPattern (fin m) (fin pitch) (fin ri) (fin σ) (fin γ)) A.code) := by
  cases A <;> rfl

theorem spiral_reads (A : Amplitude) (pa ell m pitch ri σ γ x0 y0 : ℝ) (pre post : List XR) (x y : XR) :
    A.fn.value (pre ++ (A.params pa ell m pitch ri σ γ).map fin ++ post) pre.length (fin x0) (fin y0) x y =
      planeValue (spiralFn (fin pa) (fin ell) (fin x0) (fin y0) (spiralPattern (fin m) (fin pitch) (fin ri) (fin σ) (fin γ)) A.code) x y := by
  unfold SpiralFun.value
  have hl : A.fn.nPars = ((A.params pa ell m pitch ri σ γ).map fin).length := by cases A <;> rfl
  rw [hl, rdPars, ok_bind, spiral_build, ok_bind]

/-- The value at any point other than the centre, with the angle as `atan2` returns it. -/
theorem spiral_value (A : Amplitude) (hA : A.Ok) {pa ell m pitch ri σ γ : ℝ} (he : ell < 1) (hs : Real.sin (pitch * degree) ≠ 0)
    (hc : Real.cos (pitch * degree) ≠ 0) (hri : 0 < ri) (hσ : σ ≠ 0) (x0 y0 : ℝ) (pre post : List XR) {r : ℝ} (hr : 0 < r) (hE : A.Exact r) (φ : ℝ) :
    A.fn.value (pre ++ (A.params pa ell m pitch ri σ γ).map fin ++ post) pre.length (fin x0) (fin y0)
        (fin (x0 + (planePoint ((pa + 90) * degree) (1 - ell) r φ).1)) (fin (y0 + (planePoint ((pa + 90) * degree) (1 - ell) r φ).2)) =
      .ok (fin (A.at r * ridge m σ r (Complex.arg ⟨r * Real.cos φ, r * Real.sin φ⟩ - armAngle pitch ri γ r))) := by
  have hq : 0 < 1 - ell := by linarith
  have eθ : ((pa + ((90 : ℚ) : ℝ)) * ((DEG2RAD : ℚ) : ℝ)) = (pa + 90) * degree := by
    unfold degree DEG2RAD
    push_cast
    rfl
  rw [spiral_reads]
  set P := planePoint ((pa + 90) * degree) (1 - ell) r φ with hP
  unfold planeValue spiralFn planeFn
  simp only [PlaneFn.at', PlaneFn.along, PlaneFn.across, lit_def, fin_add, fin_sub, fin_mul, fin_neg, fcos_fin, fsin_fin, eθ, one_def, pure_eq_ok, ok_bind, add_sub_cancel_left]
  rw [if_neg (by norm_num)]
  have h1 : P.1 * Real.cos ((pa + 90) * degree) + P.2 * Real.sin ((pa + 90) * degree) = r * Real.cos φ := along_planePoint _ _ _ _
  have h2 : -P.1 * Real.sin ((pa + 90) * degree) + P.2 * Real.cos ((pa + 90) * degree) = (1 - ell) * (r * Real.sin φ) := by
    have := across_planePoint ((pa + 90) * degree) (1 - ell) r φ
    unfold across at this
    rw [← hP] at this
    linarith
  rw [h1, h2, ellR_fin hq, ellDist_polar hq.ne' hr.le, spiralRadius_pos hr, fin_div_of_ne hq.ne', mul_div_cancel_left₀ _ hq.ne', fatan2_fin, amp_fin A hA hE,
    spiralTerm_fin hs hc hri hσ m γ hr, fin_mul]

end Imfit
