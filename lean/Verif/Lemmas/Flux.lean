import Verif.Lemmas.FuncSetup
import Mathlib.Analysis.SpecialFunctions.PolarCoord
import Mathlib.MeasureTheory.Integral.Gamma
import Mathlib.MeasureTheory.Integral.Prod
import Mathlib.MeasureTheory.Measure.Lebesgue.EqHaar

/-!
# Integrals over the plane of elliptical profiles
-/

namespace Imfit

open MeasureTheory Set Spec

theorem integral_radial (p : ℝ → ℝ) :
    ∫ w : ℝ × ℝ, p (Real.sqrt (w.1 ^ 2 + w.2 ^ 2)) = 2 * Real.pi * ∫ r in Ioi (0 : ℝ), r * p r := by
  rw [← integral_comp_polarCoord_symm]
  have h1 : ∫ w in polarCoord.target, w.1 • p (Real.sqrt ((polarCoord.symm w).1 ^ 2 + (polarCoord.symm w).2 ^ 2)) =
      ∫ w in Ioi (0 : ℝ) ×ˢ Ioo (-Real.pi) Real.pi, (w.1 * p w.1) * (fun _ => (1 : ℝ)) w.2 := by
    refine setIntegral_congr_fun (measurableSet_Ioi.prod measurableSet_Ioo) ?_
    rintro ⟨r, t⟩ ⟨hr, -⟩
    have hr' : (0 : ℝ) < r := hr
    simp only [polarCoord_symm_apply, smul_eq_mul, mul_one]
    rw [show (r * Real.cos t) ^ 2 + (r * Real.sin t) ^ 2 = r ^ 2 * (Real.sin t ^ 2 + Real.cos t ^ 2) by ring, Real.sin_sq_add_cos_sq, mul_one,
      Real.sqrt_sq hr'.le]
  rw [h1]
  have h2 := setIntegral_prod_mul (μ := volume) (ν := volume) (fun r : ℝ => r * p r) (fun _ : ℝ => (1 : ℝ)) (Ioi (0 : ℝ)) (Ioo (-Real.pi) Real.pi)
  rw [Measure.volume_eq_prod, h2, setIntegral_const, Measure.real, Real.volume_Ioo, ENNReal.toReal_ofReal (by linarith [Real.pi_pos])]
  simp only [smul_eq_mul]
  ring

/-- The linear map from offsets to coordinates along and across the major axis, the latter divided by the axis ratio. -/
noncomputable def axisMap (q θ : ℝ) : ℝ × ℝ →ₗ[ℝ] ℝ × ℝ :=
  Matrix.toLin (Module.Basis.finTwoProd ℝ) (Module.Basis.finTwoProd ℝ) !![Real.cos θ, Real.sin θ; -Real.sin θ / q, Real.cos θ / q]

theorem axisMap_det {q : ℝ} (θ : ℝ) : LinearMap.det (axisMap q θ) = q⁻¹ := by
  unfold axisMap
  rw [LinearMap.det_toLin, Matrix.det_fin_two_of]
  rw [show Real.cos θ * (Real.cos θ / q) - Real.sin θ * (-Real.sin θ / q) = (Real.sin θ ^ 2 + Real.cos θ ^ 2) * q⁻¹ by ring, Real.sin_sq_add_cos_sq, one_mul]

theorem axisMap_apply (q θ : ℝ) (w : ℝ × ℝ) :
    axisMap q θ w = (Real.cos θ * w.1 + Real.sin θ * w.2, -Real.sin θ / q * w.1 + Real.cos θ / q * w.2) := by
  unfold axisMap
  rw [Matrix.toLin_finTwoProd_apply]

theorem integral_ell {q : ℝ} (hq : 0 < q) (θ x0 y0 : ℝ) (p : ℝ → ℝ) :
    ∫ w : ℝ × ℝ, p (ellRadius q θ (w.1 - x0) (w.2 - y0)) = q * (2 * Real.pi * ∫ r in Ioi (0 : ℝ), r * p r) := by
  rw [← integral_radial]
  have hd : LinearMap.det (axisMap q θ) ≠ 0 := by rw [axisMap_det]; positivity
  have hm := Measure.map_linearMap_addHaar_eq_smul_addHaar (volume : Measure (ℝ × ℝ)) hd
  rw [axisMap_det, inv_inv, abs_of_pos hq] at hm
  have he : MeasurableEmbedding (axisMap q θ) :=
    ((LinearEquiv.ofIsUnitDet (f := axisMap q θ) (v := Module.Basis.finTwoProd ℝ) (v' := Module.Basis.finTwoProd ℝ)
      (by rw [LinearMap.det_toMatrix]; exact isUnit_iff_ne_zero.2 hd)).toContinuousLinearEquiv.toHomeomorph).measurableEmbedding
  have h1 : ∫ w : ℝ × ℝ, p (ellRadius q θ (w.1 - x0) (w.2 - y0)) = ∫ w : ℝ × ℝ, p (ellRadius q θ w.1 w.2) :=
    integral_sub_right_eq_self (fun w : ℝ × ℝ => p (ellRadius q θ w.1 w.2)) (x0, y0)
  rw [h1]
  have h2 : ∫ w : ℝ × ℝ, p (ellRadius q θ w.1 w.2) = ∫ w : ℝ × ℝ, (fun v : ℝ × ℝ => p (Real.sqrt (v.1 ^ 2 + v.2 ^ 2))) (axisMap q θ w) := by
    congr 1
    funext w
    rw [axisMap_apply]
    unfold ellRadius
    congr 2
    ring
  have h3 := he.integral_map (μ := volume) (fun v : ℝ × ℝ => p (Real.sqrt (v.1 ^ 2 + v.2 ^ 2)))
  rw [h2, ← h3, hm, integral_smul_measure, ENNReal.toReal_ofReal hq.le, smul_eq_mul]

/-- Radial integral of the profile `A exp(c) exp(-b (r/s)^k)`. -/
theorem radial_integral {b s k : ℝ} (hb : 0 < b) (hs : 0 < s) (hk : 0 < k) (A : ℝ) :
    ∫ r in Ioi (0 : ℝ), r * (A * Real.exp (-(b * (r / s) ^ k))) = A * (s ^ 2 * (b ^ (-(2 / k)) * (1 / k) * Real.Gamma (2 / k))) := by
  have h0 := integral_comp_mul_left_Ioi (fun u : ℝ => u * Real.exp (-b * u ^ k)) 0 (inv_pos.2 hs)
  have h1 : ∫ u in Ioi (0 : ℝ), u * Real.exp (-b * u ^ k) = b ^ (-(2 / k)) * (1 / k) * Real.Gamma (2 / k) := by
    have := integral_rpow_mul_exp_neg_mul_rpow hk (by norm_num : (-1 : ℝ) < 1) hb
    simp only [Real.rpow_one] at this
    rw [this]
    norm_num
    left; left
    rw [neg_div]
  rw [mul_zero, h1, inv_inv, smul_eq_mul] at h0
  have h2 : ∫ r in Ioi (0 : ℝ), r * (A * Real.exp (-(b * (r / s) ^ k))) =
      A * s * ∫ r in Ioi (0 : ℝ), (s⁻¹ * r) * Real.exp (-b * (s⁻¹ * r) ^ k) := by
    rw [← integral_const_mul]
    congr 1
    funext r
    rw [show s⁻¹ * r = r / s by ring]
    field_simp
  rw [h2, h0]
  ring

end Imfit
