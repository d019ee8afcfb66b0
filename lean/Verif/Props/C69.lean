import Verif.Model.Flux
import Verif.Lemmas.Flux
import Verif.Spec.Flux
import Verif.Props.C41
import Mathlib.Analysis.Real.Pi.Bounds

/-!
# C69: fluxes calculated by the components are the integrals of their surface brightness
-/

namespace Imfit

open MeasureTheory Set Spec XR

/-- What the profiles have in common. -/
theorem spec_form (F : EFun) (hF : F ≠ .moffat) (ph : Phys) (hsize : 0 < ph.size) (hn : F = .sersic → 0.06 ≤ ph.shape) :
    ∃ A b k : ℝ, 0 < b ∧ 0 < k ∧ (∀ r, 0 ≤ r → F.spec ph r = A * Real.exp (-(b * (r / ph.size) ^ k))) ∧
      (match F with
        | .sersic => A = ph.amp * Real.exp (bn ph.shape) ∧ b = bn ph.shape ∧ k = 1 / ph.shape
        | .gaussian => A = ph.amp ∧ b = 1 / 2 ∧ k = 2
        | _ => A = ph.amp ∧ b = 1 ∧ k = 1) := by
  cases F with
  | exponential =>
    refine ⟨ph.amp, 1, 1, one_pos, one_pos, fun r _ => ?_, rfl, rfl, rfl⟩
    simp [EFun.spec, expProfile]
  | gaussian =>
    refine ⟨ph.amp, 1 / 2, 2, by norm_num, by norm_num, fun r _ => ?_, rfl, rfl, rfl⟩
    simp only [EFun.spec, gaussProfile, Real.rpow_two]
    congr 3
    field_simp
  | sersic =>
    have hb := bn_pos (hn rfl)
    have h0 : 0 < ph.shape := lt_of_lt_of_le (by norm_num) (hn rfl)
    refine ⟨ph.amp * Real.exp (bn ph.shape), bn ph.shape, 1 / ph.shape, hb, by positivity, fun r _ => ?_, rfl, rfl, rfl⟩
    simp only [EFun.spec, sersicProfile]
    rw [mul_assoc, ← Real.exp_add]
    congr 2
    ring
  | moffat => exact absurd rfl hF

/-- The flux that belongs to the profile, for axis ratio `q`. -/
noncomputable def EFun.fluxOf (q : ℝ) (ph : Phys) : EFun → ℝ
  | .sersic => 2 * Real.pi * q * ph.amp * ph.size ^ 2 * ph.shape * Real.exp (bn ph.shape) * Real.Gamma (2 * ph.shape) / bn ph.shape ^ (2 * ph.shape)
  | _ => 2 * Real.pi * q * ph.amp * ph.size ^ 2

theorem spec_flux (F : EFun) (hF : F ≠ .moffat) (ph : Phys) (hsize : 0 < ph.size) (hamp : ph.amp ≠ 0) (hn : F = .sersic → 0.06 ≤ ph.shape) {q : ℝ} (hq : 0 < q)
    (θ x0 y0 : ℝ) :
    IsFlux (fun x y => F.spec ph (ellRadius q θ (x - x0) (y - y0))) (F.fluxOf q ph) := by
  obtain ⟨A, b, k, hb, hk, hp, hm⟩ := spec_form F hF ph hsize hn
  have hI : ∫ w : ℝ × ℝ, F.spec ph (ellRadius q θ (w.1 - x0) (w.2 - y0)) =
      q * (2 * Real.pi * (A * (ph.size ^ 2 * (b ^ (-(2 / k)) * (1 / k) * Real.Gamma (2 / k))))) := by
    rw [integral_ell hq, ← radial_integral hb hsize hk]
    congr 2
    refine setIntegral_congr_fun measurableSet_Ioi fun r hr => ?_
    have hr' : (0 : ℝ) < r := hr
    simp only [hp r hr'.le]
  have hA : A ≠ 0 := by
    cases F with
    | exponential => rw [hm.1]; exact hamp
    | gaussian => rw [hm.1]; exact hamp
    | sersic => rw [hm.1]; exact mul_ne_zero hamp (Real.exp_pos _).ne'
    | moffat => exact absurd rfl hF
  have hG : 0 < Real.Gamma (2 / k) := Real.Gamma_pos_of_pos (by positivity)
  have hb' : 0 < b ^ (-(2 / k)) := Real.rpow_pos_of_pos hb _
  have hne : ∫ w : ℝ × ℝ, F.spec ph (ellRadius q θ (w.1 - x0) (w.2 - y0)) ≠ 0 := by
    rw [hI]
    have := Real.pi_pos
    positivity
  refine ⟨Integrable.of_integral_ne_zero hne, ?_⟩
  rw [hI]
  cases F with
  | exponential =>
    obtain ⟨rfl, rfl, rfl⟩ := hm
    unfold EFun.fluxOf
    have h2 : Real.Gamma 2 = 1 := by norm_num
    simp only [div_one, Real.one_rpow, h2]
    ring
  | gaussian =>
    obtain ⟨rfl, rfl, rfl⟩ := hm
    unfold EFun.fluxOf
    have h2 : ((1 : ℝ) / 2) ^ (-(2 / 2) : ℝ) = 2 := by rw [show (-(2 / 2) : ℝ) = -1 by norm_num, Real.rpow_neg_one]; norm_num
    rw [h2, show (2 / 2 : ℝ) = 1 by norm_num, Real.Gamma_one]
    ring
  | sersic =>
    obtain ⟨rfl, rfl, rfl⟩ := hm
    unfold EFun.fluxOf
    have h0 : 0 < ph.shape := lt_of_lt_of_le (by norm_num) (hn rfl)
    rw [show (2 / (1 / ph.shape) : ℝ) = 2 * ph.shape by field_simp, Real.rpow_neg hb.le]
    field_simp
  | moffat => exact absurd rfl hF

/-- `TotalFlux` in closed form. -/
theorem totalFlux_eq (F : EFun) (hF : F ≠ .moffat) (gam : XR → XR) (hgam : ∀ v : ℝ, 0 < v → v ≤ 171 → gam (fin v) = fin (Real.Gamma v))
    (ps rot is : ℝ) (ph : Phys) (hshape : 0 < ph.shape) (hn : F = .sersic → 0.06 ≤ ph.shape ∧ ph.shape ≤ 85) (pre post : List XR) :
    F.totalFlux gam ⟨fin ps, fin rot, fin is⟩ (pre ++ F.params ph ++ post) pre.length =
      some (.ok (fin (F.fluxOf (1 - ph.ell) (ph.inImage ps rot is) * (3.14159265358979 / Real.pi)))) := by
  have hpi := Real.pi_ne_zero
  have hP : ((PI_FUNC : ℚ) : ℝ) = 3.14159265358979 := by rw [PI_FUNC]; norm_num
  cases F with
  | exponential =>
    simp only [EFun.totalFlux, EFun.params]
    rw [rd_mid _ _ _ 1 _ rfl, rd_mid _ _ _ 2 _ rfl, rd_mid _ _ _ 3 _ rfl]
    simp only [ok_bind, pure_eq_ok, one_def, lit_def, fin_mul, fin_sub, hP]
    congr 3
    simp only [EFun.fluxOf, Phys.inImage]
    push_cast
    field_simp
  | gaussian =>
    simp only [EFun.totalFlux, EFun.params]
    rw [rd_mid _ _ _ 1 _ rfl, rd_mid _ _ _ 2 _ rfl, rd_mid _ _ _ 3 _ rfl]
    simp only [ok_bind, pure_eq_ok, one_def, lit_def, fin_mul, fin_sub, hP]
    congr 3
    simp only [EFun.fluxOf, Phys.inImage]
    push_cast
    field_simp
  | sersic =>
    simp only [EFun.totalFlux, EFun.params]
    rw [rd_mid _ _ _ 1 _ rfl, rd_mid _ _ _ 2 _ rfl, rd_mid _ _ _ 3 _ rfl, rd_mid _ _ _ 4 _ rfl]
    have hb := bn_pos (hn rfl).1
    have h85 := (hn rfl).2
    have hbp : 0 < bn ph.shape ^ (2 * ph.shape) := Real.rpow_pos_of_pos hb _
    simp only [ok_bind, pure_eq_ok, one_def, lit_def, fin_mul, fin_sub, hP, bn_fin hshape, fexp_fin]
    rw [fpow_pos hb, hgam _ (by push_cast; positivity) (by push_cast; linarith)]
    push_cast
    rw [fin_mul, fin_div_of_ne hbp.ne']
    congr 3
    simp only [EFun.fluxOf, Phys.inImage]
    field_simp
  | moffat => exact absurd rfl hF

/-- C69: for an exponential, a Gaussian or a Sersic component, with any parameters of the physical range and in any image, `TotalFlux` is the integral over the plane
of the surface brightness that `GetValue` gives without sub-sampling, except that the constant of the source stands for π. -/
theorem C69_flux (F : EFun) (hF : F ≠ .moffat) (gam : XR → XR) (hgam : ∀ v : ℝ, 0 < v → v ≤ 171 → gam (fin v) = fin (Real.Gamma v))
    (ps rot is : ℝ) (hps : 0 < ps) (his : is ≠ 0) (ph : Phys) (hell : ph.ell < 1) (hamp : ph.amp ≠ 0) (hsize : 0 < ph.size) (hshape : 0 < ph.shape)
    (hn : F = .sersic → 0.06 ≤ ph.shape ∧ ph.shape ≤ 85) (pre post : List XR) (x0 y0 : ℝ) :
    ∃ (g : ℝ → ℝ → ℝ) (T : ℝ),
      (∀ x y, F.value false ⟨fin ps, fin rot, fin is⟩ (pre ++ F.params ph ++ post) pre.length (fin x0) (fin y0) (fin x) (fin y) = .ok (fin (g x y))) ∧
      IsFlux g T ∧
      F.totalFlux gam ⟨fin ps, fin rot, fin is⟩ (pre ++ F.params ph ++ post) pre.length = some (.ok (fin (T * (3.14159265358979 / Real.pi)))) := by
  obtain ⟨f, hf, he, hnsub⟩ := setup_isEll F false ps rot is hps ph hell hsize hshape pre post x0 y0
  have hs' : 0 < (ph.inImage ps rot is).size := by simp only [Phys.inImage]; positivity
  have ha' : (ph.inImage ps rot is).amp ≠ 0 := mul_ne_zero hamp his
  have hq : 0 < 1 - ph.ell := by linarith
  refine ⟨_, _, ?_, spec_flux F hF (ph.inImage ps rot is) hs' ha' (fun h => (hn h).1) hq (ph.inImage ps rot is).angle x0 y0,
    totalFlux_eq F hF gam hgam ps rot is ph hshape hn pre post⟩
  intro x y
  unfold EFun.value
  rw [hf, ok_bind, ellValue_fin he x y 1 le_rfl (by rw [hnsub]; rfl), pixelMean_one]

/-- The constant is π to within 1.1 parts in 10¹⁵. -/
theorem C69_constant (T : ℝ) : |T * (3.14159265358979 / Real.pi) - T| ≤ 1.1e-15 * |T| := by
  have h1 := Real.pi_gt_d20
  have h2 := Real.pi_lt_d20
  have hp := Real.pi_pos
  rw [show T * (3.14159265358979 / Real.pi) - T = T * (3.14159265358979 / Real.pi - 1) by ring, abs_mul, mul_comm]
  refine mul_le_mul_of_nonneg_right ?_ (abs_nonneg _)
  rw [show (3.14159265358979 / Real.pi - 1 : ℝ) = (3.14159265358979 - Real.pi) / Real.pi by field_simp, abs_div, abs_of_pos hp, div_le_iff₀ hp, abs_le]
  constructor <;> norm_num at * <;> nlinarith

/-- A Sersic component with index 4, axis ratio 1/2 and effective radius 10 (parameters from position 1 on), in an image with pixels twice as large. -/
example : ∃ (g : ℝ → ℝ → ℝ) (T : ℝ),
    (∀ x y, EFun.sersic.value false ⟨fin (1 / 2), fin 30, fin 3⟩ [fin 7, fin 20, fin (1 / 2), fin 4, fin 2, fin 10, fin 5] 1 (fin 3) (fin 4) (fin x) (fin y) =
      .ok (fin (g x y))) ∧ IsFlux g T ∧
    EFun.sersic.totalFlux (fun v => match v with | fin r => fin (Real.Gamma r) | _ => XR.nan) ⟨fin (1 / 2), fin 30, fin 3⟩
      [fin 7, fin 20, fin (1 / 2), fin 4, fin 2, fin 10, fin 5] 1 = some (.ok (fin (T * (3.14159265358979 / Real.pi)))) :=
  C69_flux .sersic (by simp) (fun v => match v with | fin r => fin (Real.Gamma r) | _ => XR.nan) (fun _ _ _ => rfl) (1 / 2) 30 3 (by norm_num) (by norm_num)
    ⟨20, 1 / 2, 2, 10, 4⟩ (by norm_num) (by norm_num) (by norm_num) (by norm_num) (fun _ => by norm_num) [fin 7] [fin 5] 3 4

/-- The flux of a circular Gaussian with σ = 3 and central intensity 2 is 36 π. -/
example (x0 y0 : ℝ) : IsFlux (fun x y => 2 * Real.exp (-(((x - x0) ^ 2 + (y - y0) ^ 2) / 18))) (36 * Real.pi) := by
  have h := spec_flux .gaussian (by simp) ⟨0, 0, 2, 3, 1⟩ (by norm_num) (by norm_num) (by simp) one_pos 0 x0 y0
  have e : (36 * Real.pi : ℝ) = EFun.fluxOf 1 ⟨0, 0, 2, 3, 1⟩ .gaussian := by
    unfold EFun.fluxOf
    ring
  rw [e]
  convert h using 3 with x y
  simp only [EFun.spec, gaussProfile]
  rw [ellRadius_circle, Real.sq_sqrt (by positivity)]
  norm_num

end Imfit
