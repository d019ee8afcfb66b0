import Verif.Lemmas.Funcs1d
import Verif.Props.C53

/-!
# C100: profile functions are cuts through image functions

The profile-fitting program has its own versions of the Exponential, Gaussian, Sersic, Moffat, broken-exponential, core-Sersic and Nuker functions. Along the major axis
of an image function with the same parameters and the intensity `10^(0.4 (ZP - mu))`, and without sub-sampling, both give the same values.

For the Sersic and the core-Sersic function this holds for n > 0.36 only: the one-dimensional functions use the formula for `b_n` of Ciotti & Bertin for all n, the
image functions change to another one. With n = 0.1 the profile function is fainter at the centre than at `r_e`.
-/

namespace Imfit

open Spec XR

/-- `GetValue` of a profile function is the documented profile, wherever its parameters are in the parameter vector. -/
theorem C100_values (F : Fun1) (zp : ℝ) (p : List ℝ) (hp : F.Physical p) (pre post : List XR) (x0 x : ℝ) :
    F.value (fin zp) (pre ++ p.map fin ++ post) pre.length (fin x0) (fin x) = .ok (fin (F.ref zp p x0 x)) :=
  value1_fin F zp p hp pre post x0 x

theorem axis_radius (q θ t : ℝ) : ellRadius q θ (t * Real.cos θ) (t * Real.sin θ) = |t| := by
  unfold ellRadius
  rw [show t * Real.sin θ * Real.cos θ - t * Real.cos θ * Real.sin θ = 0 by ring,
    show t * Real.cos θ * Real.cos θ + t * Real.sin θ * Real.sin θ = t * (Real.cos θ ^ 2 + Real.sin θ ^ 2) by ring, Real.cos_sq_add_sin_sq, mul_one, zero_div,
    show (0 : ℝ) ^ 2 = 0 by norm_num, add_zero, Real.sqrt_sq_eq_abs]

/-- An elliptical image function on its major axis. -/
theorem ell_axis (F : EFun) (ph : Phys) (hell : ph.ell < 1) (hsize : 0 < ph.size) (hshape : 0 < ph.shape) (X Y t : ℝ) :
    F.value false defaultDesc (F.params ph) 0 (fin X) (fin Y) (fin (X + t * Real.cos ph.angle)) (fin (Y + t * Real.sin ph.angle)) = .ok (fin (F.spec ph |t|)) := by
  obtain ⟨f, hf, he, hs⟩ := setup_isEll F false 1 0 1 one_pos ph hell hsize hshape [] [] X Y
  have e1 : ph.inImage 1 0 1 = ph := by simp [Phys.inImage]
  rw [e1] at he hs
  unfold EFun.value
  rw [defaultDesc_fin]
  simp only [List.nil_append, List.append_nil, List.length_nil] at hf
  rw [hf, ok_bind, ellValue_fin he _ _ 1 le_rfl (by rw [hs, galfitSub_off]; rfl), pixelMean_one]
  simp only [add_sub_cancel_left, axis_radius]

/-- An image function of `Model/Plane.lean` on its major axis. -/
theorem plane_axis (F : PFun XR) (p : List ℝ) (hp : F.Physical p) (X Y t : ℝ) :
    F.value false defaultDesc (p.map fin) 0 (fin X) (fin Y) (fin (X + t * Real.cos (majorAxis (F.adjust 1 0 1 p))))
      (fin (Y + t * Real.sin (majorAxis (F.adjust 1 0 1 p)))) = .ok (fin (F.ref (F.adjust 1 0 1 p) t 0)) := by
  have h := value_off F 1 0 1 one_pos p hp [] [] X Y (X + t * Real.cos (majorAxis (F.adjust 1 0 1 p))) (Y + t * Real.sin (majorAxis (F.adjust 1 0 1 p)))
  simp only [List.nil_append, List.append_nil, List.length_nil] at h
  rw [defaultDesc_fin, h]
  congr 3
  · unfold along
    rw [add_sub_cancel_left, add_sub_cancel_left, show t * Real.cos (majorAxis (F.adjust 1 0 1 p)) * Real.cos (majorAxis (F.adjust 1 0 1 p)) +
      t * Real.sin (majorAxis (F.adjust 1 0 1 p)) * Real.sin (majorAxis (F.adjust 1 0 1 p)) =
      t * (Real.cos (majorAxis (F.adjust 1 0 1 p)) ^ 2 + Real.sin (majorAxis (F.adjust 1 0 1 p)) ^ 2) by ring, Real.cos_sq_add_sin_sq, mul_one]
  · unfold across
    rw [add_sub_cancel_left, add_sub_cancel_left]
    ring

/-- The direction of the major axis: `pa` degrees from the y axis. -/
noncomputable def Spec.axisOf (pa : ℝ) : ℝ := (pa + 90) * degree

theorem Phys.angle_eq (ph : Phys) : ph.angle = axisOf ph.pa := rfl

/-- The value of a profile function at the distance `t` from its centre. -/
theorem value1_alone (F : Fun1) (zp : ℝ) (p : List ℝ) (hp : F.Physical p) (x0 t : ℝ) :
    F.value (fin zp) (p.map fin) 0 (fin x0) (fin (x0 + t)) = .ok (fin (F.ref zp p x0 (x0 + t))) := by
  have h := value1_fin F zp p hp [] [] x0 (x0 + t)
  simpa only [List.nil_append, List.append_nil, List.length_nil] using h

theorem C100_exponential (zp mu h pa ell x0 X Y t : ℝ) (hh : 0 < h) (hell : ell < 1) :
    Fun1.exponential.value (fin zp) ([mu, h].map fin) 0 (fin x0) (fin (x0 + t)) =
      EFun.exponential.value false defaultDesc ([pa, ell, flux zp mu, h].map fin) 0 (fin X) (fin Y) (fin (X + t * Real.cos (axisOf pa))) (fin (Y + t * Real.sin (axisOf pa))) := by
  rw [value1_alone .exponential zp [mu, h] hh]
  have := ell_axis .exponential ⟨pa, ell, flux zp mu, h, 1⟩ hell hh one_pos X Y t
  rw [Phys.angle_eq] at this
  refine Eq.trans ?_ this.symm
  simp only [Fun1.ref, EFun.spec, expProfile, add_sub_cancel_left]

theorem C100_gaussian (zp mu s pa ell x0 X Y t : ℝ) (hs : 0 < s) (hell : ell < 1) :
    Fun1.gaussian.value (fin zp) ([mu, s].map fin) 0 (fin x0) (fin (x0 + t)) =
      EFun.gaussian.value false defaultDesc ([pa, ell, flux zp mu, s].map fin) 0 (fin X) (fin Y) (fin (X + t * Real.cos (axisOf pa))) (fin (Y + t * Real.sin (axisOf pa))) := by
  rw [value1_alone .gaussian zp [mu, s] hs]
  have := ell_axis .gaussian ⟨pa, ell, flux zp mu, s, 1⟩ hell hs one_pos X Y t
  rw [Phys.angle_eq] at this
  refine Eq.trans ?_ this.symm
  simp only [Fun1.ref, EFun.spec, gaussProfile, bell, add_sub_cancel_left, sub_zero]

theorem C100_moffat (zp mu fw b pa ell x0 X Y t : ℝ) (hf : 0 < fw) (hb : 0 < b) (hell : ell < 1) :
    Fun1.moffat.value (fin zp) ([mu, fw, b].map fin) 0 (fin x0) (fin (x0 + t)) =
      EFun.moffat.value false defaultDesc ([pa, ell, flux zp mu, fw, b].map fin) 0 (fin X) (fin Y) (fin (X + t * Real.cos (axisOf pa))) (fin (Y + t * Real.sin (axisOf pa))) := by
  rw [value1_alone .moffat zp [mu, fw, b] ⟨hf, hb⟩]
  have := ell_axis .moffat ⟨pa, ell, flux zp mu, fw, b⟩ hell hf hb X Y t
  rw [Phys.angle_eq] at this
  refine Eq.trans ?_ this.symm
  simp only [Fun1.ref, EFun.spec, moffatProfile, moffatI, add_sub_cancel_left]

/-- Sersic functions with n > 0.36. -/
theorem C100_sersic_partial (zp n mu re pa ell x0 X Y t : ℝ) (hn : 0.36 < n) (hre : 0 < re) (hell : ell < 1) :
    Fun1.sersic.value (fin zp) ([n, mu, re].map fin) 0 (fin x0) (fin (x0 + t)) =
      EFun.sersic.value false defaultDesc ([pa, ell, n, flux zp mu, re].map fin) 0 (fin X) (fin Y) (fin (X + t * Real.cos (axisOf pa))) (fin (Y + t * Real.sin (axisOf pa))) := by
  have hn0 : 0 < n := lt_trans (by norm_num) hn
  rw [value1_alone .sersic zp [n, mu, re] ⟨hn0, hre⟩]
  have := ell_axis .sersic ⟨pa, ell, flux zp mu, re, n⟩ hell hre hn0 X Y t
  rw [Phys.angle_eq] at this
  refine Eq.trans ?_ this.symm
  simp only [Fun1.ref, EFun.spec, sersicProfile, sersicWith, bnCB_eq hn, add_sub_cancel_left]

theorem ellDist_axis (q t : ℝ) : ellDist q t 0 = |t| := by
  unfold ellDist
  rw [zero_div, show (0 : ℝ) ^ 2 = 0 by norm_num, add_zero, Real.sqrt_sq_eq_abs]

theorem C100_brokenExponential (zp mu h1 h2 rb a pa ell x0 X Y t : ℝ) (hh1 : 0 < h1) (hh2 : 0 < h2) (ha : 0 < a) (hell : ell < 1) :
    Fun1.brokenExponential.value (fin zp) ([mu, h1, h2, rb, a].map fin) 0 (fin x0) (fin (x0 + t)) =
      (PFun.brokenExp : PFun XR).value false defaultDesc ([pa, ell, flux zp mu, h1, h2, rb, a].map fin) 0 (fin X) (fin Y) (fin (X + t * Real.cos (axisOf pa)))
        (fin (Y + t * Real.sin (axisOf pa))) := by
  rw [value1_alone .brokenExponential zp [mu, h1, h2, rb, a] ⟨hh1, hh2, ha⟩]
  have := plane_axis .brokenExp [pa, ell, flux zp mu, h1, h2, rb, a] ⟨hell, hh1, hh2, ha⟩ X Y t
  rw [adjust_one] at this
  refine Eq.trans ?_ this.symm
  simp only [Fun1.ref, PFun.ref, ellDist_axis, add_sub_cancel_left]

theorem C100_nuker (zp a b g rb mu pa ell x0 X Y t : ℝ) (ha : 0 < a) (hrb : 0 < rb) (hell : ell < 1) :
    Fun1.nuker.value (fin zp) ([a, b, g, rb, mu].map fin) 0 (fin x0) (fin (x0 + t)) =
      (PFun.nuker : PFun XR).value false defaultDesc ([pa, ell, flux zp mu, rb, a, b, g].map fin) 0 (fin X) (fin Y) (fin (X + t * Real.cos (axisOf pa)))
        (fin (Y + t * Real.sin (axisOf pa))) := by
  rw [value1_alone .nuker zp [a, b, g, rb, mu] ⟨ha, hrb⟩]
  have := plane_axis .nuker [pa, ell, flux zp mu, rb, a, b, g] ⟨hell, hrb, ha⟩ X Y t
  rw [adjust_one] at this
  refine Eq.trans ?_ this.symm
  simp only [Fun1.ref, PFun.ref, ellDist_axis, add_sub_cancel_left]

/-- Core-Sersic functions with n > 0.36. -/
theorem C100_coreSersic_partial (zp n mu re rb a g pa ell x0 X Y t : ℝ) (hn : 0.36 < n) (hre : 0 < re) (hrb : 0 < rb) (ha : 0 < a) (hell : ell < 1) :
    Fun1.coreSersic.value (fin zp) ([n, mu, re, rb, a, g].map fin) 0 (fin x0) (fin (x0 + t)) =
      (PFun.coreSersic : PFun XR).value false defaultDesc ([pa, ell, n, flux zp mu, re, rb, a, g].map fin) 0 (fin X) (fin Y) (fin (X + t * Real.cos (axisOf pa)))
        (fin (Y + t * Real.sin (axisOf pa))) := by
  have hn0 : 0 < n := lt_trans (by norm_num) hn
  rw [value1_alone .coreSersic zp [n, mu, re, rb, a, g] ⟨hn0, hre, hrb, ha⟩]
  have := plane_axis .coreSersic [pa, ell, n, flux zp mu, re, rb, a, g] ⟨hell, hn0, hre, hrb, ha⟩ X Y t
  rw [adjust_one] at this
  refine Eq.trans ?_ this.symm
  simp only [Fun1.ref, PFun.ref, ellDist_axis, add_sub_cancel_left, coreSersicWith, coreSersicI, bnCB_eq hn]

/-- A Sersic function with n = 0.1: along the major axis of the image function the centre is brighter than `I_e`; the profile function is fainter than `I_e` there. -/
theorem C100_sersic_false : ∃ v w : ℝ,
    Fun1.sersic.value (fin 0) ([1 / 10, 0, 10].map fin) 0 (fin 0) (fin 0) = .ok (fin v) ∧
    EFun.sersic.value false defaultDesc ([30, 1 / 2, 1 / 10, 1, 10].map fin) 0 (fin 0) (fin 0) (fin 0) (fin 0) = .ok (fin w) ∧ v < 1 ∧ 1 < w := by
  have h1 := value1_alone .sersic 0 [1 / 10, 0, 10] ⟨by norm_num, by norm_num⟩ 0 0
  have h2 := ell_axis .sersic ⟨30, 1 / 2, 1, 10, 1 / 10⟩ (by norm_num) (by norm_num) (by norm_num) 0 0 0
  simp only [zero_mul, add_zero] at h1 h2
  have hf : flux 0 0 = 1 := by simp [flux]
  refine ⟨_, _, h1, h2, ?_, ?_⟩
  · simp only [Fun1.ref, sersicWith, hf, sub_zero, abs_zero, zero_div, one_mul]
    rw [Real.zero_rpow (by norm_num)]
    rw [← Real.exp_zero]
    refine Real.exp_lt_exp.2 ?_
    norm_num [bnCB]
  · simp only [EFun.spec, sersicProfile, abs_zero, zero_div, one_mul]
    rw [Real.zero_rpow (by norm_num)]
    refine Real.one_lt_exp_iff.2 ?_
    norm_num [bn]

/-- An exponential of central surface brightness 18, zero point 20.5 (intensity 10) and scale length 5, at distance 5, in an image with the major axis along x and along
a tilted axis. -/
example : Fun1.exponential.value (fin 20.5) ([18, 5].map fin) 0 (fin 3) (fin 8) = .ok (fin (10 * Real.exp (-1))) := by
  have h := value1_alone .exponential 20.5 [18, 5] (show (0 : ℝ) < 5 by norm_num) 3 5
  have hf : flux 20.5 18 = 10 := by unfold flux; norm_num
  rw [show (3 : ℝ) + 5 = 8 by norm_num] at h
  rw [h]
  simp only [Fun1.ref, hf]
  norm_num

example : Fun1.sersic.value (fin 25) ([2, 20, 10].map fin) 0 (fin 3) (fin (3 + 10)) =
    EFun.sersic.value false defaultDesc ([40, 1 / 4, 2, flux 25 20, 10].map fin) 0 (fin 50) (fin 60) (fin (50 + 10 * Real.cos (axisOf 40)))
      (fin (60 + 10 * Real.sin (axisOf 40))) :=
  C100_sersic_partial _ _ _ _ _ _ _ _ _ _ (by norm_num) (by norm_num) (by norm_num)

end Imfit
