import Verif.Lemmas.LineSight
import Verif.Props.C54
import Mathlib.MeasureTheory.Integral.IntervalIntegral.Basic
import Mathlib.Analysis.SpecialFunctions.Pow.Continuity
import Mathlib.MeasureTheory.Constructions.BorelSpace.Basic
import Mathlib.MeasureTheory.Function.SpecialFunctions.Basic
import Mathlib.Analysis.SpecialFunctions.Trigonometric.Deriv

/-!
# Densities along a line of sight are integrable, and how far the guards of the code move them
-/

namespace Imfit

open Spec XR MeasureTheory

/-- The value the parameter vector gives to a name. -/
noncomputable def LFun.named (F : LFun) (p : List ℝ) (name : String) : ℝ := ((F.labels.zip p).lookup name).getD 0

theorem exp_dev (ε : ℝ) : |Real.exp (-ε) - 1| ≤ Real.exp |ε| - 1 := by
  have h := Real.one_le_cosh ε
  rw [Real.cosh_eq] at h
  rcases le_total 0 ε with h0 | h0
  · rw [abs_of_nonneg h0, abs_of_nonpos (by have := Real.exp_le_one_iff.2 (neg_nonpos.2 h0); linarith)]
    linarith
  · rw [abs_of_nonpos h0, abs_of_nonneg (by have := Real.one_le_exp (neg_nonneg.2 h0); linarith)]

theorem dev_of_exp {c a ε C : ℝ} (h : a = c * Real.exp ε) (hε : |ε| ≤ C) : |c - a| ≤ (Real.exp C - 1) * |a| := by
  have e : c = a * Real.exp (-ε) := by rw [h, mul_assoc, ← Real.exp_add, add_neg_cancel, Real.exp_zero, mul_one]
  rw [show c - a = (Real.exp (-ε) - 1) * a by rw [e]; ring, abs_mul]
  exact mul_le_mul_of_nonneg_right ((exp_dev ε).trans (sub_le_sub_right (Real.exp_le_exp.2 hε) 1)) (abs_nonneg a)

/-- A measurable function that stays within a factor of an integrable one is integrable. -/
theorem intervalIntegrable_of_dev {g b : ℝ → ℝ} {C L : ℝ} (hg : Measurable g) (hb : IntervalIntegrable b volume (-L) L) (h : ∀ s, |g s - b s| ≤ C * |b s|) :
    IntervalIntegrable g volume (-L) L := by
  refine (hb.const_mul (1 + C)).mono_fun hg.aestronglyMeasurable (Filter.Eventually.of_forall fun s => ?_)
  show ‖g s‖ ≤ ‖(1 + C) * b s‖
  rw [Real.norm_eq_abs, Real.norm_eq_abs, abs_mul]
  have h1 : |g s| ≤ |g s - b s| + |b s| := by
    have := abs_add_le (g s - b s) (b s)
    rwa [sub_add_cancel] at this
  calc |g s| ≤ (1 + C) * |b s| := by linarith [h s]
    _ ≤ |1 + C| * |b s| := mul_le_mul_of_nonneg_right (le_abs_self _) (abs_nonneg _)

/-- The integrals then differ by at most the same fraction. -/
theorem integral_dev {g b : ℝ → ℝ} {C L : ℝ} (hL : 0 ≤ L) (hg : Measurable g) (hb : IntervalIntegrable b volume (-L) L) (h : ∀ s, |g s - b s| ≤ C * |b s|) :
    |(∫ s in (-L)..L, g s) - ∫ s in (-L)..L, b s| ≤ C * ∫ s in (-L)..L, |b s| := by
  rw [← intervalIntegral.integral_sub (intervalIntegrable_of_dev hg hb h) hb, ← intervalIntegral.integral_const_mul]
  refine (intervalIntegral.abs_integral_le_integral_abs (by linarith)).trans ?_
  refine intervalIntegral.integral_mono_on (by linarith) ((intervalIntegrable_of_dev hg hb h).sub hb).abs (hb.abs.const_mul C) fun s _ => h s

/-! ## Continuity of the documented densities along a line -/

theorem sechI_continuous (n z0 : ℝ) : Continuous (sechI n z0) := by
  unfold sechI
  have : ∀ z : ℝ, (1 / Real.cosh (n * z / (2 * z0))) ≠ 0 := fun z => (one_div_pos.2 (Real.cosh_pos _)).ne'
  refine Continuous.rpow_const ?_ fun z => Or.inl (this z)
  refine Continuous.div continuous_const (by fun_prop) fun z => (Real.cosh_pos _).ne'

theorem brokenI_continuous (amp h1 h2 rb a : ℝ) : Continuous (brokenI amp h1 h2 rb a) := by
  unfold brokenI
  refine Continuous.mul (by fun_prop) (Continuous.rpow_const (by fun_prop) fun z => Or.inl (one_add_exp_pos _).ne')

theorem bumps_continuous {f g : ℝ → ℝ} (hf : Continuous f) (hg : Continuous g) (r σ : ℝ) : Continuous fun s => bumps r σ (f s) (g s) := by
  unfold bumps bell
  fun_prop

theorem ellDist_continuous {f g : ℝ → ℝ} (hf : Continuous f) (hg : Continuous g) (q : ℝ) : Continuous fun s => ellDist q (f s) (g s) := by
  unfold ellDist
  fun_prop

theorem brokenCode_measurable (amp h1 h2 rb a : ℝ) : Measurable (brokenCode amp h1 h2 rb a) := by
  unfold brokenCode
  exact Measurable.ite (measurableSet_lt measurable_const (by fun_prop)) (by fun_prop) (brokenI_continuous amp h1 h2 rb a).measurable

theorem sechCode_measurable (n z0 : ℝ) : Measurable (sechCode n z0) := by
  unfold sechCode
  refine Measurable.ite (measurableSet_lt measurable_const (by fun_prop)) (by fun_prop) (Continuous.measurable ?_)
  refine Continuous.rpow_const ?_ fun z => Or.inl (one_div_pos.2 (Real.cosh_pos _)).ne'
  exact Continuous.div continuous_const (by fun_prop) fun z => (Real.cosh_pos _).ne'

/-- A point that moves along a line. -/
structure Moves (B : ℝ → Body) : Prop where
  x : Continuous fun s => (B s).x
  y : Continuous fun s => (B s).y
  z : Continuous fun s => (B s).z

theorem Moves.along {B : ℝ → Body} (h : Moves B) (φ : ℝ) : Continuous fun s => Spec.along φ (B s).x (B s).y := by
  unfold Spec.along; have := h.x; have := h.y; fun_prop

theorem Moves.across {B : ℝ → Body} (h : Moves B) (φ : ℝ) : Continuous fun s => Spec.across φ (B s).x (B s).y := by
  unfold Spec.across; have := h.x; have := h.y; fun_prop

theorem expDiskJ_continuous {B : ℝ → Body} (h : Moves B) (j hh n z0 : ℝ) : Continuous fun s => expDiskJ j hh n z0 (B s) := by
  unfold expDiskJ
  have := h.x; have := h.y
  exact Continuous.mul (by fun_prop) ((sechI_continuous n z0).comp h.z.abs)

theorem brokenDiskJ_continuous {B : ℝ → Body} (h : Moves B) (j h1 h2 rb a n z0 : ℝ) : Continuous fun s => brokenDiskJ j h1 h2 rb a n z0 (B s) := by
  unfold brokenDiskJ
  have := h.x; have := h.y
  exact Continuous.mul ((brokenI_continuous j h1 h2 rb a).comp (by fun_prop)) ((sechI_continuous n z0).comp h.z.abs)

theorem ringJ_continuous {B : ℝ → Body} (h : Moves B) (φ q j a σ hz : ℝ) : Continuous fun s => ringJ φ q j a σ hz (B s) := by
  unfold ringJ bell
  have := ellDist_continuous (h.along φ) (h.across φ) q
  have := h.z
  fun_prop

theorem ellipsoid_continuous {B : ℝ → Body} (h : Moves B) (φ q qz : ℝ) : Continuous fun s => ellipsoid φ q qz (B s) := by
  unfold ellipsoid
  have := h.along φ
  have := h.across φ
  have := h.z
  fun_prop

theorem triaxJ_continuous {B : ℝ → Body} (h : Moves B) (φ j σ q qz : ℝ) : Continuous fun s => triaxJ φ j σ q qz (B s) := by
  unfold triaxJ
  have := ellipsoid_continuous h φ q qz
  fun_prop

theorem peanutJ_continuous {B : ℝ → Body} (h : Moves B) {rx q qz ap sp cpar cperp : ℝ} (hr : 0 < rx) (hqz : 0 < qz) (hap : 0 ≤ ap) (h1 : 0 < cpar) (h2 : 0 < cperp)
    (φ j rp : ℝ) : Continuous fun s => peanutJ φ j rx q qz rp ap sp cpar cperp (B s) := by
  unfold peanutJ
  have hu := h.along φ
  have hv := h.across φ
  have hz := h.z
  have hb := bumps_continuous hu hv rp sp
  have hzp : ∀ s, 0 < ap * bumps rp sp (Spec.along φ (B s).x (B s).y) (Spec.across φ (B s).x (B s).y) + qz * rx := fun s => by
    have := bumps_nonneg rp sp (Spec.along φ (B s).x (B s).y) (Spec.across φ (B s).x (B s).y); positivity
  refine Continuous.mul continuous_const (Continuous.rpow_const (Real.continuous_cosh.comp ?_) fun s => Or.inl (Real.cosh_pos _).ne')
  refine Continuous.rpow_const (Continuous.add ?_ ?_) fun s => Or.inr (by positivity)
  · refine Continuous.rpow_const (Continuous.add ?_ ?_) fun s => Or.inr (by positivity)
    · exact Continuous.rpow_const (by fun_prop) fun s => Or.inr h2.le
    · exact Continuous.rpow_const (by fun_prop) fun s => Or.inr h2.le
  · exact Continuous.rpow_const (Continuous.div (by fun_prop) (by fun_prop) fun s => (hzp s).ne') fun s => Or.inr h1.le

theorem ferrersJ_measurable {B : ℝ → Body} (h : Moves B) (φ j r q qz n : ℝ) : Measurable fun s => ferrersJ φ j r q qz n (B s) := by
  unfold ferrersJ
  have := (ellipsoid_continuous h φ q qz).measurable
  exact Measurable.ite (measurableSet_lt measurable_const (by fun_prop)) measurable_const (by fun_prop)

theorem ferrersJ_bound {n : ℝ} (hn : 0 ≤ n) (φ j r q qz : ℝ) (P : Body) : |ferrersJ φ j r q qz n P| ≤ |j| := by
  unfold ferrersJ
  split
  · rw [abs_zero]; exact abs_nonneg j
  · rename_i h
    have h0 : 0 ≤ ellipsoid φ q qz P / r ^ 2 := by unfold ellipsoid; positivity
    rw [abs_mul]
    refine mul_le_of_le_one_right (abs_nonneg j) ?_
    rw [abs_of_nonneg (Real.rpow_nonneg (by linarith) n)]
    exact Real.rpow_le_one (by linarith) (by linarith) hn

theorem bpSecond_continuous {B : ℝ → Body} (h : Moves B) {zmax z0 : ℝ} (hzm : 0 < zmax) (hz : 0 < z0) (φ qb jb hb rmax σ : ℝ) :
    Continuous fun s => jb / (zmax * bumps rmax σ (Spec.along φ (B s).x (B s).y) (Spec.across φ (B s).x (B s).y / qb)) *
      Real.exp (-(ellDist qb (Spec.along φ (B s).x (B s).y) (Spec.across φ (B s).x (B s).y) / hb)) *
      Real.exp (-(|(B s).z| / (zmax * bumps rmax σ (Spec.along φ (B s).x (B s).y) (Spec.across φ (B s).x (B s).y / qb) * z0))) := by
  have hu := h.along φ
  have hv := h.across φ
  have h3 := h.z
  have hb' := bumps_continuous hu (hv.div_const qb) rmax σ
  have he := ellDist_continuous hu hv qb
  have hw : ∀ s, zmax * bumps rmax σ (Spec.along φ (B s).x (B s).y) (Spec.across φ (B s).x (B s).y / qb) ≠ 0 := fun s => (mul_pos hzm (bumps_pos _ _ _ _)).ne'
  refine Continuous.mul (Continuous.mul (Continuous.div continuous_const (by fun_prop) hw) (by fun_prop)) (Real.continuous_exp.comp (Continuous.neg ?_))
  exact Continuous.div (by fun_prop) (by fun_prop) fun s => mul_ne_zero (hw s) hz.ne'

end Imfit
