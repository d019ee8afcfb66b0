import Verif.Props.C75
import Mathlib.Analysis.Real.Pi.Bounds

/-!
# C75 — the bars that are turned by a right angle
-/

namespace Imfit

open Spec XR MeasureTheory

theorem los_value_exact (F : LFun) (p : List ℝ) (hp : F.Physical p) (hs : F.Shines (F.named p)) (pre post : List XR) (x0 y0 x y : ℝ) :
    F.value exactInteg defaultDesc (pre ++ p.map fin ++ post) pre.length (fin x0) (fin y0) (fin x) (fin y) =
      .ok (fin (∫ s in (-F.range p)..F.range p, ray (F.coded p) (nodes p) (tilt p) (x - x0) (y - y0) s)) := by
  obtain ⟨v, hv, hb⟩ := los_value exactInteg_integrates F p hp hs pre post x0 y0 x y
  rw [zero_mul] at hb
  rw [hv, show v = _ from sub_eq_zero.1 (abs_nonpos_iff.1 hb)]

/-- C75 is false of `FerrersBar3D`: a bar seen face-on whose documented major axis lies along the line of nodes, which is the x axis of the image. The pixel at `(1/2, 0)`
is inside the documented bar, but its value is zero: the major axis of the code is perpendicular to the documented one. -/
theorem C75_ferrers_false : ∃ (p : List ℝ) (v w : ℝ), LFun.ferrers.Physical p ∧
    LFun.ferrers.value exactInteg defaultDesc (p.map fin) 0 (fin 0) (fin 0) (fin (1 / 2)) (fin 0) = .ok (fin v) ∧
    LineIntegral (LFun.ferrers.documented (LFun.ferrers.named p)) ((LFun.ferrers.named p "PA" + 90) * degree) (LFun.ferrers.named p "inc" * degree)
      (LFun.ferrers.depth (LFun.ferrers.named p)) (1 / 2) 0 w ∧ v = 0 ∧ 1 / 2 ≤ w := by
  have hp : LFun.ferrers.Physical [-90, 0, -90, 1, 1, 1 / 4, 1 / 2, 0] := ⟨by norm_num, by norm_num, by norm_num, le_rfl⟩
  set p : List ℝ := [-90, 0, -90, 1, 1, 1 / 4, 1 / 2, 0] with hpd
  have hv := los_value_exact .ferrers p hp trivial [] [] 0 0 (1 / 2) 0
  rw [List.nil_append, List.append_nil, List.length_nil] at hv
  have hL : LFun.ferrers.depth (LFun.ferrers.named p) = 101 / 100 := by
    show 101 / 100 * max (1 / 4 * 1 * Real.sin (0 * degree)) 1 = 101 / 100
    rw [zero_mul, Real.sin_zero, mul_zero, max_eq_right zero_le_one, mul_one]
  have hθ : (LFun.ferrers.named p "PA" + 90) * degree = 0 := by
    show ((-90 : ℝ) + 90) * degree = 0
    norm_num
  have hi : LFun.ferrers.named p "inc" * degree = 0 := zero_mul degree
  have hdoc : ∀ s, ray (LFun.ferrers.documented (LFun.ferrers.named p)) 0 0 (1 / 2) 0 s = if 1 < (1 / 2) ^ 2 + (2 * s) ^ 2 then 0 else 1 := by
    intro s
    show ferrersJ (((-90 : ℝ) + 90) * degree) 1 1 (1 / 4) (1 / 2) 0 _ = _
    unfold ferrersJ ellipsoid along across
    simp only [neg_add_cancel, zero_mul, Real.cos_zero, Real.sin_zero, mul_one, mul_zero, add_zero, sub_zero, Real.rpow_zero, one_pow, div_one]
    congr 2
    ring
  have hint : IntervalIntegrable (ray (LFun.ferrers.documented (LFun.ferrers.named p)) 0 0 (1 / 2) 0) volume (-(101 / 100)) (101 / 100) := by
    refine (intervalIntegrable_const (c := (1 : ℝ))).mono_fun (ferrersJ_measurable (sightline_moves 0 0 (1 / 2) 0) _ _ _ _ _ _).aestronglyMeasurable
      (Filter.Eventually.of_forall fun s => ?_)
    exact ferrersJ_bound le_rfl _ 1 _ _ _ _
  refine ⟨p, _, _, hp, hv, by rw [hL, hθ, hi]; exact lineIntegral_ray hint, ?_, ?_⟩
  · rw [sub_zero, sub_zero]
    refine (intervalIntegral.integral_congr fun s _ => ?_).trans intervalIntegral.integral_zero
    show ferrersJ (((-90 : ℝ) + 90) * degree + Real.pi / 2) 1 1 (1 / 4) (1 / 2) 0 _ = 0
    unfold ferrersJ
    rw [if_pos]
    unfold ellipsoid
    rw [along_quarter, across_quarter]
    have e1 : nodes p = 0 := hθ
    have e2 : tilt p = 0 := hi
    rw [e1, e2, neg_add_cancel, zero_mul]
    unfold along across
    simp only [Real.cos_zero, Real.sin_zero, mul_one, mul_zero, add_zero, sub_zero]
    nlinarith [sq_nonneg s]
  · have h1 : (∫ s in (-(1 / 4 : ℝ))..(1 / 4), ray (LFun.ferrers.documented (LFun.ferrers.named p)) 0 0 (1 / 2) 0 s) = 1 / 2 := by
      rw [intervalIntegral.integral_congr (g := fun _ => (1 : ℝ))]
      · rw [intervalIntegral.integral_const, smul_eq_mul]; norm_num
      · intro s hs
        rw [Set.uIcc_of_le (by norm_num)] at hs
        show ray _ 0 0 (1 / 2) 0 s = 1
        rw [hdoc, if_neg]
        nlinarith [hs.1, hs.2]
    refine h1.symm.le.trans ?_
    refine intervalIntegral.integral_mono_interval (a := -(1 / 4)) (b := 1 / 4) (c := -(101 / 100)) (d := 101 / 100) (by norm_num) (by norm_num) (by norm_num) (Filter.Eventually.of_forall fun s => ?_) hint
    show 0 ≤ ray _ 0 0 (1 / 2) 0 s
    rw [hdoc]
    split <;> norm_num

theorem right_angle : 0 < 90 * degree ∧ 90 * degree < Real.pi := by
  have := Real.pi_gt_three
  unfold degree
  constructor
  · norm_num
  · linarith

/-- C75 is false of `DattathriPeanut3D`: a bar seen face-on whose documented major axis lies along the line of nodes. On that axis the image is fainter than documented,
because the axis of the code is 90 degrees away. -/
theorem C75_peanut_false : ∃ (p : List ℝ) (v w : ℝ), LFun.peanut.Physical p ∧
    LFun.peanut.value exactInteg defaultDesc (p.map fin) 0 (fin 0) (fin 0) (fin 1) (fin 0) = .ok (fin v) ∧
    LineIntegral (LFun.peanut.documented (LFun.peanut.named p)) ((LFun.peanut.named p "PA_lon" + 90) * degree) (LFun.peanut.named p "inc" * degree)
      (LFun.peanut.depth (LFun.peanut.named p)) 1 0 w ∧ v < w := by
  have hp : LFun.peanut.Physical [-90, 0, -90, 1, 1, 1 / 2, 1 / 2, 0, 0, 1, 2, 2] :=
    ⟨by norm_num, by norm_num, by norm_num, le_rfl, by norm_num, by norm_num, by norm_num⟩
  set p : List ℝ := [-90, 0, -90, 1, 1, 1 / 2, 1 / 2, 0, 0, 1, 2, 2] with hpd
  have hv := los_value_exact .peanut p hp trivial [] [] 0 0 1 0
  rw [List.nil_append, List.append_nil, List.length_nil] at hv
  have hθ : (LFun.peanut.named p "PA_lon" + 90) * degree = 0 := by
    show ((-90 : ℝ) + 90) * degree = 0
    norm_num
  have hi : LFun.peanut.named p "inc" * degree = 0 := zero_mul degree
  have hL : LFun.peanut.depth (LFun.peanut.named p) = 10 := by show (10 : ℝ) * 1 = 10; norm_num
  have c1 : Continuous (ray (LFun.peanut.documented (LFun.peanut.named p)) 0 0 1 0) :=
    peanutJ_continuous (sightline_moves 0 0 1 0) one_pos (by norm_num : (0 : ℝ) < 1 / 2) le_rfl two_pos two_pos _ _ _
  have c2 : Continuous (ray (LFun.peanut.coded p) 0 0 1 0) :=
    peanutJ_continuous (sightline_moves 0 0 1 0) one_pos (by norm_num : (0 : ℝ) < 1 / 2) le_rfl two_pos two_pos _ _ _
  -- the density with a major axis at the angle `φ`, along the line of sight
  have hval : ∀ φ s, peanutJ φ 1 1 (1 / 2) (1 / 2) 0 0 1 2 2 (sightline 0 0 1 0 s) =
      Real.cosh (Real.sqrt (Real.cos φ ^ 2 + (2 * Real.sin φ) ^ 2 + (2 * s) ^ 2)) ^ (-2 : ℝ) := by
    intro φ s
    unfold peanutJ sightline along across
    simp only [Real.cos_zero, Real.sin_zero, mul_one, mul_zero, zero_mul, add_zero, zero_add, sub_zero, zero_sub, one_mul, div_one, abs_neg]
    rw [div_self (two_ne_zero), Real.rpow_one, Real.sqrt_eq_rpow]
    simp only [Real.rpow_two, div_pow, sq_abs]
    congr 4 <;> ring
  have hlt : ∀ s, ray (LFun.peanut.coded p) 0 0 1 0 s < ray (LFun.peanut.documented (LFun.peanut.named p)) 0 0 1 0 s := by
    intro s
    show peanutJ (-90 * degree) 1 1 (1 / 2) (1 / 2) 0 0 1 2 2 (sightline 0 0 1 0 s) < peanutJ ((-90 + 90) * degree) 1 1 (1 / 2) (1 / 2) 0 0 1 2 2 (sightline 0 0 1 0 s)
    rw [hval, hval, neg_add_cancel, zero_mul, Real.cos_zero, Real.sin_zero, mul_zero, neg_mul, Real.cos_neg, Real.sin_neg]
    have hsin := Real.sin_pos_of_pos_of_lt_pi right_angle.1 right_angle.2
    have e := Real.sin_sq_add_cos_sq (90 * degree)
    refine Real.rpow_lt_rpow_of_neg (Real.cosh_pos _) ?_ (by norm_num)
    rw [Real.cosh_lt_cosh, abs_of_nonneg (Real.sqrt_nonneg _), abs_of_nonneg (Real.sqrt_nonneg _)]
    refine Real.sqrt_lt_sqrt (by positivity) ?_
    nlinarith [mul_pos hsin hsin]
  refine ⟨p, _, _, hp, hv, by rw [hθ, hi, hL]; exact lineIntegral_ray (c1.intervalIntegrable _ _), ?_⟩
  have e1 : nodes p = 0 := hθ
  have e2 : tilt p = 0 := hi
  have e3 : LFun.peanut.range p = 10 := hL
  rw [e1, e2, e3, sub_zero, sub_zero]
  exact intervalIntegral.integral_lt_integral_of_continuousOn_of_le_of_exists_lt (by norm_num) c2.continuousOn c1.continuousOn (fun s _ => (hlt s).le)
    ⟨0, by constructor <;> norm_num, hlt 0⟩

/-- C75 is false of `BPBar3D`: the three values labelled `h_bp`, `r_bp_max`, `z_bp_max` are used as `r_bp_max`, `z_bp_max`, `h_bp`. -/
theorem C75_bpBar_false : ∃ (p : List ℝ) (v w : ℝ), LFun.bpBar.Physical p ∧
    LFun.bpBar.value exactInteg defaultDesc (p.map fin) 0 (fin 0) (fin 0) (fin 0) (fin 0) = .ok (fin v) ∧
    LineIntegral (LFun.bpBar.documented (LFun.bpBar.named p)) ((LFun.bpBar.named p "PA" + 90) * degree) (LFun.bpBar.named p "inclination" * degree)
      (LFun.bpBar.depth (LFun.bpBar.named p)) 0 0 w ∧ w < v := by
  have hp : LFun.bpBar.Physical [-90, 0, -90, 1, 0, 0, 1, 1, 1 / 10, 1, 0, 1, 1, 1, 2, 1] :=
    ⟨one_pos, one_pos, one_pos, one_pos, one_pos, one_pos, one_pos, two_pos, one_pos⟩
  set p : List ℝ := [-90, 0, -90, 1, 0, 0, 1, 1, 1 / 10, 1, 0, 1, 1, 1, 2, 1] with hpd
  have hv := los_value_exact .bpBar p hp ⟨le_rfl, zero_le_one⟩ [] [] 0 0 0 0
  rw [List.nil_append, List.append_nil, List.length_nil, sub_self] at hv
  have hθ : (LFun.bpBar.named p "PA" + 90) * degree = 0 := by
    show ((-90 : ℝ) + 90) * degree = 0
    norm_num
  have hi : LFun.bpBar.named p "inclination" * degree = 0 := zero_mul degree
  have hL : LFun.bpBar.depth (LFun.bpBar.named p) = 1 / 2 := by show (5 : ℝ) * (1 / 10) = 1 / 2; norm_num
  have hm := sightline_moves 0 0 0 0
  have hpt : ∀ s, sightline 0 0 0 0 s = ⟨0, 0, -s⟩ := by
    intro s
    unfold sightline along across
    simp
  -- the two factors of the scale height
  set b := bumps 1 1 0 0 with hb
  have hb1 : 1 ≤ b := by
    rw [hb]
    unfold bumps bell
    have h1 : Real.exp (-(1 / 2)) ≥ 1 / 2 := by have := Real.add_one_le_exp (-(1 / 2 : ℝ)); linarith
    norm_num
    norm_num at h1
    linarith
  have hcode : ∀ s, ray (LFun.bpBar.coded p) 0 0 0 0 s = 1 / b * Real.exp (-(|s| / b)) := by
    intro s
    show LFun.bpBar.coded p (sightline 0 0 0 0 s) = _
    rw [hpt]
    have h0 : brokenCode 0 1 1 (1 / 10) 1 0 = 0 := by unfold brokenCode brokenI; split <;> ring
    simp only [hpd, LFun.coded, along, across, zero_mul, add_zero, sub_self, zero_div, ellDist, ne_eq, OfNat.ofNat_ne_zero, not_false_eq_true, zero_pow, Real.sqrt_zero,
      h0, neg_zero, Real.exp_zero, mul_one, one_mul, zero_add, abs_neg, ← hb]
  have hdoc : ∀ s, ray (LFun.bpBar.documented (LFun.bpBar.named p)) 0 0 0 0 s = 1 / (2 * b) * Real.exp (-(|s| / (2 * b))) := by
    intro s
    show bpBarJ ((-90 + 90) * degree) 1 (1 - 0) 0 1 1 (1 / 10) 1 (1 - 0) 1 1 1 2 1 (sightline 0 0 0 0 s) = _
    rw [hpt]
    have h0 : brokenI 0 1 1 (1 / 10) 1 0 = 0 := by unfold brokenI; ring
    simp only [bpBarJ, along, across, zero_mul, add_zero, sub_self, zero_div, ellDist, ne_eq, OfNat.ofNat_ne_zero, not_false_eq_true, zero_pow, Real.sqrt_zero,
      h0, neg_zero, Real.exp_zero, mul_one, zero_add, abs_neg, ← hb]
  have c1 : Continuous (ray (LFun.bpBar.coded p) 0 0 0 0) := by
    rw [show ray (LFun.bpBar.coded p) 0 0 0 0 = fun s => 1 / b * Real.exp (-(|s| / b)) from funext hcode]
    fun_prop
  have c2 : Continuous (ray (LFun.bpBar.documented (LFun.bpBar.named p)) 0 0 0 0) := by
    rw [show ray (LFun.bpBar.documented (LFun.bpBar.named p)) 0 0 0 0 = fun s => 1 / (2 * b) * Real.exp (-(|s| / (2 * b))) from funext hdoc]
    fun_prop
  have hlt : ∀ s, |s| ≤ 1 / 2 → ray (LFun.bpBar.documented (LFun.bpBar.named p)) 0 0 0 0 s < ray (LFun.bpBar.coded p) 0 0 0 0 s := by
    intro s hs
    rw [hcode, hdoc]
    have hb0 : 0 < b := by linarith
    have h1 : Real.exp (-(|s| / (2 * b))) ≤ 1 := Real.exp_le_one_iff.2 (neg_nonpos.2 (by positivity))
    have h2 : 1 / 2 < Real.exp (-(|s| / b)) := by
      have h3 : |s| / b ≤ 1 / 2 := by rw [div_le_iff₀ hb0]; nlinarith
      have h4 := Real.add_one_lt_exp (x := -(1 / 2 : ℝ)) (by norm_num)
      have h5 : Real.exp (-(1 / 2)) ≤ Real.exp (-(|s| / b)) := Real.exp_le_exp.2 (by linarith)
      linarith
    calc 1 / (2 * b) * Real.exp (-(|s| / (2 * b))) ≤ 1 / (2 * b) * 1 := mul_le_mul_of_nonneg_left h1 (by positivity)
      _ = 1 / b * (1 / 2) := by field_simp
      _ < _ := mul_lt_mul_of_pos_left h2 (by positivity)
  refine ⟨p, _, _, hp, hv, by rw [hθ, hi, hL]; exact lineIntegral_ray (c2.intervalIntegrable _ _), ?_⟩
  have e1 : nodes p = 0 := hθ
  have e2 : tilt p = 0 := hi
  have e3 : LFun.bpBar.range p = 1 / 2 := hL
  rw [e1, e2, e3]
  exact intervalIntegral.integral_lt_integral_of_continuousOn_of_le_of_exists_lt (by norm_num) c2.continuousOn c1.continuousOn
    (fun s hs => (hlt s (abs_le.2 ⟨hs.1.le, hs.2⟩)).le) ⟨0, by constructor <;> norm_num, hlt 0 (by norm_num)⟩

end Imfit
