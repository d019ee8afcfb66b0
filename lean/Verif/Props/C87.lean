import Verif.Model.Rings
import Verif.Lemmas.Spiral
import Verif.Props.C56
import Mathlib.Analysis.MeanInequalitiesPow

/-!
# C87: an exponential whose isophotes change shape with the radius

`GenExponential2`: the shape parameter `c0` goes linearly from `c0_1` at the radius `r1` to `c0_2` at `r2`.
-/

namespace Imfit

open Spec XR

/-- The parameters of `GenExponential2` in the order of their labels. -/
structure Spec.ShapeExp where
  pa : ℝ
  ell : ℝ
  c1 : ℝ
  c2 : ℝ
  r1 : ℝ
  r2 : ℝ
  i0 : ℝ
  h : ℝ

def Spec.ShapeExp.params (A : ShapeExp) : List ℝ := [A.pa, A.ell, A.c1, A.c2, A.r1, A.r2, A.i0, A.h]

/-- The shape on the ellipse of radius `r`. -/
noncomputable def Spec.ShapeExp.shape (A : ShapeExp) (r : ℝ) : ℝ :=
  A.c1 + (A.c2 - A.c1) * min 1 (max 0 ((r - A.r1) / (A.r2 - A.r1)))

/-- Intensity at the coordinates `u` along and `v` across the major axis. -/
noncomputable def Spec.ShapeExp.at (A : ShapeExp) (u v : ℝ) : ℝ :=
  A.i0 * Real.exp (-(genDist (1 - A.ell) (A.shape (ellDist (1 - A.ell) u v)) u v / A.h))

structure Spec.ShapeExp.Ok (A : ShapeExp) : Prop where
  ell_lt : A.ell < 1
  c1_gt : -2 < A.c1
  c2_gt : -2 < A.c2
  r_lt : A.r1 < A.r2

/-- The shape is a convex combination of the two given ones. -/
theorem shape_between (A : ShapeExp) (r : ℝ) : ∃ t, 0 ≤ t ∧ t ≤ 1 ∧ A.shape r = (1 - t) * A.c1 + t * A.c2 :=
  ⟨min 1 (max 0 ((r - A.r1) / (A.r2 - A.r1))), le_min zero_le_one (le_max_left _ _), min_le_left _ _, by unfold ShapeExp.shape; ring⟩

theorem shape_gt (A : ShapeExp) (hA : A.Ok) (r : ℝ) : -2 < A.shape r := by
  obtain ⟨t, h0, h1, e⟩ := shape_between A r
  rw [e]
  have g1 := hA.c1_gt
  have g2 := hA.c2_gt
  have k1 : 0 ≤ (1 - t) * (A.c1 + 2) := mul_nonneg (by linarith) (by linarith)
  have k2 : 0 ≤ t * (A.c2 + 2) := mul_nonneg h0 (by linarith)
  rcases h0.lt_or_eq with h | h
  · have : 0 < t * (A.c2 + 2) := mul_pos h (by linarith)
    linarith
  · rw [← h]; linarith

theorem linearInterp_fin (A : ShapeExp) (hA : A.Ok) (r : ℝ) : linearInterp (fin r) (fin A.r1) (fin A.r2) (fin A.c1) (fin A.c2) = fin (A.shape r) := by
  have hr := hA.r_lt
  have hd : 0 < A.r2 - A.r1 := sub_pos.2 hr
  unfold linearInterp ShapeExp.shape
  simp only [flt_fin, fin_sub, fin_div_of_ne hd.ne', fin_mul, fin_add]
  by_cases h1 : r < A.r1
  · have : (r - A.r1) / (A.r2 - A.r1) ≤ 0 := div_nonpos_of_nonpos_of_nonneg (by linarith) hd.le
    simp [h1, max_eq_left this]
  · by_cases h2 : A.r2 < r
    · have : 1 ≤ (r - A.r1) / (A.r2 - A.r1) := (one_le_div hd).2 (by linarith)
      simp only [h1, h2, decide_true, decide_false, if_true, Bool.false_eq_true, if_false]
      rw [max_eq_right (zero_le_one.trans this), min_eq_left this]
      congr 1; ring
    · have h3 : 0 ≤ (r - A.r1) / (A.r2 - A.r1) := div_nonneg (by linarith) hd.le
      have h4 : (r - A.r1) / (A.r2 - A.r1) ≤ 1 := (div_le_one hd).2 (by linarith)
      simp only [h1, h2, decide_false, Bool.false_eq_true, if_false]
      rw [max_eq_right h3, min_eq_right h4]
      congr 1; ring

/-- The radius with the shape found at the elliptical radius. -/
theorem genR2_of {q c r1 r2 c1 c2 : ℝ} (hq : 0 < q) (hc : -2 < c) (u v : ℝ)
    (h : linearInterp (fin (ellDist q u v)) (fin r1) (fin r2) (fin c1) (fin c2) = fin c) :
    genR2 (fin q) (fin c1) (fin c2) (fin r1) (fin r2) (fin u) (fin v) = fin (genDist q c u v) := by
  have he : 0 < c + 2 := by linarith
  have hs : fsqrt (fin (|u| * |u| + |v / q| * |v / q|)) = (fin (ellDist q u v) : XR) := by
    rw [fsqrt_fin_of_nonneg (add_nonneg (mul_self_nonneg _) (mul_self_nonneg _)), abs_mul_abs_self, abs_mul_abs_self]
    unfold ellDist
    congr 2; ring
  unfold genR2
  simp only [fin_div_of_ne hq.ne', fabs_fin, fin_mul, fin_add, hs, h, lit2, one_def]
  rw [fin_div_of_ne he.ne', fpow_nonneg (abs_nonneg _) he, fpow_nonneg (abs_nonneg _) he, fin_add,
    fpow_nonneg (add_nonneg (Real.rpow_nonneg (abs_nonneg _) _) (Real.rpow_nonneg (abs_nonneg _) _)) (by positivity)]
  rfl

theorem genExp2_reads (A : ShapeExp) (doSub : Bool) (pre post : List XR) (x0 y0 x y : XR) :
    genExp2Value doSub (pre ++ A.params.map fin ++ post) pre.length x0 y0 x y =
      planeValue (genExp2Build doSub x0 y0 (fin A.pa) (fin A.ell) (fin A.c1) (fin A.c2) (fin A.r1) (fin A.r2) (fin A.i0) (fin A.h)) x y := by
  have h : ∀ (i : ℕ) (v : XR), (A.params.map fin)[i]? = some v → rd (pre ++ A.params.map fin ++ post) (i + pre.length) = .ok v := by
    intro i v hv
    rw [Nat.add_comm]
    exact rd_mid pre _ post i v hv
  unfold genExp2Value
  rw [h 0 _ rfl, h 1 _ rfl, h 2 _ rfl, h 3 _ rfl, h 4 _ rfl, h 5 _ rfl, h 6 _ rfl, h 7 _ rfl]
  rfl

theorem genExp2_isPlane (A : ShapeExp) (hA : A.Ok) (hh : A.h ≠ 0) (doSub : Bool) (x0 y0 : ℝ) :
    IsPlane (genExp2Build doSub (fin x0) (fin y0) (fin A.pa) (fin A.ell) (fin A.c1) (fin A.c2) (fin A.r1) (fin A.r2) (fin A.i0) (fin A.h)) x0 y0 ((A.pa + 90) * degree)
      A.at := by
  have hq : 0 < 1 - A.ell := by have := hA.ell_lt; linarith
  refine planeFn_isPlane _ _ _ _ _ _ fun u v => ?_
  beta_reduce
  rw [one_def, fin_sub, genR2_of hq (shape_gt A hA _) u v (linearInterp_fin A hA _), fin_neg, fin_div_of_ne hh, fexp_fin, fin_mul, neg_div]
  rfl

/-- The value of a pixel: the documented intensity at its centre, or its mean over the sub-pixels (at most 100 × 100 of them), for `r1 < r2`. Missing: `r1 = r2`
(`C87_equal_false`), `r1 > r2` (`C87_reversed_false`). -/
theorem C87_partial (A : ShapeExp) (hA : A.Ok) (hh : 1 / 10 ^ 7 ≤ A.h) (doSub : Bool) (pre post : List XR) (x0 y0 x y : ℝ) :
    ∃ n : ℕ, 1 ≤ n ∧ n ≤ 100 ∧ (doSub = false → n = 1) ∧
      genExp2Value doSub (pre ++ A.params.map fin ++ post) pre.length (fin x0) (fin y0) (fin x) (fin y) =
        .ok (fin (if 1 < n then pixelMean n (fun a b => A.at (along ((A.pa + 90) * degree) (a - x0) (b - y0)) (across ((A.pa + 90) * degree) (a - x0) (b - y0))) x y
          else A.at (along ((A.pa + 90) * degree) (x - x0) (y - y0)) (across ((A.pa + 90) * degree) (x - x0) (y - y0)))) := by
  have hh0 : A.h ≠ 0 := (lt_of_lt_of_le (by norm_num) hh).ne'
  have hq : 0 < 1 - A.ell := by have := hA.ell_lt; linarith
  set u := along ((A.pa + 90) * degree) (x - x0) (y - y0)
  set v := across ((A.pa + 90) * degree) (x - x0) (y - y0)
  have hr := genR2_of hq (shape_gt A hA _) u v (linearInterp_fin A hA (ellDist (1 - A.ell) u v))
  have hval : ∀ n : ℕ, galfitSub doSub 20 3 (fin A.h) (fin (genDist (1 - A.ell) (A.shape (ellDist (1 - A.ell) u v)) u v)) = .ok (n : Int) →
      genExp2Value doSub (pre ++ A.params.map fin ++ post) pre.length (fin x0) (fin y0) (fin x) (fin y) =
        .ok (fin (if 1 < n then pixelMean n (fun a b => A.at (along ((A.pa + 90) * degree) (a - x0) (b - y0)) (across ((A.pa + 90) * degree) (a - x0) (b - y0))) x y
          else A.at u v)) := by
    intro n hn
    have hs : (genExp2Build doSub (fin x0) (fin y0) (fin A.pa) (fin A.ell) (fin A.c1) (fin A.c2) (fin A.r1) (fin A.r2) (fin A.i0) (fin A.h)).nsub (fin u) (fin v) = .ok (n : Int) := by
      show galfitSub doSub 20 3 (fin A.h) (genR2 (1 - fin A.ell) _ _ _ _ _ _) = _
      rw [one_def, fin_sub, hr, hn]
    rw [genExp2_reads, planeValue_fin (genExp2_isPlane A hA hh0 doSub x0 y0) x y n hs]
    simp only [Nat.one_lt_cast, Int.toNat_natCast]
    rfl
  cases doSub with
  | false => exact ⟨1, le_rfl, by norm_num, fun _ => rfl, hval 1 rfl⟩
  | true =>
    obtain ⟨n, hn, h1, h2⟩ := galfit_ok true 20 3 (by norm_num) (by norm_num) (by norm_num) hh (genDist (1 - A.ell) (A.shape (ellDist (1 - A.ell) u v)) u v)
    exact ⟨n, h1, h2, fun h => absurd h (by decide), hval n hn⟩

/-- The shape: `c0_1` inside `r1`, `c0_2` outside `r2`, half-way between them in the middle, and continuous. -/
theorem C87_shape (A : ShapeExp) (hA : A.Ok) :
    (∀ r ≤ A.r1, A.shape r = A.c1) ∧ (∀ r, A.r2 ≤ r → A.shape r = A.c2) ∧ A.shape ((A.r1 + A.r2) / 2) = (A.c1 + A.c2) / 2 ∧ Continuous A.shape := by
  have hd : 0 < A.r2 - A.r1 := sub_pos.2 hA.r_lt
  refine ⟨fun r hr => ?_, fun r hr => ?_, ?_, ?_⟩
  · have : (r - A.r1) / (A.r2 - A.r1) ≤ 0 := div_nonpos_of_nonpos_of_nonneg (by linarith) hd.le
    unfold ShapeExp.shape
    rw [max_eq_left this]
    simp
  · have : 1 ≤ (r - A.r1) / (A.r2 - A.r1) := (one_le_div hd).2 (by linarith)
    unfold ShapeExp.shape
    rw [max_eq_right (zero_le_one.trans this), min_eq_left this]
    ring
  · have : ((A.r1 + A.r2) / 2 - A.r1) / (A.r2 - A.r1) = 1 / 2 := by field_simp; ring
    unfold ShapeExp.shape
    rw [this]
    norm_num
    ring
  · unfold ShapeExp.shape
    fun_prop

/-- With equal shapes the value of every pixel is that of `GenExponential`. -/
theorem C87_same (A : ShapeExp) (hA : A.Ok) (hc : A.c1 = A.c2) (hh : A.h ≠ 0) (doSub : Bool) (pre post pre' post' : List XR) (x0 y0 x y : ℝ) :
    genExp2Value doSub (pre ++ A.params.map fin ++ post) pre.length (fin x0) (fin y0) (fin x) (fin y) =
      (PFun.genExp : PFun XR).value doSub defaultDesc (pre' ++ ([A.pa, A.ell, A.c1, A.i0, A.h] : List ℝ).map fin ++ post') pre'.length (fin x0) (fin y0) (fin x) (fin y) := by
  have hq : 0 < 1 - A.ell := by have := hA.ell_lt; linarith
  have hsh : ∀ r, A.shape r = A.c1 := fun r => by unfold ShapeExp.shape; rw [← hc]; ring
  have hat : ∀ u v, A.at u v = A.i0 * Real.exp (-(genDist (1 - A.ell) A.c1 u v / A.h)) := fun u v => by unfold ShapeExp.at; rw [hsh]
  set f2 : PlaneFn XR := planeFn (fin (A.pa - 0)) (fin x0) (fin y0) (fun u v => galfitSub doSub 20 3 (fin A.h * fin 1) (genR (1 - fin A.ell) (fin A.c1) u v))
    (fun u v => (fin A.i0 * fin 1) * fexp (-genR (1 - fin A.ell) (fin A.c1) u v / (fin A.h * fin 1))) with hf2
  have p2 : IsPlane f2 x0 y0 ((A.pa + 90) * degree) A.at := by
    have e0 : (A.pa + 90) * degree = (A.pa - 0 + 90) * degree := by rw [sub_zero]
    rw [hf2, e0]
    refine planeFn_isPlane _ _ _ _ _ _ fun u v => ?_
    beta_reduce
    rw [one_def, fin_sub, genR_fin hq hA.c1_gt, fin_neg, fin_mul, fin_mul, mul_one, mul_one, fin_div_of_ne hh, fexp_fin, fin_mul, neg_div, hat]
  have p1 := genExp2_isPlane A hA hh doSub x0 y0
  set f1 := genExp2Build doSub (fin x0) (fin y0) (fin A.pa) (fin A.ell) (fin A.c1) (fin A.c2) (fin A.r1) (fin A.r2) (fin A.i0) (fin A.h) with hf1
  have hn : ∀ u v : ℝ, f1.nsub (fin u) (fin v) = f2.nsub (fin u) (fin v) := by
    intro u v
    show galfitSub _ _ _ _ (genR2 (1 - fin A.ell) _ _ _ _ _ _) = galfitSub _ _ _ _ (genR (1 - fin A.ell) _ _ _)
    rw [one_def, fin_sub, genR2_of hq (shape_gt A hA _) u v (linearInterp_fin A hA _), hsh, genR_fin hq hA.c1_gt, fin_mul, mul_one]
  rw [genExp2_reads]
  unfold PFun.value
  rw [setup_reads _ _ _ pre' _ post' rfl]
  show planeValue f1 (fin x) (fin y) = planeValue f2 (fin x) (fin y)
  cases hr : f2.nsub (fin (along ((A.pa + 90) * degree) (x - x0) (y - y0))) (fin (across ((A.pa + 90) * degree) (x - x0) (y - y0))) with
  | error e => rw [planeValue_error p1 x y e ((hn _ _).trans hr), planeValue_error p2 x y e hr]
  | ok n => rw [planeValue_fin p1 x y n ((hn _ _).trans hr), planeValue_fin p2 x y n hr]

/-- On both axes the shape has no influence: the radius is the elliptical one. -/
theorem C87_axes (A : ShapeExp) (hA : A.Ok) (u v : ℝ) :
    A.at u 0 = A.i0 * Real.exp (-(|u| / A.h)) ∧ A.at 0 v = A.i0 * Real.exp (-(|v| / (1 - A.ell) / A.h)) := by
  have hq : 0 < 1 - A.ell := by have := hA.ell_lt; linarith
  have key : ∀ (c t : ℝ), -2 < c → 0 ≤ t → (t ^ (c + 2)) ^ (1 / (c + 2)) = t := by
    intro c t hc ht
    rw [← Real.rpow_mul ht, mul_one_div_cancel (by linarith), Real.rpow_one]
  constructor
  · unfold ShapeExp.at genDist
    have hc := shape_gt A hA (ellDist (1 - A.ell) u 0)
    rw [zero_div, abs_zero, Real.zero_rpow (by linarith : A.shape (ellDist (1 - A.ell) u 0) + 2 ≠ 0), add_zero, key _ _ hc (abs_nonneg _)]
  · unfold ShapeExp.at genDist
    have hc := shape_gt A hA (ellDist (1 - A.ell) 0 v)
    rw [abs_zero, Real.zero_rpow (by linarith : A.shape (ellDist (1 - A.ell) 0 v) + 2 ≠ 0), zero_add, key _ _ hc (abs_nonneg _), abs_div, abs_of_pos hq]

theorem genDist_antitone {q c d : ℝ} (hc : -2 < c) (hcd : c ≤ d) (u v : ℝ) : genDist q d u v ≤ genDist q c u v := by
  unfold genDist
  exact Real.rpow_add_rpow_le (abs_nonneg _) (abs_nonneg _) (by linarith) (by linarith)

theorem shape_antitone (A : ShapeExp) (hA : A.Ok) (hc : A.c2 ≤ A.c1) {r s : ℝ} (h : r ≤ s) : A.shape s ≤ A.shape r := by
  have hd : 0 < A.r2 - A.r1 := sub_pos.2 hA.r_lt
  have : min 1 (max 0 ((r - A.r1) / (A.r2 - A.r1))) ≤ min 1 (max 0 ((s - A.r1) / (A.r2 - A.r1))) :=
    min_le_min le_rfl (max_le_max le_rfl (div_le_div_of_nonneg_right (by linarith) hd.le))
  unfold ShapeExp.shape
  nlinarith

/-- If the isophotes become less boxy outwards (`c0_2 ≤ c0_1`), the intensity decreases along every ray from the centre. Missing: isophotes that become boxier
outwards, see `C87_rise_false`. -/
theorem C87_decreasing_partial (A : ShapeExp) (hA : A.Ok) (hc : A.c2 ≤ A.c1) (hi : 0 ≤ A.i0) (hh : 0 < A.h) (u v : ℝ) {s t : ℝ} (hs : 0 < s) (hst : s ≤ t) :
    A.at (t * u) (t * v) ≤ A.at (s * u) (s * v) := by
  have ht : 0 < t := hs.trans_le hst
  unfold ShapeExp.at
  refine mul_le_mul_of_nonneg_left (Real.exp_le_exp.2 (neg_le_neg (div_le_div_of_nonneg_right ?_ hh.le))) hi
  rw [ellDist_smul _ _ _ _ hs.le, ellDist_smul _ _ _ _ ht.le, genDist_smul _ _ _ _ _ (shape_gt A hA _) hs, genDist_smul _ _ _ _ _ (shape_gt A hA _) ht]
  refine mul_le_mul hst (genDist_antitone (shape_gt A hA _) (shape_antitone A hA hc ?_) u v) (genDist_nonneg _ _ _ _) ht.le
  exact mul_le_mul_of_nonneg_right hst (ellDist_nonneg _ _ _)

/-- If the shape changes from `c0_1 = -1` to `c0_2 = 0` between `r1` and `r2 < √2 r1`, the intensity rises outwards along the diagonals of the ellipses: the
component is brighter at `r2` than at `r1`. -/
theorem C87_rise_false (A : ShapeExp) (hA : A.Ok) (h1 : A.c1 = -1) (h2 : A.c2 = 0) (hr1 : 0 < A.r1) (hr2 : A.r2 ^ 2 < 2 * A.r1 ^ 2) (hi : 0 < A.i0) (hh : 0 < A.h) :
    ellDist (1 - A.ell) (A.r1 / Real.sqrt 2) ((1 - A.ell) * (A.r1 / Real.sqrt 2)) = A.r1 ∧
      ellDist (1 - A.ell) (A.r2 / Real.sqrt 2) ((1 - A.ell) * (A.r2 / Real.sqrt 2)) = A.r2 ∧
      A.at (A.r1 / Real.sqrt 2) ((1 - A.ell) * (A.r1 / Real.sqrt 2)) < A.at (A.r2 / Real.sqrt 2) ((1 - A.ell) * (A.r2 / Real.sqrt 2)) := by
  have hq : 0 < 1 - A.ell := by have := hA.ell_lt; linarith
  have hr : 0 < A.r2 := hr1.trans hA.r_lt
  have hs2 : 0 < Real.sqrt 2 := by positivity
  have hsq : Real.sqrt 2 ^ 2 = 2 := Real.sq_sqrt (by norm_num)
  have hE : ∀ t : ℝ, 0 < t → ellDist (1 - A.ell) (t / Real.sqrt 2) ((1 - A.ell) * (t / Real.sqrt 2)) = t := by
    intro t ht
    unfold ellDist
    rw [mul_div_cancel_left₀ _ hq.ne', div_pow, hsq, show t ^ 2 / 2 + t ^ 2 / 2 = t ^ 2 by ring, Real.sqrt_sq ht.le]
  refine ⟨hE _ hr1, hE _ hr, ?_⟩
  obtain ⟨hin, hout, -, -⟩ := C87_shape A hA
  have hD : ∀ t : ℝ, 0 < t → genDist (1 - A.ell) (-1) (t / Real.sqrt 2) ((1 - A.ell) * (t / Real.sqrt 2)) = 2 * (t / Real.sqrt 2) := by
    intro t ht
    unfold genDist
    rw [mul_div_cancel_left₀ _ hq.ne', abs_of_pos (by positivity : 0 < t / Real.sqrt 2)]
    norm_num
    ring
  have hD2 : ∀ t : ℝ, 0 < t → genDist (1 - A.ell) 0 (t / Real.sqrt 2) ((1 - A.ell) * (t / Real.sqrt 2)) = t := by
    intro t ht
    unfold genDist
    rw [mul_div_cancel_left₀ _ hq.ne', abs_of_pos (by positivity : 0 < t / Real.sqrt 2), zero_add, ← Real.sqrt_eq_rpow, Real.rpow_two, div_pow, hsq,
      show t ^ 2 / 2 + t ^ 2 / 2 = t ^ 2 by ring, Real.sqrt_sq ht.le]
  unfold ShapeExp.at
  rw [hE _ hr1, hE _ hr, hin _ le_rfl, hout _ le_rfl, h1, h2, hD _ hr1, hD2 _ hr]
  refine mul_lt_mul_of_pos_left (Real.exp_lt_exp.2 (neg_lt_neg (div_lt_div_of_pos_right ?_ hh))) hi
  have h3 : 2 * (A.r1 / Real.sqrt 2) = Real.sqrt 2 * A.r1 := by
    field_simp
    linarith
  rw [h3]
  refine lt_of_pow_lt_pow_left₀ 2 (by positivity) ?_
  rw [mul_pow, hsq]
  exact hr2

theorem galfitSub_nan (doSub : Bool) (num thresh : ℚ) (s : XR) : galfitSub doSub num thresh s nan = .ok 1 := by
  cases doSub <;> rfl

theorem fpow_nan_sum {a b : ℝ} (ha : 0 ≤ a) (hb : 0 ≤ b) : fpow (fpow (fin a) nan + fpow (fin b) nan) nan = (nan : XR) := by
  have h : ∀ c : ℝ, 0 ≤ c → fpow (fin c) (nan : XR) = if c = 1 then fin 1 else nan := by
    intro c hc
    rcases hc.lt_or_eq with h | h
    · show (if 0 < c then powPos c nan else _) = _
      rw [if_pos h]; rfl
    · rw [← h, if_neg (by norm_num)]
      show (if (0 : ℝ) < 0 then _ else if (0 : ℝ) = 0 then powZero nan else _) = _
      rw [if_neg (lt_irrefl _), if_pos rfl]; rfl
  rw [h a ha, h b hb]
  by_cases h1 : a = 1 <;> by_cases h2 : b = 1
  · rw [if_pos h1, if_pos h2, fin_add, h _ (by norm_num), if_neg (by norm_num)]
  · rw [if_neg h2, add_nan]; rfl
  · rw [if_neg h1, nan_add]; rfl
  · rw [if_neg h1, nan_add]; rfl

/-- With `r1 = r2` (a sudden change, or both zero) the value on the ellipse of that radius is not a number. -/
theorem C87_equal_false (A : ShapeExp) (he : A.ell < 1) (hr : A.r1 = A.r2) (doSub : Bool) (pre post : List XR) (x0 y0 x y : ℝ)
    (hxy : ellDist (1 - A.ell) (along ((A.pa + 90) * degree) (x - x0) (y - y0)) (across ((A.pa + 90) * degree) (x - x0) (y - y0)) = A.r1) :
    genExp2Value doSub (pre ++ A.params.map fin ++ post) pre.length (fin x0) (fin y0) (fin x) (fin y) = .ok nan := by
  have hq : 0 < 1 - A.ell := by linarith
  have eθ : ((A.pa + ((90 : ℚ) : ℝ)) * ((DEG2RAD : ℚ) : ℝ)) = (A.pa + 90) * degree := by
    unfold degree DEG2RAD
    push_cast
    rfl
  set u := along ((A.pa + 90) * degree) (x - x0) (y - y0) with hu
  set v := across ((A.pa + 90) * degree) (x - x0) (y - y0) with hv
  have hli : linearInterp (fin A.r1) (fin A.r1) (fin A.r2) (fin A.c1) (fin A.c2) = nan := by
    unfold linearInterp
    simp only [flt_fin, ← hr, lt_irrefl, decide_false, Bool.false_eq_true, if_false, fin_sub, sub_self, fin_div_zero]
    have : (infSign (A.c2 - A.c1) * fin 0 : XR) = nan := by
      unfold infSign
      split_ifs
      · show infSign 0 = nan
        exact infSign_zero
      · show infSign (-0) = nan
        rw [neg_zero]; exact infSign_zero
      · rfl
    rw [this, add_nan]
  have hg : genR2 (fin (1 - A.ell)) (fin A.c1) (fin A.c2) (fin A.r1) (fin A.r2) (fin u) (fin v) = nan := by
    have hs : fsqrt (fin (|u| * |u| + |v / (1 - A.ell)| * |v / (1 - A.ell)|)) = (fin A.r1 : XR) := by
      rw [fsqrt_fin_of_nonneg (add_nonneg (mul_self_nonneg _) (mul_self_nonneg _)), abs_mul_abs_self, abs_mul_abs_self, ← hxy]
      unfold ellDist
      congr 2; ring
    unfold genR2
    simp only [fin_div_of_ne hq.ne', fabs_fin, fin_mul, fin_add, hs, hli, nan_add]
    exact fpow_nan_sum (abs_nonneg _) (abs_nonneg _)
  rw [genExp2_reads]
  unfold planeValue genExp2Build planeFn PlaneFn.at' PlaneFn.along PlaneFn.across
  simp only [lit_def, fin_add, fin_sub, fin_mul, fin_neg, fcos_fin, fsin_fin, eθ, one_def]
  have e1 : (x - x0) * Real.cos ((A.pa + 90) * degree) + (y - y0) * Real.sin ((A.pa + 90) * degree) = u := rfl
  have e2 : -(x - x0) * Real.sin ((A.pa + 90) * degree) + (y - y0) * Real.cos ((A.pa + 90) * degree) = v := by rw [hv]; unfold across; ring
  rw [e1, e2, hg, galfitSub_nan, ok_bind, if_neg (by norm_num)]
  show Except.ok (fin A.i0 * fexp (nan / fin A.h)) = _
  have : (nan / fin A.h : XR) = nan := rfl
  rw [this]
  show Except.ok (fin A.i0 * nan) = _
  rw [mul_nan]

/-- The default-like values `r1 = r2 = 0`: the central pixel is not a number. -/
example (doSub : Bool) : genExp2Value doSub (([0, 1 / 2, 0, 1, 0, 0, 100, 10] : List ℝ).map fin) 0 (fin 5) (fin 5) (fin 5) (fin 5) = .ok nan := by
  have h := C87_equal_false ⟨0, 1 / 2, 0, 1, 0, 0, 100, 10⟩ (by norm_num) rfl doSub [] [] 5 5 5 5 (by simp [along, across, ellDist])
  simpa [ShapeExp.params] using h

/-- With `r1 > r2` nothing is interpolated: the shape is `c0_1` inside `r1` and `c0_2` from there on, so it jumps. -/
theorem C87_reversed_false (A : ShapeExp) (he : A.ell < 1) (h1 : -2 < A.c1) (h2 : -2 < A.c2) (hr : A.r2 < A.r1) (hh : A.h ≠ 0) (pre post : List XR) (x0 y0 x y : ℝ) :
    genExp2Value false (pre ++ A.params.map fin ++ post) pre.length (fin x0) (fin y0) (fin x) (fin y) =
      .ok (fin (A.i0 * Real.exp (-(genDist (1 - A.ell)
        (if ellDist (1 - A.ell) (along ((A.pa + 90) * degree) (x - x0) (y - y0)) (across ((A.pa + 90) * degree) (x - x0) (y - y0)) < A.r1 then A.c1 else A.c2)
        (along ((A.pa + 90) * degree) (x - x0) (y - y0)) (across ((A.pa + 90) * degree) (x - x0) (y - y0)) / A.h)))) := by
  have hq : 0 < 1 - A.ell := by linarith
  have hli : ∀ r : ℝ, linearInterp (fin r) (fin A.r1) (fin A.r2) (fin A.c1) (fin A.c2) = fin (if r < A.r1 then A.c1 else A.c2) := by
    intro r
    unfold linearInterp
    simp only [flt_fin]
    by_cases h : r < A.r1
    · simp [h]
    · have h' : A.r2 < r := by linarith
      simp [h, h']
  have hc : ∀ r : ℝ, -2 < (if r < A.r1 then A.c1 else A.c2) := fun r => by split_ifs <;> assumption
  have hp := planeFn_isPlane A.pa x0 y0 (fun u v => galfitSub false 20 3 (fin A.h) (genR2 (1 - fin A.ell) (fin A.c1) (fin A.c2) (fin A.r1) (fin A.r2) u v))
    (fun u v => fin A.i0 * fexp (-genR2 (1 - fin A.ell) (fin A.c1) (fin A.c2) (fin A.r1) (fin A.r2) u v / fin A.h))
    (fun u v => A.i0 * Real.exp (-(genDist (1 - A.ell) (if ellDist (1 - A.ell) u v < A.r1 then A.c1 else A.c2) u v / A.h))) ?_
  · have := planeValue_fin hp x y 1 rfl
    rw [if_neg (by norm_num)] at this
    rw [genExp2_reads, ← this]
    rfl
  · intro u v
    beta_reduce
    rw [one_def, fin_sub, genR2_of hq (hc _) u v (hli _), fin_neg, fin_div_of_ne hh, fexp_fin, fin_mul, neg_div]

/-- Shape from -1 to 0 between 10 and 12 pixels, round: the value at the centre of a pixel 12 pixels away along the diagonal is above that 10 pixels away. -/
example : Spec.ShapeExp.at ⟨0, 0, -1, 0, 10, 12, 1, 5⟩ (10 / Real.sqrt 2) ((1 - 0) * (10 / Real.sqrt 2)) <
    Spec.ShapeExp.at ⟨0, 0, -1, 0, 10, 12, 1, 5⟩ (12 / Real.sqrt 2) ((1 - 0) * (12 / Real.sqrt 2)) :=
  (C87_rise_false ⟨0, 0, -1, 0, 10, 12, 1, 5⟩ ⟨by norm_num, by norm_num, by norm_num, by norm_num⟩ rfl rfl (by norm_num) (by norm_num) (by norm_num) (by norm_num)).2.2

end Imfit
