import Verif.Model.Funcs1d
import Verif.Lemmas.PlaneSetup
import Verif.Lemmas.FuncSetup
import Verif.Spec.Profile

/-!
# Exact values of the one-dimensional functions
-/

namespace Imfit

open Spec XR

theorem magFlux_fin (zp mu : ℝ) : magFlux (fin zp) (fin mu) = fin (flux zp mu) := by
  unfold magFlux flux
  simp only [lit_def, fin_sub, fin_mul]
  rw [fpow_pos (by norm_num)]
  congr 1
  push_cast
  congr 1
  ring

theorem flux_pos (zp mu : ℝ) : 0 < flux zp mu := Real.rpow_pos_of_pos (by norm_num) _

theorem bn1d_fin {n : ℝ} (hn : 0 < n) : bn1d (fin n) = fin (bnCB n) := by
  unfold bn1d bnCB
  simp only [lit_def, fin_mul]
  rw [fin_div_of_ne hn.ne', fin_div_of_ne (by positivity), fin_div_of_ne (by positivity), fin_div_of_ne (by positivity)]
  simp only [fin_add, fin_sub]
  congr 1
  push_cast
  ring

theorem bnCB_eq {n : ℝ} (hn : 0.36 < n) : bnCB n = bn n := by
  unfold bnCB bn
  rw [if_pos hn]

theorem exp1d_fin {h : ℝ} (hh : 0 < h) (i0 r : ℝ) : exp1d (fin i0) (fin h) (fin r) = fin (i0 * Real.exp (-(r / h))) := by
  simp only [exp1d, fin_neg, fin_div_of_ne hh.ne', fexp_fin, fin_mul]
  rw [neg_div]

theorem sersic1d_fin {n re : ℝ} (hn : 0 < n) (hre : 0 < re) (ie : ℝ) {r : ℝ} (hr : 0 ≤ r) :
    sersic1d (fin n) (fin ie) (fin re) (fin r) = fin (sersicWith (bnCB n) n ie re r) := by
  simp only [sersic1d, bn1d_fin hn, one_def, fin_div_of_ne hn.ne', fin_div_of_ne hre.ne', fin_neg]
  rw [fpow_nonneg (by positivity) (by positivity)]
  simp only [fin_sub, fin_mul, fexp_fin, sersicWith]
  rw [neg_mul]

theorem coreSersic1d_fin {n re rb a : ℝ} (hn : 0 < n) (hre : 0 < re) (hrb : 0 < rb) (ha : 0 < a) (ib g r' : ℝ) :
    coreSersic1d (fin n) (fin ib) (fin re) (fin rb) (fin a) (fin g) (fin r') = fin (coreSersicWith (bnCB n) n ib re rb a g (max r' (1 / 1000))) := by
  set r := max r' (1 / 1000) with hrdef
  have hr0 : 0 < r := lt_of_lt_of_le (by norm_num) (le_max_right r' (1 / 1000))
  have hp : 0 < rb / r := by positivity
  have h2 : 0 < (2 : ℝ) ^ (1 / a) * rb / re := by positivity
  have h3 : 0 < (r ^ a + rb ^ a) / re ^ a := by positivity
  unfold coreSersic1d coreSersicWith
  simp only [clampR_fin, ← hrdef, bn1d_fin hn, lit2, one_def, fin_neg, fin_div_of_ne ha.ne', fin_div_of_ne hn.ne', fin_div_of_ne hr0.ne',
    fpow_pos (show (0 : ℝ) < 2 by norm_num), fin_mul, fin_div_of_ne hre.ne', fpow_pos h2, fexp_fin, fpow_pos hp, fin_add,
    fpow_pos (show 0 < 1 + (rb / r) ^ a by positivity), fpow_pos hr0, fpow_pos hrb, fpow_pos hre, fin_div_of_ne (Real.rpow_pos_of_pos hre a).ne',
    fpow_pos h3, fin_div_of_ne (show a * n ≠ 0 by positivity)]
  rw [neg_div, neg_mul]

theorem broken1d_fin {h1 h2 a : ℝ} (hh1 : h1 ≠ 0) (hh2 : h2 ≠ 0) (ha : a ≠ 0) (amp rb r : ℝ) :
    broken1d (fin amp) (fin h1) (fin h2) (fin rb) (fin a) (fin r) = fin (brokenCode amp h1 h2 rb a r) := by
  unfold broken1d brokenCode brokenI
  simp only [lit100, one_def, fin_div_of_ne hh1, fin_div_of_ne hh2, fin_div_of_ne ha, fin_sub, fin_mul, fin_neg, fexp_fin, fin_add, flt_fin,
    fpow_pos (one_add_exp_pos _)]
  by_cases h : 100 < a * (r - rb)
  · simp only [h, decide_true, if_true]
    rw [neg_mul]
  · simp only [h, decide_false, Bool.false_eq_true, if_false]
    rw [neg_mul, neg_div]

theorem moffat1d_fin {fw b : ℝ} (hf : 0 < fw) (hb : 0 < b) (i0 r : ℝ) :
    moffat1d (fin i0) (fin fw) (fin b) (fin r) = fin (moffatI i0 fw b r) := by
  have h1 : (1 : ℝ) < 2 ^ (1 / b) := Real.one_lt_rpow (by norm_num) (by positivity)
  have h2 : 0 < Real.sqrt (2 ^ (1 / b) - 1) := Real.sqrt_pos.2 (by linarith)
  have h3 : lit (1 / 2) * (fin fw : XR) / fsqrt (fpow (lit 2) (1 / fin b) - 1) = fin (moffatAlpha fw b) := by
    simp only [lit_def, one_def, fin_div_of_ne hb.ne', fin_mul]
    rw [fpow_pos (by norm_num), fin_sub, fsqrt_fin_of_nonneg (by push_cast; linarith), fin_div_of_ne (by push_cast; exact h2.ne')]
    unfold moffatAlpha
    congr 1
    push_cast
    ring
  have h4 := (moffatAlpha_pos hf hb).ne'
  unfold moffat1d moffatI
  have h5 : 0 < 1 + r / moffatAlpha fw b * (r / moffatAlpha fw b) := by
    have := mul_self_nonneg (r / moffatAlpha fw b); linarith
  simp only [h3, fin_div_of_ne h4, fin_mul]
  simp only [one_def, fin_add, fpow_pos h5]
  rw [fin_div_of_ne (Real.rpow_pos_of_pos h5 _).ne', sq]

theorem gauss1d_fin {s : ℝ} (hs : s ≠ 0) (i0 r : ℝ) : gauss1d (fin i0) (fin s) (fin r) = fin (i0 * bell 0 s r) := by
  unfold gauss1d bell
  simp only [lit2, fin_div_of_ne hs, fin_mul, fin_neg, fin_div_of_ne (show (2 : ℝ) ≠ 0 by norm_num), fexp_fin]
  congr 3
  field_simp
  ring

theorem sech1d_fin {h : ℝ} (hh : 0 < h) (i0 r : ℝ) : sech1d (fin i0) (fin h) (fin r) = fin (i0 / Real.cosh (r / h)) := by
  unfold sech1d
  simp only [fin_div_of_ne hh.ne', fcosh_fin, one_def, fin_div_of_ne (Real.cosh_pos _).ne', fin_mul]
  rw [mul_one_div]

theorem sech21d_fin {h : ℝ} (hh : 0 < h) (i0 r : ℝ) : sech21d (fin i0) (fin h) (fin r) = fin (i0 / Real.cosh (r / h) ^ 2) := by
  unfold sech21d
  simp only [fin_div_of_ne hh.ne', fcosh_fin, one_def, fin_div_of_ne (Real.cosh_pos _).ne', fin_mul]
  congr 1
  have := (Real.cosh_pos (r / h)).ne'
  field_simp

theorem vdkSech1d_fin {z0 a : ℝ} (hz : 0 < z0) (ha : 0 < a) (i z : ℝ) :
    vdkSech1d (fin i) (fin z0) (fin a) (fin z) = fin (2 ^ (-a) * i * sechI (2 / a) z0 z) := by
  unfold vdkSech1d sechI
  simp only [lit2, fin_neg, fpow_pos (show (0 : ℝ) < 2 by norm_num), fin_mul, fin_div_of_ne (mul_pos ha hz).ne', fcosh_fin, one_def,
    fin_div_of_ne (Real.cosh_pos _).ne']
  rw [fpow_pos (one_div_pos.2 (Real.cosh_pos _)), fin_mul]
  congr 1
  have e1 : 2 / a * z / (2 * z0) = z / (a * z0) := by field_simp
  have e2 : 2 / (2 / a) = a := by field_simp
  rw [e1, e2]

theorem nuker1d_fin {rb a : ℝ} (hrb : 0 < rb) (ha : a ≠ 0) (ib b g r' : ℝ) :
    nuker1d (fin ib) (fin rb) (fin a) (fin b) (fin g) (fin r') = fin (nukerI ib rb a b g (max r' (1 / 1000))) :=
  nukerProfile_fin hrb ha ib b g r'

theorem feq_real (a b : ℝ) : (feq (fin a) (fin b) : Bool) = decide (a = b) := by
  unfold feq
  rw [fle_fin, fle_fin, Bool.eq_iff_iff]
  simp only [Bool.and_eq_true, decide_eq_true_iff]
  exact ⟨fun h => le_antisymm h.1 h.2, fun h => ⟨h.le, h.ge⟩⟩

/-- The Gauss-Hermite series as the code has it: the polynomials are added if their coefficients are not zero. -/
noncomputable def hermiteCode (a sigma h3 h4 dx : ℝ) : ℝ :=
  (1 + (if h3 = 0 then 0 else hermite3 (dx / |sigma|)) + (if h4 = 0 then 0 else hermite4 (dx / |sigma|))) * (a * Real.exp (-((dx / |sigma|) ^ 2 / 2)))

theorem gaussHermite1d_fin {s : ℝ} (hs : s ≠ 0) (a h3 h4 dx : ℝ) :
    gaussHermite1d (fin a) (fin s) (fin h3) (fin h4) (fin dx) = fin (hermiteCode a s h3 h4 dx) := by
  have h6 : Real.sqrt 6 ≠ 0 := (Real.sqrt_pos.2 (by norm_num)).ne'
  have h24 : Real.sqrt 24 ≠ 0 := (Real.sqrt_pos.2 (by norm_num)).ne'
  have l2 : (fsqrt (lit 2) : XR) = fin (Real.sqrt 2) := by rw [lit_def, fsqrt_fin_of_nonneg (by norm_num)]; norm_num
  have l6 : (fsqrt (lit 6) : XR) = fin (Real.sqrt 6) := by rw [lit_def, fsqrt_fin_of_nonneg (by norm_num)]; norm_num
  have l24 : (fsqrt (lit 24) : XR) = fin (Real.sqrt 24) := by rw [lit_def, fsqrt_fin_of_nonneg (by norm_num)]; norm_num
  have l : (-(lit (1 / 2)) : XR) = fin (-(1 / 2)) := by rw [lit_def, fin_neg]; norm_num
  unfold gaussHermite1d hermiteCode
  simp only [l2, l6, l24, l]
  simp only [fabs_fin, fin_div_of_ne (abs_ne_zero.2 hs), zero_def, one_def, feq_real, lit_def, hermite3, hermite4]
  generalize dx / |s| = w
  simp only [fin_mul, fin_sub, fin_add, fin_div_of_ne h6, fin_div_of_ne h24, fexp_fin]
  rw [show -(1 / 2) * (w * w) = -(w ^ 2 / 2) by ring]
  generalize Real.exp (-(w ^ 2 / 2)) = E
  by_cases e3 : h3 = 0 <;> by_cases e4 : h4 = 0 <;>
    simp only [e3, e4, decide_true, decide_false, if_true, if_false, Bool.false_eq_true, fin_mul, fin_add] <;>
    (congr 1; push_cast; ring)

/-- Sizes positive. -/
def Fun1.Physical : Fun1 → List ℝ → Prop
  | .exponential, [_, h] => 0 < h
  | .sersic, [n, _, re] => 0 < n ∧ 0 < re
  | .coreSersic, [n, _, re, rb, a, _] => 0 < n ∧ 0 < re ∧ 0 < rb ∧ 0 < a
  | .brokenExponential, [_, h1, h2, _, a] => 0 < h1 ∧ 0 < h2 ∧ 0 < a
  | .moffat, [_, fw, b] => 0 < fw ∧ 0 < b
  | .gaussian, [_, s] => 0 < s
  | .linearGaussian, [_, s] => 0 < s
  | .gaussian2Side, [_, sl, sr] => 0 < sl ∧ 0 < sr
  | .gaussHermite, [_, s, _, _] => 0 < s
  | .sech, [_, h] => 0 < h
  | .sech2, [_, h] => 0 < h
  | .vdkSech, [_, z0, a] => 0 < z0 ∧ 0 < a
  | .nuker, [a, _, _, rb, _] => 0 < a ∧ 0 < rb
  | .delta, [_] => True
  | .majMin, [n, _, rmaj, rmin, _, h1, h2, _, a, _, hmaj, hmin, sb] =>
    (0 < n ∧ 0 < rmaj ∧ 0 < rmin) ∧ (0 < h1 ∧ 0 < h2 ∧ 0 < a) ∧ 0 < hmaj ∧ 0 < hmin ∧ 0 < sb
  | .majMin2, [n, _, rmaj, rmin, _, h1, h2, _, a, _, hmaj, hmin, sb, _, sn] =>
    (0 < n ∧ 0 < rmaj ∧ 0 < rmin) ∧ (0 < h1 ∧ 0 < h2 ∧ 0 < a) ∧ 0 < hmaj ∧ 0 < hmin ∧ 0 < sb ∧ 0 < sn
  | .majMinCirc, [n, _, re, _, h1, h2, _, a, _, hmaj, hmin, sb] =>
    (0 < n ∧ 0 < re) ∧ (0 < h1 ∧ 0 < h2 ∧ 0 < a) ∧ 0 < hmaj ∧ 0 < hmin ∧ 0 < sb
  | _, _ => False

/-- The intensity at `x`, with the centre at `x0`. -/
noncomputable def Fun1.ref (zp : ℝ) : Fun1 → List ℝ → ℝ → ℝ → ℝ
  | .exponential, [mu, h], x0, x => flux zp mu * Real.exp (-(|x - x0| / h))
  | .sersic, [n, mu, re], x0, x => sersicWith (bnCB n) n (flux zp mu) re |x - x0|
  | .coreSersic, [n, mu, re, rb, a, g], x0, x => coreSersicWith (bnCB n) n (flux zp mu) re rb a g (max |x - x0| (1 / 1000))
  | .brokenExponential, [mu, h1, h2, rb, a], x0, x => brokenCode (flux zp mu) h1 h2 rb a |x - x0|
  | .moffat, [mu, fw, b], x0, x => moffatI (flux zp mu) fw b |x - x0|
  | .gaussian, [mu, s], x0, x => flux zp mu * bell 0 s |x - x0|
  | .linearGaussian, [i0, s], x0, x => i0 * bell 0 s |x - x0|
  | .gaussian2Side, [mu, sl, sr], x0, x => flux zp mu * bell 0 (if x < x0 then sl else sr) |x - x0|
  | .gaussHermite, [a, s, h3, h4], x0, x => hermiteCode a s h3 h4 (x - x0)
  | .sech, [mu, h], x0, x => flux zp mu / Real.cosh (|x - x0| / h)
  | .sech2, [mu, h], x0, x => flux zp mu / Real.cosh (|x - x0| / h) ^ 2
  | .vdkSech, [mu, z0, a], x0, x => 2 ^ (-a) * flux zp mu * sechI (2 / a) z0 |x - x0|
  | .nuker, [a, b, g, rb, mu], x0, x => nukerI (flux zp mu) rb a b g (max |x - x0| (1 / 1000))
  | .delta, [i], x0, x => if x = x0 then i else 0
  | .majMin, [n, mue, rmaj, rmin, mub, h1, h2, rb, a, mud, hmaj, hmin, sb], x0, x =>
    if x < 0 then sersicWith (bnCB n) n (flux zp mue) rmin |x - x0| + flux zp mud * Real.exp (-(|x - x0| / hmin)) + flux zp mub * bell 0 sb |x - x0|
    else sersicWith (bnCB n) n (flux zp mue) rmaj |x - x0| + flux zp mud * Real.exp (-(|x - x0| / hmaj)) + brokenCode (flux zp mub) h1 h2 rb a |x - x0|
  | .majMin2, [n, mue, rmaj, rmin, mub, h1, h2, rb, a, mud, hmaj, hmin, sb, mun, sn], x0, x =>
    if x < 0 then sersicWith (bnCB n) n (flux zp mue) rmin |x - x0| + flux zp mud * Real.exp (-(|x - x0| / hmin)) + flux zp mub * bell 0 sb |x - x0|
    else sersicWith (bnCB n) n (flux zp mue) rmaj |x - x0| + flux zp mud * Real.exp (-(|x - x0| / hmaj)) + brokenCode (flux zp mub) h1 h2 rb a |x - x0|
      + flux zp mun * bell 0 sn |x - x0|
  | .majMinCirc, [n, mue, re, mub, h1, h2, rb, a, mud, hmaj, hmin, sb], x0, x =>
    if x < 0 then sersicWith (bnCB n) n (flux zp mue) re |x - x0| + flux zp mud * Real.exp (-(|x - x0| / hmin)) + flux zp mub * bell 0 sb |x - x0|
    else sersicWith (bnCB n) n (flux zp mue) re |x - x0| + flux zp mud * Real.exp (-(|x - x0| / hmaj)) + brokenCode (flux zp mub) h1 h2 rb a |x - x0|
  | _, _, _, _ => 0

/-- `Setup` with parameters of the physical range succeeds, wherever they are in the parameter vector, and `GetValue` is the reference profile. -/
theorem setup1_fin (F : Fun1) (zp : ℝ) (p : List ℝ) (hp : F.Physical p) (pre post : List XR) (x0 : ℝ) :
    ∃ f, F.setup (fin zp) (pre ++ p.map fin ++ post) pre.length (fin x0) = .ok f ∧ ∀ x : ℝ, f (fin x) = fin (F.ref zp p x0 x) := by
  have r0 : ∀ l : List XR, ∀ a, l[0]? = some a → rd (pre ++ l ++ post) pre.length = .ok a := fun l a h => rd_mid pre l post 0 a h
  have rk : ∀ (l : List XR) (i : Nat) (a : XR), l[i]? = some a → rd (pre ++ l ++ post) (pre.length + i) = .ok a := fun l i a h => rd_mid pre l post i a h
  unfold Fun1.Physical at hp
  split at hp
  all_goals first
    | exact hp.elim
    | skip
  case h_1 =>
    refine ⟨_, by simp only [Fun1.setup, List.map_cons, List.map_nil]; rw [r0 _ _ rfl, rk _ 1 _ rfl]; rfl, fun x => ?_⟩
    simp only [magFlux_fin, fin_sub, fabs_fin]
    exact exp1d_fin hp _ _
  case h_2 =>
    refine ⟨_, by simp only [Fun1.setup, List.map_cons, List.map_nil]; rw [r0 _ _ rfl, rk _ 1 _ rfl, rk _ 2 _ rfl]; rfl, fun x => ?_⟩
    simp only [magFlux_fin, fin_sub, fabs_fin]
    exact sersic1d_fin hp.1 hp.2 _ (abs_nonneg _)
  case h_3 =>
    refine ⟨_, by simp only [Fun1.setup, List.map_cons, List.map_nil]; rw [r0 _ _ rfl, rk _ 1 _ rfl, rk _ 2 _ rfl, rk _ 3 _ rfl, rk _ 4 _ rfl, rk _ 5 _ rfl]; rfl, fun x => ?_⟩
    simp only [magFlux_fin, fin_sub, fabs_fin]
    exact coreSersic1d_fin hp.1 hp.2.1 hp.2.2.1 hp.2.2.2 _ _ _
  case h_4 =>
    refine ⟨_, by simp only [Fun1.setup, List.map_cons, List.map_nil]; rw [r0 _ _ rfl, rk _ 1 _ rfl, rk _ 2 _ rfl, rk _ 3 _ rfl, rk _ 4 _ rfl]; rfl, fun x => ?_⟩
    simp only [magFlux_fin, fin_sub, fabs_fin]
    exact broken1d_fin hp.1.ne' hp.2.1.ne' hp.2.2.ne' _ _ _
  case h_5 =>
    refine ⟨_, by simp only [Fun1.setup, List.map_cons, List.map_nil]; rw [r0 _ _ rfl, rk _ 1 _ rfl, rk _ 2 _ rfl]; rfl, fun x => ?_⟩
    simp only [magFlux_fin, fin_sub, fabs_fin]
    exact moffat1d_fin hp.1 hp.2 _ _
  case h_6 =>
    refine ⟨_, by simp only [Fun1.setup, List.map_cons, List.map_nil]; rw [r0 _ _ rfl, rk _ 1 _ rfl]; rfl, fun x => ?_⟩
    simp only [magFlux_fin, fin_sub, fabs_fin]
    exact gauss1d_fin hp.ne' _ _
  case h_7 =>
    refine ⟨_, by simp only [Fun1.setup, List.map_cons, List.map_nil]; rw [r0 _ _ rfl, rk _ 1 _ rfl]; rfl, fun x => ?_⟩
    simp only [fin_sub, fabs_fin]
    exact gauss1d_fin hp.ne' _ _
  case h_8 =>
    refine ⟨_, by simp only [Fun1.setup, List.map_cons, List.map_nil]; rw [r0 _ _ rfl, rk _ 1 _ rfl, rk _ 2 _ rfl]; rfl, fun x => ?_⟩
    simp only [magFlux_fin, fin_sub, fabs_fin, zero_def, flt_fin, sub_neg, Fun1.ref]
    by_cases h : x < x0
    · simp only [h, decide_true, if_true]
      exact gauss1d_fin hp.1.ne' _ _
    · simp only [h, decide_false, Bool.false_eq_true, if_false]
      exact gauss1d_fin hp.2.ne' _ _
  case h_9 =>
    refine ⟨_, by simp only [Fun1.setup, List.map_cons, List.map_nil]; rw [r0 _ _ rfl, rk _ 1 _ rfl, rk _ 2 _ rfl, rk _ 3 _ rfl]; rfl, fun x => ?_⟩
    simp only [fin_sub]
    exact gaussHermite1d_fin hp.ne' _ _ _ _
  case h_10 =>
    refine ⟨_, by simp only [Fun1.setup, List.map_cons, List.map_nil]; rw [r0 _ _ rfl, rk _ 1 _ rfl]; rfl, fun x => ?_⟩
    simp only [magFlux_fin, fin_sub, fabs_fin]
    exact sech1d_fin hp _ _
  case h_11 =>
    refine ⟨_, by simp only [Fun1.setup, List.map_cons, List.map_nil]; rw [r0 _ _ rfl, rk _ 1 _ rfl]; rfl, fun x => ?_⟩
    simp only [magFlux_fin, fin_sub, fabs_fin]
    exact sech21d_fin hp _ _
  case h_12 =>
    refine ⟨_, by simp only [Fun1.setup, List.map_cons, List.map_nil]; rw [r0 _ _ rfl, rk _ 1 _ rfl, rk _ 2 _ rfl]; rfl, fun x => ?_⟩
    simp only [magFlux_fin, fin_sub, fabs_fin]
    exact vdkSech1d_fin hp.1 hp.2 _ _
  case h_13 =>
    refine ⟨_, by simp only [Fun1.setup, List.map_cons, List.map_nil]; rw [r0 _ _ rfl, rk _ 1 _ rfl, rk _ 2 _ rfl, rk _ 3 _ rfl, rk _ 4 _ rfl]; rfl, fun x => ?_⟩
    simp only [magFlux_fin, fin_sub, fabs_fin]
    exact nuker1d_fin hp.2 hp.1.ne' _ _ _ _
  case h_14 =>
    refine ⟨_, by simp only [Fun1.setup, List.map_cons, List.map_nil]; rw [r0 _ _ rfl]; rfl, fun x => ?_⟩
    simp only [feq_real, zero_def, Fun1.ref]
    by_cases h : x = x0
    · simp [h]
    · simp [h]
  case h_15 =>
    obtain ⟨⟨hn, h1, h2⟩, ⟨h3, h4, h5⟩, h6, h7, h8⟩ := hp
    refine ⟨_, by
      simp only [Fun1.setup, List.map_cons, List.map_nil]
      rw [r0 _ _ rfl, rk _ 1 _ rfl, rk _ 2 _ rfl, rk _ 3 _ rfl, rk _ 4 _ rfl, rk _ 5 _ rfl, rk _ 6 _ rfl, rk _ 7 _ rfl, rk _ 8 _ rfl, rk _ 9 _ rfl, rk _ 10 _ rfl,
        rk _ 11 _ rfl, rk _ 12 _ rfl]
      rfl, fun x => ?_⟩
    simp only [magFlux_fin, fin_sub, fabs_fin, zero_def, flt_fin, Fun1.ref, sersic1d_fin hn h1 _ (abs_nonneg _), sersic1d_fin hn h2 _ (abs_nonneg _), exp1d_fin h6,
      exp1d_fin h7, gauss1d_fin h8.ne', broken1d_fin h3.ne' h4.ne' h5.ne', fin_add, zero_add]
    by_cases h : x < 0
    · simp only [h, decide_true, if_true]
    · simp only [h, decide_false, Bool.false_eq_true, if_false]
  case h_16 =>
    obtain ⟨⟨hn, h1, h2⟩, ⟨h3, h4, h5⟩, h6, h7, h8, h9⟩ := hp
    refine ⟨_, by
      simp only [Fun1.setup, List.map_cons, List.map_nil]
      rw [r0 _ _ rfl, rk _ 1 _ rfl, rk _ 2 _ rfl, rk _ 3 _ rfl, rk _ 4 _ rfl, rk _ 5 _ rfl, rk _ 6 _ rfl, rk _ 7 _ rfl, rk _ 8 _ rfl, rk _ 9 _ rfl, rk _ 10 _ rfl,
        rk _ 11 _ rfl, rk _ 12 _ rfl, rk _ 13 _ rfl, rk _ 14 _ rfl]
      rfl, fun x => ?_⟩
    simp only [magFlux_fin, fin_sub, fabs_fin, zero_def, flt_fin, Fun1.ref, sersic1d_fin hn h1 _ (abs_nonneg _), sersic1d_fin hn h2 _ (abs_nonneg _), exp1d_fin h6,
      exp1d_fin h7, gauss1d_fin h8.ne', gauss1d_fin h9.ne', broken1d_fin h3.ne' h4.ne' h5.ne', fin_add, zero_add]
    by_cases h : x < 0
    · simp only [h, decide_true, if_true]
    · simp only [h, decide_false, Bool.false_eq_true, if_false]
  case h_17 =>
    obtain ⟨⟨hn, h1⟩, ⟨h3, h4, h5⟩, h6, h7, h8⟩ := hp
    refine ⟨_, by
      simp only [Fun1.setup, List.map_cons, List.map_nil]
      rw [r0 _ _ rfl, rk _ 1 _ rfl, rk _ 2 _ rfl, rk _ 3 _ rfl, rk _ 4 _ rfl, rk _ 5 _ rfl, rk _ 6 _ rfl, rk _ 7 _ rfl, rk _ 8 _ rfl, rk _ 9 _ rfl, rk _ 10 _ rfl,
        rk _ 11 _ rfl]
      rfl, fun x => ?_⟩
    simp only [magFlux_fin, fin_sub, fabs_fin, zero_def, flt_fin, Fun1.ref, sersic1d_fin hn h1 _ (abs_nonneg _), exp1d_fin h6,
      exp1d_fin h7, gauss1d_fin h8.ne', broken1d_fin h3.ne' h4.ne' h5.ne', fin_add, zero_add]
    by_cases h : x < 0
    · simp only [h, decide_true, if_true]
    · simp only [h, decide_false, Bool.false_eq_true, if_false]

/-- `Setup` and `GetValue` together. -/
theorem value1_fin (F : Fun1) (zp : ℝ) (p : List ℝ) (hp : F.Physical p) (pre post : List XR) (x0 x : ℝ) :
    F.value (fin zp) (pre ++ p.map fin ++ post) pre.length (fin x0) (fin x) = .ok (fin (F.ref zp p x0 x)) := by
  obtain ⟨f, hf, hv⟩ := setup1_fin F zp p hp pre post x0
  unfold Fun1.value
  rw [hf, ok_bind, pure_eq_ok, hv]

theorem Fun1.Physical.length {F : Fun1} {p : List ℝ} (h : F.Physical p) : p.length = F.nPars := by
  unfold Fun1.Physical at h
  split at h <;> first | exact h.elim | rfl

end Imfit
