import Verif.Model.Plane
import Verif.Spec.Plane
import Verif.Lemmas.FuncSetup

/-!
# Exact values of image functions in a rotated frame
-/

namespace Imfit

open Spec XR Finset

/-- A prepared function with finite geometry whose intensity is `g`. -/
structure IsPlane (f : PlaneFn XR) (x0 y0 θ : ℝ) (g : ℝ → ℝ → ℝ) : Prop where
  x0_eq : f.x0 = fin x0
  y0_eq : f.y0 = fin y0
  cos_eq : f.cosPA = fin (Real.cos θ)
  sin_eq : f.sinPA = fin (Real.sin θ)
  intensity : ∀ u v, f.intensity (fin u) (fin v) = fin (g u v)

theorem along_fin {f : PlaneFn XR} {x0 y0 θ : ℝ} {g : ℝ → ℝ → ℝ} (h : IsPlane f x0 y0 θ g) (dx dy : ℝ) :
    f.along (fin dx) (fin dy) = fin (along θ dx dy) := by
  simp only [PlaneFn.along, h.cos_eq, h.sin_eq, fin_mul, fin_add]
  rfl

theorem across_fin {f : PlaneFn XR} {x0 y0 θ : ℝ} {g : ℝ → ℝ → ℝ} (h : IsPlane f x0 y0 θ g) (dx dy : ℝ) :
    f.across (fin dx) (fin dy) = fin (across θ dx dy) := by
  simp only [PlaneFn.across, h.cos_eq, h.sin_eq, fin_mul, fin_add, fin_neg, across]
  congr 1
  ring

theorem at_fin {f : PlaneFn XR} {x0 y0 θ : ℝ} {g : ℝ → ℝ → ℝ} (h : IsPlane f x0 y0 θ g) (dx dy : ℝ) :
    f.at' (fin dx) (fin dy) = fin (g (along θ dx dy) (across θ dx dy)) := by
  rw [PlaneFn.at', along_fin h, across_fin h, h.intensity]

theorem planeMean_fin {f : PlaneFn XR} {x0 y0 θ : ℝ} {g : ℝ → ℝ → ℝ} (h : IsPlane f x0 y0 θ g) (n : ℕ) (hn : 0 < n) (x y : ℝ) :
    planeMean f n (fin x) (fin y) = fin (pixelMean n (fun a b => g (along θ (a - x0) (b - y0)) (across θ (a - x0) (b - y0))) x y) := by
  have hn' : (n : ℝ) ≠ 0 := by positivity
  unfold planeMean
  simp only [lit_def, one_def, zero_def, h.x0_eq, h.y0_eq]
  rw [fin_div_of_ne (by exact_mod_cast hn')]
  simp only [fin_mul, fin_add, fin_sub]
  rw [foldl_fin_step _ _ (fun i => ∑ j ∈ range n, g (along θ (gridPoint n i x - x0) (gridPoint n j y - y0)) (across θ (gridPoint n i x - x0) (gridPoint n j y - y0)))]
  · rw [fin_div_of_ne (by push_cast; positivity), sum_list_range, zero_add]
    unfold pixelMean
    push_cast
    rfl
  · intro i hi a
    rw [foldl_fin_step _ _ (fun j => g (along θ (gridPoint n i x - x0) (gridPoint n j y - y0)) (across θ (gridPoint n i x - x0) (gridPoint n j y - y0))), sum_list_range]
    intro j hj b
    rw [at_fin h, fin_add]
    have e : ∀ (k : ℕ) (z : ℝ), z - ((1 / 2 : ℚ) : ℝ) + ((1 / 2 : ℚ) : ℝ) * (1 / ((n : ℚ) : ℝ)) + ((k : ℚ) : ℝ) * (1 / ((n : ℚ) : ℝ)) = gridPoint n k z := by
      intro k z
      unfold gridPoint
      push_cast
      field_simp
      ring
    rw [e, e]

/-- `GetValue` in exact arithmetic: the mean over the sub-pixels, or the value at the centre of the pixel. -/
theorem planeValue_fin {f : PlaneFn XR} {x0 y0 θ : ℝ} {g : ℝ → ℝ → ℝ} (h : IsPlane f x0 y0 θ g) (x y : ℝ) (n : Int)
    (hs : f.nsub (fin (along θ (x - x0) (y - y0))) (fin (across θ (x - x0) (y - y0))) = .ok n) :
    planeValue f (fin x) (fin y) =
      .ok (fin (if 1 < n then pixelMean n.toNat (fun a b => g (along θ (a - x0) (b - y0)) (across θ (a - x0) (b - y0))) x y
        else g (along θ (x - x0) (y - y0)) (across θ (x - x0) (y - y0)))) := by
  unfold planeValue
  rw [h.x0_eq, h.y0_eq, fin_sub, fin_sub, along_fin h, across_fin h, hs, ok_bind, pure_eq_ok]
  by_cases h1 : 1 < n
  · rw [if_pos h1, if_pos h1, planeMean_fin h _ (by omega)]
  · rw [if_neg h1, if_neg h1, at_fin h]

theorem planeValue_error {f : PlaneFn XR} {x0 y0 θ : ℝ} {g : ℝ → ℝ → ℝ} (h : IsPlane f x0 y0 θ g) (x y : ℝ) (e : Fault)
    (hs : f.nsub (fin (along θ (x - x0) (y - y0))) (fin (across θ (x - x0) (y - y0))) = .error e) :
    planeValue f (fin x) (fin y) = .error e := by
  unfold planeValue
  rw [h.x0_eq, h.y0_eq, fin_sub, fin_sub, along_fin h, across_fin h, hs]
  rfl

theorem planeFn_isPlane (pa x0 y0 : ℝ) (ns : XR → XR → Res Int) (it : XR → XR → XR) (g : ℝ → ℝ → ℝ) (h : ∀ u v, it (fin u) (fin v) = fin (g u v)) :
    IsPlane (planeFn (fin pa) (fin x0) (fin y0) ns it) x0 y0 ((pa + 90) * degree) g := by
  have e : ((pa + ((90 : ℚ) : ℝ)) * ((DEG2RAD : ℚ) : ℝ)) = (pa + 90) * degree := by
    unfold degree DEG2RAD
    push_cast
    rfl
  refine ⟨rfl, rfl, ?_, ?_, h⟩ <;> simp only [planeFn, lit_def, fin_add, fin_mul, fcos_fin, fsin_fin, e]

theorem ellDist_nonneg (q u v : ℝ) : 0 ≤ ellDist q u v := Real.sqrt_nonneg _

theorem ellDist_smul (q t u v : ℝ) (ht : 0 ≤ t) : ellDist q (t * u) (t * v) = t * ellDist q u v := by
  unfold ellDist
  rw [show (t * u) ^ 2 + (t * v / q) ^ 2 = t ^ 2 * (u ^ 2 + (v / q) ^ 2) by ring, Real.sqrt_mul (sq_nonneg t), Real.sqrt_sq ht]

theorem ellR_fin {q : ℝ} (hq : 0 < q) (u v : ℝ) : ellR (fin q) (fin u) (fin v) = fin (ellDist q u v) := by
  simp only [ellR, fin_div_of_ne hq.ne', fin_mul, fin_add]
  rw [fsqrt_fin_of_nonneg (add_nonneg (mul_self_nonneg _) (mul_self_nonneg _))]
  unfold ellDist
  congr 2
  ring

theorem circR_fin (u v : ℝ) : circR (fin u) (fin v) = fin (ellDist 1 u v) := by
  simp only [circR, fin_mul, fin_add]
  rw [fsqrt_fin_of_nonneg (add_nonneg (mul_self_nonneg _) (mul_self_nonneg _))]
  unfold ellDist
  congr 2
  ring

theorem genDist_nonneg (q c0 u v : ℝ) : 0 ≤ genDist q c0 u v :=
  Real.rpow_nonneg (add_nonneg (Real.rpow_nonneg (abs_nonneg _) _) (Real.rpow_nonneg (abs_nonneg _) _)) _

theorem genDist_smul (q c0 t u v : ℝ) (hc : -2 < c0) (ht : 0 < t) : genDist q c0 (t * u) (t * v) = t * genDist q c0 u v := by
  have he : c0 + 2 ≠ 0 := by linarith
  have hte : 0 ≤ t ^ (c0 + 2) := Real.rpow_nonneg ht.le _
  unfold genDist
  rw [abs_mul, abs_of_pos ht, mul_div_assoc, abs_mul, abs_of_pos ht, Real.mul_rpow ht.le (abs_nonneg _), Real.mul_rpow ht.le (abs_nonneg _), ← mul_add,
    Real.mul_rpow hte (add_nonneg (Real.rpow_nonneg (abs_nonneg _) _) (Real.rpow_nonneg (abs_nonneg _) _)), ← Real.rpow_mul ht.le, mul_one_div_cancel he,
    Real.rpow_one]

theorem genR_fin {q c0 : ℝ} (hq : 0 < q) (hc : -2 < c0) (u v : ℝ) : genR (fin q) (fin c0) (fin u) (fin v) = fin (genDist q c0 u v) := by
  have he : 0 < c0 + 2 := by linarith
  simp only [genR, lit_def, one_def, fin_add, fin_div_of_ne hq.ne', fabs_fin]
  rw [show c0 + ((2 : ℚ) : ℝ) = c0 + 2 by push_cast; rfl, fin_div_of_ne he.ne', fpow_nonneg (abs_nonneg _) he, fpow_nonneg (abs_nonneg _) he, fin_add,
    fpow_nonneg (add_nonneg (Real.rpow_nonneg (abs_nonneg _) _) (Real.rpow_nonneg (abs_nonneg _) _)) (by positivity)]
  rfl

theorem rdPars (pre p post : List XR) : (loopMap p.length fun i => rd (pre ++ p ++ post) (pre.length + i)) = .ok p := by
  rw [loopMap_ok (g := fun i => p[i]?.getD nan)]
  · congr 1
    apply List.ext_getElem
    · simp
    · intro i h1 h2
      simp [List.getElem?_eq_getElem h2]
  · intro i hi
    rw [rd_mid pre p post i p[i] (List.getElem?_eq_getElem hi), List.getElem?_eq_getElem hi]
    rfl

/-- Reading the parameters succeeds exactly as far as the vector reaches; here it does. -/
theorem setup_reads (F : PFun XR) (doSub : Bool) (d : ImgDesc XR) (pre p post : List XR) (hp : p.length = F.nPars) (x0 y0 : XR) :
    F.setup doSub d (pre ++ p ++ post) pre.length x0 y0 = F.build doSub d x0 y0 p := by
  unfold PFun.setup
  rw [← hp, rdPars, ok_bind]

end Imfit
