import Verif.Model.Rings
import Verif.Lemmas.Plane
import Verif.Props.C52
import Mathlib.Analysis.Real.Pi.Bounds

/-!
# C52 continued: turned point sources

`PointSourceRot`: the PSF image turned by an angle; its interpolation methods, and the interpolator inside an oversampled region.
-/

namespace Imfit

open Spec XR

/-- The value is the PSF image, turned by the position angle less the rotation of the image plus 90 degrees, times the total flux. -/
theorem C52_rot_value (f : XR → XR → Res XR) (k : ℕ) (ps rot is pa itot x0 y0 x y v : ℝ)
    (hv : f (fin (k * along ((pa - rot + 90) * degree) (x - x0) (y - y0))) (fin (k * across ((pa - rot + 90) * degree) (x - x0) (y - y0))) = .ok (fin v)) :
    pointSourceRot (some f) k ⟨fin ps, fin rot, fin is⟩ (fin pa) (fin itot) (fin x0) (fin y0) (fin x) (fin y) = .ok (fin (itot * is * v)) := by
  unfold pointSourceRot
  have ht : (fin pa - fin rot + lit 90) * lit DEG2RAD = fin ((pa - rot + 90) * degree) := by
    simp only [lit_def, fin_sub, fin_add, fin_mul, degree]
    norm_num [DEG2RAD]
  rw [ht]
  simp only [fcos_fin, fsin_fin, lit_def, fin_sub, fin_mul, fin_neg, fin_add]
  have e1 : ((((k : ℕ) : ℚ) : ℝ) * (x - x0)) * Real.cos ((pa - rot + 90) * degree) + (((k : ℕ) : ℚ) : ℝ) * (y - y0) * Real.sin ((pa - rot + 90) * degree) =
      k * along ((pa - rot + 90) * degree) (x - x0) (y - y0) := by
    unfold along; push_cast; ring
  have e2 : -((((k : ℕ) : ℚ) : ℝ) * (x - x0)) * Real.sin ((pa - rot + 90) * degree) + (((k : ℕ) : ℚ) : ℝ) * (y - y0) * Real.cos ((pa - rot + 90) * degree) =
      k * across ((pa - rot + 90) * degree) (x - x0) (y - y0) := by
    unfold across; push_cast; ring
  rw [e1, e2, hv, ok_bind, pure_eq_ok, fin_mul]

/-- With the position angle 90 degrees below the rotation of the image the PSF image is not turned: the function is `PointSource`. -/
theorem C52_rot_plain (f : XR → XR → Res XR) (k : ℕ) (ps rot is itot x0 y0 x y : ℝ) :
    pointSourceRot (some f) k ⟨fin ps, fin rot, fin is⟩ (fin (rot - 90)) (fin itot) (fin x0) (fin y0) (fin x) (fin y) =
      pointSource f k (fin is) (fin itot) (fin x0) (fin y0) (fin x) (fin y) := by
  unfold pointSourceRot pointSource
  have ht : (fin (rot - 90) - fin rot + lit 90) * lit DEG2RAD = fin 0 := by
    simp only [lit_def, fin_sub, fin_add, fin_mul]
    norm_num
  rw [ht]
  simp only [fcos_fin, fsin_fin, lit_def, fin_sub, fin_mul, fin_neg, fin_add, Real.cos_zero, Real.sin_zero, mul_one, mul_zero, zero_add, add_zero]

/-- With position angle zero the PSF image is not as given: there is a PSF (here the first coordinate) for which the value is not the value of `PointSource`. -/
theorem C52_rot_zero_false (ps is : ℝ) :
    pointSourceRot (some fun a _ => .ok a) 1 ⟨fin ps, fin 0, fin is⟩ (fin 0) (fin 1) (fin 0) (fin 0) (fin 1) (fin 0) = .ok (fin (is * Real.cos (90 * degree))) ∧
      pointSource (fun a _ => .ok a) 1 (fin is) (fin 1) (fin 0) (fin 0) (fin 1) (fin 0) = .ok (fin is) ∧ Real.cos (90 * degree) < 1 / 10 := by
  refine ⟨?_, ?_, ?_⟩
  · rw [C52_rot_value (fun a _ => .ok a) 1 ps 0 is 0 1 0 0 1 0 (Real.cos (90 * degree)) (by unfold along; norm_num), one_mul]
  · unfold pointSource
    simp only [lit_def, fin_sub, fin_mul, ok_bind, pure_eq_ok]
    norm_num
  · have hp1 := Real.pi_gt_d2
    have hp2 := Real.pi_lt_d2
    rw [← Real.sin_pi_div_two_sub]
    have h := Real.abs_sin_le_abs (x := Real.pi / 2 - 90 * degree)
    refine lt_of_le_of_lt ((le_abs_self _).trans h) ?_
    rw [abs_lt]
    unfold degree
    constructor <;> norm_num <;> linarith

/-- Two PSF images equal after turning: turning by an angle and back gives the same point. -/
example (f : XR → XR → Res XR) (x y : ℝ) :
    pointSourceRot (some f) 1 ⟨fin 1, fin 0, fin 1⟩ (fin (0 - 90)) (fin 5) (fin 0) (fin 0) (fin x) (fin y) = pointSource f 1 (fin 1) (fin 5) (fin 0) (fin 0) (fin x) (fin y) :=
  C52_rot_plain f 1 1 0 1 5 0 0 x y

/-- The words that do what they say: the method of the interpolator handed out is the one named. Missing: the words with a capital, and `lanczos3`. -/
theorem C52_rot_words_partial (cur : List Char) (C R : ℕ) (hC : 4 ≤ C) (hR : 4 ≤ R) (v : List Char)
    (h : v = ['b', 'i', 'c', 'u', 'b', 'i', 'c'] ∨ v = ['l', 'a', 'n', 'c', 'z', 'o', 's', '2']) :
    (setMethodRot cur [(['m', 'e', 't', 'h', 'o', 'd'], v)]).1 = 1 ∧
      firstInterpolator true C R (setMethodRot cur [(['m', 'e', 't', 'h', 'o', 'd'], v)]).2 = some (Spec.methodWord v) ∧ (Spec.methodWord v).isSome = true := by
  have hc : ¬ (C < 4 ∨ R < 4) := by omega
  rcases h with rfl | rfl
  · refine ⟨rfl, ?_, rfl⟩
    show (if (!true) = true then none else if C < 4 ∨ R < 4 then none else _) = _
    rw [if_neg (by decide), if_neg hc]; rfl
  · refine ⟨rfl, ?_, rfl⟩
    show (if (!true) = true then none else if C < 4 ∨ R < 4 then none else _) = _
    rw [if_neg (by decide), if_neg hc]; rfl

example : firstInterpolator true 5 4 (setMethodRot ['x'] [(['m', 'e', 't', 'h', 'o', 'd'], ['l', 'a', 'n', 'c', 'z', 'o', 's', '2'])]).2 = some (some .lanczos2) :=
  (C52_rot_words_partial ['x'] 5 4 (by decide) (by decide) _ (.inr rfl)).2.1

/-- The documented word `Bicubic` (and `Lanczos2`) is accepted, but no interpolator is made and no error reported: the first pixel value dereferences a null
pointer. -/
theorem C52_rot_null_false (cur : List Char) (C R : ℕ) (hC : 4 ≤ C) (hR : 4 ≤ R) (v : List Char)
    (h : v = ['B', 'i', 'c', 'u', 'b', 'i', 'c'] ∨ v = ['L', 'a', 'n', 'c', 'z', 'o', 's', '2']) (f : PsfMethod → XR → XR → Res XR) (d : ImgDesc XR) (pa itot x0 y0 x y : XR) :
    (Spec.methodWord v).isSome = true ∧ (setMethodRot cur [(['m', 'e', 't', 'h', 'o', 'd'], v)]).1 = 1 ∧
      ∃ u, firstInterpolator true C R (setMethodRot cur [(['m', 'e', 't', 'h', 'o', 'd'], v)]).2 = some u ∧
        pointSourceRot (u.map f) 1 d pa itot x0 y0 x y = .error .null := by
  have hc : ¬ (C < 4 ∨ R < 4) := by omega
  rcases h with rfl | rfl
  · refine ⟨rfl, rfl, none, ?_, rfl⟩
    show (if (!true) = true then none else if C < 4 ∨ R < 4 then none else _) = _
    rw [if_neg (by decide), if_neg hc]; rfl
  · refine ⟨rfl, rfl, none, ?_, rfl⟩
    show (if (!true) = true then none else if C < 4 ∨ R < 4 then none else _) = _
    rw [if_neg (by decide), if_neg hc]; rfl

/-- The documented word `lanczos3` is refused by `PointSourceRot`, and accepted by `PointSource`. -/
theorem C52_rot_lanczos3_false (cur : List Char) (m : PsfMethod) :
    setMethodRot cur [(['m', 'e', 't', 'h', 'o', 'd'], ['l', 'a', 'n', 'c', 'z', 'o', 's', '3'])] = (-3, cur) ∧
      setMethod m [(['m', 'e', 't', 'h', 'o', 'd'], ['l', 'a', 'n', 'c', 'z', 'o', 's', '3'])] = (1, .lanczos3) := ⟨rfl, rfl⟩

/-- Inside an oversampled region every point source is given the bicubic interpolator, also one whose method is another one. -/
theorem C52_oversampled_false (C R C' R' : ℕ) (hC : 4 ≤ C) (hR : 4 ≤ R) (hC' : 4 ≤ C') (hR' : 4 ≤ R') :
    (∃ s, addPointSources true C R ⟨none, []⟩ [.lanczos2] = some s ∧ s.given = [.lanczos2]) ∧ regionInterpolator C' R' = some .bicubic := by
  refine ⟨?_, if_pos ⟨hC', hR'⟩⟩
  rw [C52_first, if_pos ⟨rfl, hC, hR⟩]
  exact ⟨_, rfl, rfl⟩

/-- A PSF of an oversampled region with fewer than four columns or rows is not refused as it is for the main image (a message is printed, and the program goes on): a point source in the region dereferences a
null pointer. -/
theorem C52_oversampled_null_false (C R : ℕ) (h : C < 4 ∨ R < 4) (word : List Char) (f : PsfMethod → XR → XR → Res XR) (k : ℕ) (d : ImgDesc XR)
    (pa itot x0 y0 x y : XR) :
    firstInterpolator true C R word = none ∧ pointSourceRot ((regionInterpolator C R).map f) k d pa itot x0 y0 x y = .error .null := by
  constructor
  · show (if (!true) = true then none else if C < 4 ∨ R < 4 then none else _) = _
    rw [if_neg (by decide), if_pos h]
  · have : regionInterpolator C R = none := if_neg (by omega)
    rw [this]
    rfl

end Imfit
