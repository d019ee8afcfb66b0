import Verif.Lemmas.Func
import Mathlib.Tactic.NormNum

/-!
# The prepared function objects
-/

namespace Imfit

open Spec XR

/-- Parameter vector of a function. -/
def EFun.params : EFun → Phys → List XR
  | .exponential, ph => [fin ph.pa, fin ph.ell, fin ph.amp, fin ph.size]
  | .gaussian, ph => [fin ph.pa, fin ph.ell, fin ph.amp, fin ph.size]
  | .sersic, ph => [fin ph.pa, fin ph.ell, fin ph.shape, fin ph.amp, fin ph.size]
  | .moffat, ph => [fin ph.pa, fin ph.ell, fin ph.amp, fin ph.size, fin ph.shape]

/-- Documented profile of a function. -/
noncomputable def EFun.spec : EFun → Phys → ℝ → ℝ
  | .exponential => expProfile
  | .gaussian => gaussProfile
  | .sersic => sersicProfile
  | .moffat => moffatProfile

/-- The scale that decides about sub-sampling. -/
noncomputable def EFun.subScale : EFun → Phys → ℝ
  | .moffat, ph => moffatAlpha ph.size ph.shape
  | _, ph => ph.size

def EFun.subNum : EFun → ℚ
  | .exponential => 20
  | .gaussian => 40
  | .sersic => 20
  | .moffat => 40

def EFun.subThresh : EFun → ℚ
  | .sersic => 4
  | _ => 3

theorem rd_mid {β : Type} (pre l post : List β) (i : Nat) (a : β) (h : l[i]? = some a) : rd (pre ++ l ++ post) (pre.length + i) = .ok a := by
  unfold rd
  have hi : i < l.length := by
    by_contra hc
    rw [List.getElem?_eq_none (by omega)] at h
    cases h
  rw [List.append_assoc, List.getElem?_append_right (by omega), Nat.add_sub_cancel_left, List.getElem?_append_left hi, h]

theorem setupGeo_fin (ps rot is pa ell x0 y0 : ℝ) :
    setupGeo (⟨fin ps, fin rot, fin is⟩ : ImgDesc XR) (fin pa) (fin ell) (fin x0) (fin y0) =
      ⟨fin x0, fin y0, fin (1 - ell), fin (Real.cos ((pa - rot + 90) * (17453292519943295 / 10 ^ 18))),
        fin (Real.sin ((pa - rot + 90) * (17453292519943295 / 10 ^ 18)))⟩ := by
  simp only [setupGeo, lit_def, one_def, fin_sub, fin_add, fin_mul, fcos_fin, fsin_fin, DEG2RAD]
  push_cast
  rfl

theorem bn_fin {n : ℝ} (hn : 0 < n) : calculateBn (fin n) = fin (bn n) := by
  unfold calculateBn bn
  simp only [lit_def, flt_fin, fin_mul]
  have h36 : (((36 / 100 : ℚ)) : ℝ) = 0.36 := by norm_num
  simp only [h36]
  by_cases h : (0.36 : ℝ) < n
  · simp only [h, decide_true, if_true]
    rw [fin_div_of_ne hn.ne', fin_div_of_ne (by positivity), fin_div_of_ne (by positivity), fin_div_of_ne (by positivity)]
    simp only [fin_add, fin_sub]
    congr 1
    push_cast
    ring
  · simp only [h, decide_false, Bool.false_eq_true, if_false, fin_add]
    congr 1
    push_cast
    ring

theorem moffatAlpha_pos {f b : ℝ} (hf : 0 < f) (hb : 0 < b) : 0 < moffatAlpha f b := by
  unfold moffatAlpha
  have : (1 : ℝ) < 2 ^ (1 / b) := Real.one_lt_rpow (by norm_num) (by positivity)
  have : 0 < Real.sqrt (2 ^ (1 / b) - 1) := Real.sqrt_pos.2 (by linarith)
  positivity

theorem EFun.subScale_pos (F : EFun) {ph : Phys} (h1 : 0 < ph.size) (h2 : 0 < ph.shape) : 0 < F.subScale ph := by
  cases F <;> first | exact h1 | exact moffatAlpha_pos h1 h2

/-- Every function object, set up with parameters of the physical range, has the documented geometry, profile and sub-sampling rule. -/
theorem setup_isEll (F : EFun) (doSub : Bool) (ps rot is : ℝ) (hps : 0 < ps) (ph : Phys) (hell : ph.ell < 1) (hsize : 0 < ph.size) (hshape : 0 < ph.shape)
    (pre post : List XR) (x0 y0 : ℝ) :
    ∃ f, F.setup doSub ⟨fin ps, fin rot, fin is⟩ (pre ++ F.params ph ++ post) pre.length (fin x0) (fin y0) = .ok f ∧
      IsEll f x0 y0 (1 - ph.ell) (ph.inImage ps rot is).angle (F.spec (ph.inImage ps rot is)) ∧
      f.nsub = galfitSub doSub F.subNum F.subThresh (fin (F.subScale (ph.inImage ps rot is))) := by
  have hs : ph.size * ps ≠ 0 := by positivity
  have hq : 1 - ph.ell ≠ 0 := by linarith
  have r0 : ∀ l : List XR, ∀ a, l[0]? = some a → rd (pre ++ l ++ post) pre.length = .ok a := fun l a h => rd_mid pre l post 0 a h
  cases F with
  | exponential =>
    refine ⟨exponentialSetup doSub ⟨fin ps, fin rot, fin is⟩ (fin ph.pa) (fin ph.ell) (fin ph.amp) (fin ph.size) (fin x0) (fin y0), ?_, ⟨?_, hq, ?_⟩, ?_⟩
    · simp only [EFun.setup, EFun.params]
      rw [r0 _ _ rfl, rd_mid _ _ _ 1 _ rfl, rd_mid _ _ _ 2 _ rfl, rd_mid _ _ _ 3 _ rfl]
      rfl
    · exact setupGeo_fin ps rot is _ _ _ _
    · intro r hr
      simp only [exponentialSetup, fin_mul, fin_neg, fin_div_of_ne hs, fexp_fin, EFun.spec, expProfile, Phys.inImage]
      rw [neg_div]
    · rfl
  | gaussian =>
    refine ⟨gaussianSetup doSub ⟨fin ps, fin rot, fin is⟩ (fin ph.pa) (fin ph.ell) (fin ph.amp) (fin ph.size) (fin x0) (fin y0), ?_, ⟨?_, hq, ?_⟩, ?_⟩
    · simp only [EFun.setup, EFun.params]
      rw [r0 _ _ rfl, rd_mid _ _ _ 1 _ rfl, rd_mid _ _ _ 2 _ rfl, rd_mid _ _ _ 3 _ rfl]
      rfl
    · exact setupGeo_fin ps rot is _ _ _ _
    · intro r hr
      simp only [gaussianSetup, lit_def, fin_mul, fin_neg]
      rw [fin_div_of_ne (by push_cast; positivity)]
      simp only [fexp_fin, fin_mul, EFun.spec, gaussProfile, Phys.inImage]
      rw [neg_div]
      push_cast
      congr 4
      ring
    · rfl
  | sersic =>
    refine ⟨sersicSetup doSub ⟨fin ps, fin rot, fin is⟩ (fin ph.pa) (fin ph.ell) (fin ph.shape) (fin ph.amp) (fin ph.size) (fin x0) (fin y0), ?_, ⟨?_, hq, ?_⟩, ?_⟩
    · simp only [EFun.setup, EFun.params]
      rw [r0 _ _ rfl, rd_mid _ _ _ 1 _ rfl, rd_mid _ _ _ 2 _ rfl, rd_mid _ _ _ 3 _ rfl, rd_mid _ _ _ 4 _ rfl]
      rfl
    · exact setupGeo_fin ps rot is _ _ _ _
    · intro r hr
      simp only [sersicSetup, fin_mul, bn_fin hshape, one_def, fin_neg]
      rw [fin_div_of_ne hs, fin_div_of_ne hshape.ne', fpow_nonneg (by positivity) (by positivity)]
      simp only [fin_sub, fin_mul, fexp_fin, EFun.spec, sersicProfile, Phys.inImage]
      rw [neg_mul]
    · rfl
  | moffat =>
    have hα := moffatAlpha_pos (f := ph.size * ps) (b := ph.shape) (by positivity) hshape
    have h2 : (1 : ℝ) < 2 ^ (1 / ph.shape) := Real.one_lt_rpow (by norm_num) (by positivity)
    have hsq : 0 < Real.sqrt (2 ^ (1 / ph.shape) - 1) := Real.sqrt_pos.2 (by linarith)
    have hal : (lit (1 / 2) * (fin ph.size * fin ps) / fsqrt (fpow (lit 2) (1 / fin ph.shape) - 1) : XR) = fin (moffatAlpha (ph.size * ps) ph.shape) := by
      simp only [lit_def, one_def, fin_mul]
      rw [fin_div_of_ne hshape.ne', show (((2 : ℚ)) : ℝ) = 2 by norm_num, fpow_pos (by norm_num), fin_sub, fsqrt_fin_of_nonneg (by linarith),
        fin_div_of_ne hsq.ne']
      unfold moffatAlpha
      push_cast
      congr 1
      ring
    refine ⟨moffatSetup doSub ⟨fin ps, fin rot, fin is⟩ (fin ph.pa) (fin ph.ell) (fin ph.amp) (fin ph.size) (fin ph.shape) (fin x0) (fin y0), ?_, ⟨?_, hq, ?_⟩, ?_⟩
    · simp only [EFun.setup, EFun.params]
      rw [r0 _ _ rfl, rd_mid _ _ _ 1 _ rfl, rd_mid _ _ _ 2 _ rfl, rd_mid _ _ _ 3 _ rfl, rd_mid _ _ _ 4 _ rfl]
      rfl
    · exact setupGeo_fin ps rot is _ _ _ _
    · intro r hr
      have hpos : 0 < 1 + r / moffatAlpha (ph.size * ps) ph.shape * (r / moffatAlpha (ph.size * ps) ph.shape) := by
        have := mul_self_nonneg (r / moffatAlpha (ph.size * ps) ph.shape)
        linarith
      simp only [moffatSetup, hal]
      simp only [fin_div_of_ne hα.ne', one_def, fin_mul, fin_add]
      rw [fpow_pos hpos, fin_div_of_ne (Real.rpow_pos_of_pos hpos _).ne']
      simp only [EFun.spec, moffatProfile, Phys.inImage, sq]
    · show galfitSub doSub 40 3 _ = _
      rw [hal]
      rfl

end Imfit
