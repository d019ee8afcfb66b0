import Verif.Props.C85

/-!
# C86: a disk with a ring, relative amplitudes

`N4608Disk` is the sum of a broken exponential and a ring whose amplitudes are given relative to the central intensity of the disk.
-/

namespace Imfit

open Spec XR

/-- The parameters of `N4608Disk` in the order of their labels. -/
structure Spec.RingedDisk where
  pa : ℝ
  ell : ℝ
  i0 : ℝ
  h1 : ℝ
  h2 : ℝ
  rBreak : ℝ
  alpha : ℝ
  paRing : ℝ
  ellRing : ℝ
  aMaj : ℝ
  aMin : ℝ
  rRing : ℝ
  sigma : ℝ

def Spec.RingedDisk.disk (D : RingedDisk) : List ℝ := [D.pa, D.ell, D.i0, D.h1, D.h2, D.rBreak, D.alpha]

def Spec.RingedDisk.params (D : RingedDisk) : List ℝ := D.disk ++ [D.paRing, D.ellRing, D.aMaj, D.aMin, D.rRing, D.sigma]

/-- Direction of the major axis of the ring. -/
noncomputable def Spec.RingedDisk.axis (D : RingedDisk) : ℝ := (D.paRing + 90) * degree

/-- The documented light of the ring: amplitudes `A_maj` and `A_min` are relative to `I_0`. -/
noncomputable def Spec.RingedDisk.ring (D : RingedDisk) (ρ δ : ℝ) : ℝ :=
  D.i0 * (D.aMaj * Real.cos δ ^ 2 + D.aMin * Real.sin δ ^ 2) * bell D.rRing D.sigma (ellDist (1 - D.ellRing) (ρ * Real.cos δ) (ρ * Real.sin δ))

/-- What the function computes: the broken exponential, plus a ring whose relative amplitude on the minor axis is `A_min · I_0`. -/
theorem C86_value (D : RingedDisk) (he : D.ellRing < 1) (hσ : D.sigma ≠ 0) (doSub : Bool) (pre post : List XR) (x0 y0 b : ℝ) {ρ : ℝ} (hρ : 0 < ρ) (δ : ℝ)
    (hb : (PFun.brokenExp : PFun XR).value doSub defaultDesc (D.disk.map fin) 0 (fin x0) (fin y0) (fin (x0 + ρ * Real.cos (D.axis + δ)))
      (fin (y0 + ρ * Real.sin (D.axis + δ))) = .ok (fin b)) :
    n4608Value doSub (pre ++ D.params.map fin ++ post) pre.length (fin x0) (fin y0) (fin (x0 + ρ * Real.cos (D.axis + δ))) (fin (y0 + ρ * Real.sin (D.axis + δ))) =
      .ok (fin (b + D.aMaj * D.i0 * (Real.cos δ ^ 2 + D.aMin * D.i0 * Real.sin δ ^ 2) *
        bell D.rRing D.sigma (ellDist (1 - D.ellRing) (ρ * Real.cos δ) (ρ * Real.sin δ)))) := by
  have h : ∀ (i : ℕ) (v : XR), (D.params.map fin)[i]? = some v → rd (pre ++ D.params.map fin ++ post) (i + pre.length) = .ok v := by
    intro i v hv
    rw [Nat.add_comm]
    exact rd_mid pre _ post i v hv
  have hd : (defaultDesc : ImgDesc XR) = ⟨fin 1, fin 0, fin 1⟩ := rfl
  have hsplit : pre ++ D.params.map fin ++ post = pre ++ D.disk.map fin ++ (([D.paRing, D.ellRing, D.aMaj, D.aMin, D.rRing, D.sigma] : List ℝ).map fin ++ post) := by
    unfold RingedDisk.params
    simp
  have hs : (PFun.brokenExp : PFun XR).setup doSub defaultDesc (pre ++ D.params.map fin ++ post) pre.length (fin x0) (fin y0) =
      (PFun.brokenExp : PFun XR).setup doSub defaultDesc (D.disk.map fin) 0 (fin x0) (fin y0) := by
    rw [hsplit, setup_reads _ _ _ pre (D.disk.map fin) _ rfl]
    have := setup_reads (PFun.brokenExp : PFun XR) doSub defaultDesc [] (D.disk.map fin) [] rfl (fin x0) (fin y0)
    simpa using this.symm
  have hr := C85_value ⟨D.paRing, D.ellRing, D.aMaj * D.i0, D.aMin * D.i0, D.rRing, D.sigma⟩ ⟨he, hσ⟩ one_pos 0 1 x0 y0 [] [] hρ δ
  simp only [one_mul, zero_mul, sub_zero, List.nil_append, List.append_nil] at hr
  unfold n4608Value
  rw [h 2 _ rfl, h 7 _ rfl, h 8 _ rfl, h 9 _ rfl, h 10 _ rfl, h 11 _ rfl, h 12 _ rfl]
  simp only [ok_bind, hs]
  unfold PFun.value at hb
  cases hf : (PFun.brokenExp : PFun XR).setup doSub defaultDesc (D.disk.map fin) 0 (fin x0) (fin y0) with
  | error e => rw [hf] at hb; cases hb
  | ok f =>
    rw [hf, ok_bind] at hb
    unfold ringAzAt at hr
    cases hg : ringAzSetup defaultDesc [fin D.paRing, fin D.ellRing, fin D.aMaj * fin D.i0, fin D.aMin * fin D.i0, fin D.rRing, fin D.sigma] 0 (fin x0) (fin y0) with
    | error e =>
      have hr' : ringAzSetup ⟨fin 1, fin 0, fin 1⟩ (AzRing.params ⟨D.paRing, D.ellRing, D.aMaj * D.i0, D.aMin * D.i0, D.rRing, D.sigma⟩ |>.map fin) 0 (fin x0) (fin y0) =
          .error e := hg
      have hr2 := hr
      simp only [List.length_nil] at hr2
      rw [hr'] at hr2
      cases hr2
    | ok g =>
      have hr' : ringAzSetup ⟨fin 1, fin 0, fin 1⟩ (AzRing.params ⟨D.paRing, D.ellRing, D.aMaj * D.i0, D.aMin * D.i0, D.rRing, D.sigma⟩ |>.map fin) 0 (fin x0) (fin y0) =
          .ok g := hg
      have hr2 := hr
      simp only [List.length_nil] at hr2
      rw [hr', ok_bind, pure_eq_ok] at hr2
      injection hr2 with hr2
      have ha : AzRing.axis ⟨D.paRing, D.ellRing, D.aMaj * D.i0, D.aMin * D.i0, D.rRing, D.sigma⟩ = D.axis := rfl
      rw [ha] at hr2
      rw [ok_bind, ok_bind, hb, ok_bind, hr2, fin_add, pure_eq_ok]
      rfl

/-- C86 on the major axis of the ring, or without light on the minor axis, or if `A_maj · I_0 = 1`. Missing: all other points, see `C86_minor_false`. -/
theorem C86_partial (D : RingedDisk) (he : D.ellRing < 1) (hσ : D.sigma ≠ 0) (doSub : Bool) (pre post : List XR) (x0 y0 b : ℝ) {ρ : ℝ} (hρ : 0 < ρ) (δ : ℝ)
    (hb : (PFun.brokenExp : PFun XR).value doSub defaultDesc (D.disk.map fin) 0 (fin x0) (fin y0) (fin (x0 + ρ * Real.cos (D.axis + δ)))
      (fin (y0 + ρ * Real.sin (D.axis + δ))) = .ok (fin b))
    (h : Real.sin δ = 0 ∨ D.aMin = 0 ∨ D.aMaj * D.i0 = 1) :
    n4608Value doSub (pre ++ D.params.map fin ++ post) pre.length (fin x0) (fin y0) (fin (x0 + ρ * Real.cos (D.axis + δ))) (fin (y0 + ρ * Real.sin (D.axis + δ))) =
      .ok (fin (b + D.ring ρ δ)) := by
  rw [C86_value D he hσ doSub pre post x0 y0 b hρ δ hb]
  congr 2
  unfold RingedDisk.ring
  rcases h with h | h | h
  · rw [h]; ring
  · rw [h]; ring
  · rw [h]
    congr 2
    linear_combination Real.cos δ ^ 2 * (-h)

/-- Everywhere else the light of the ring is wrong: the amplitude on the minor axis is multiplied by `A_maj · I_0` once more. -/
theorem C86_minor_false (D : RingedDisk) (he : D.ellRing < 1) (hσ : D.sigma ≠ 0) (doSub : Bool) (pre post : List XR) (x0 y0 b : ℝ) {ρ : ℝ} (hρ : 0 < ρ) (δ : ℝ)
    (hb : (PFun.brokenExp : PFun XR).value doSub defaultDesc (D.disk.map fin) 0 (fin x0) (fin y0) (fin (x0 + ρ * Real.cos (D.axis + δ)))
      (fin (y0 + ρ * Real.sin (D.axis + δ))) = .ok (fin b))
    (hi : D.i0 ≠ 0) (h1 : Real.sin δ ≠ 0) (h2 : D.aMin ≠ 0) (h3 : D.aMaj * D.i0 ≠ 1) :
    n4608Value doSub (pre ++ D.params.map fin ++ post) pre.length (fin x0) (fin y0) (fin (x0 + ρ * Real.cos (D.axis + δ))) (fin (y0 + ρ * Real.sin (D.axis + δ))) ≠
      .ok (fin (b + D.ring ρ δ)) := by
  rw [C86_value D he hσ doSub pre post x0 y0 b hρ δ hb]
  intro e
  injection e with e
  injection e with e
  unfold RingedDisk.ring at e
  have hB : bell D.rRing D.sigma (ellDist (1 - D.ellRing) (ρ * Real.cos δ) (ρ * Real.sin δ)) ≠ 0 := (Real.exp_pos _).ne'
  have e' := mul_right_cancel₀ hB (add_left_cancel e)
  have : D.i0 * D.aMin * Real.sin δ ^ 2 * (D.aMaj * D.i0 - 1) = 0 := by linear_combination e'
  rcases mul_eq_zero.1 this with h | h
  · exact mul_ne_zero (mul_ne_zero hi h2) (pow_ne_zero 2 h1) h
  · exact h3 (by linarith)

/-- The value of the broken exponential without subsampling. -/
theorem brokenExp_plain {pa ell i0 h1 h2 rb a : ℝ} (he : ell < 1) (hh1 : h1 ≠ 0) (hh2 : h2 ≠ 0) (ha : a ≠ 0) (x0 y0 x y : ℝ) :
    (PFun.brokenExp : PFun XR).value false defaultDesc (([pa, ell, i0, h1, h2, rb, a] : List ℝ).map fin) 0 (fin x0) (fin y0) (fin x) (fin y) =
      .ok (fin (brokenCode i0 h1 h2 rb a (ellDist (1 - ell) (along ((pa + 90) * degree) (x - x0) (y - y0)) (across ((pa + 90) * degree) (x - x0) (y - y0))))) := by
  have hq : 0 < 1 - ell := by linarith
  have hs := setup_reads (PFun.brokenExp : PFun XR) false defaultDesc [] (([pa, ell, i0, h1, h2, rb, a] : List ℝ).map fin) [] rfl (fin x0) (fin y0)
  rw [List.nil_append, List.append_nil, List.length_nil] at hs
  unfold PFun.value
  rw [hs]
  have hp := planeFn_isPlane (pa - 0) x0 y0 (fun u v => galfitSub false 20 3 (fin h1 * fin 1) (ellR (1 - fin ell) u v))
    (fun u v => brokenProfile (fin i0 * fin 1) (fin h1 * fin 1) (fin h2 * fin 1) (fin rb * fin 1) (fin a / fin 1) (ellR (1 - fin ell) u v))
    (fun u v => brokenCode i0 h1 h2 rb a (ellDist (1 - ell) u v)) ?_
  · have := planeValue_fin hp x y 1 rfl
    rw [if_neg (by norm_num)] at this
    rw [show ((pa + 90) * degree : ℝ) = (pa - 0 + 90) * degree by rw [sub_zero], ← this]
    rfl
  · intro u v
    beta_reduce
    rw [one_def, fin_sub, ellR_fin hq, fin_mul, fin_mul, fin_mul, fin_mul, fin_div_of_ne one_ne_zero, mul_one, mul_one, mul_one, mul_one, div_one,
      brokenProfile_fin hh1 hh2 ha]

theorem brokenCode_linear (c i0 h1 h2 rb a r : ℝ) : brokenCode (c * i0) h1 h2 rb a r = c * brokenCode i0 h1 h2 rb a r := by
  unfold brokenCode brokenI
  split_ifs <;> ring

/-- The component is not proportional to its central intensity, although all other intensities are relative to it: off the major axis, multiplying `I_0` by `c` does
not multiply the value by `c`. -/
theorem C86_scale_false (D : RingedDisk) (he : D.ell < 1) (hh1 : D.h1 ≠ 0) (hh2 : D.h2 ≠ 0) (ha : D.alpha ≠ 0) (her : D.ellRing < 1) (hσ : D.sigma ≠ 0)
    (hi : D.i0 ≠ 0) (hmaj : D.aMaj ≠ 0) (hmin : D.aMin ≠ 0) {c : ℝ} (hc0 : c ≠ 0) (hc1 : c ≠ 1) (pre post : List XR) (x0 y0 : ℝ) {ρ : ℝ} (hρ : 0 < ρ) {δ : ℝ}
    (hδ : Real.sin δ ≠ 0) :
    ∃ v w : ℝ,
      n4608Value false (pre ++ D.params.map fin ++ post) pre.length (fin x0) (fin y0) (fin (x0 + ρ * Real.cos (D.axis + δ))) (fin (y0 + ρ * Real.sin (D.axis + δ))) =
        .ok (fin v) ∧
      n4608Value false (pre ++ ({ D with i0 := c * D.i0 } : RingedDisk).params.map fin ++ post) pre.length (fin x0) (fin y0) (fin (x0 + ρ * Real.cos (D.axis + δ)))
        (fin (y0 + ρ * Real.sin (D.axis + δ))) = .ok (fin w) ∧ w ≠ c * v := by
  refine ⟨_, _, C86_value D her hσ false pre post x0 y0 _ hρ δ (brokenExp_plain he hh1 hh2 ha _ _ _ _),
    C86_value { D with i0 := c * D.i0 } her hσ false pre post x0 y0 _ hρ δ (brokenExp_plain he hh1 hh2 ha _ _ _ _), ?_⟩
  dsimp only
  rw [brokenCode_linear, show RingedDisk.axis { D with i0 := c * D.i0 } = D.axis from rfl]
  intro e
  set B := bell D.rRing D.sigma (ellDist (1 - D.ellRing) (ρ * Real.cos δ) (ρ * Real.sin δ))
  have hB : B ≠ 0 := (Real.exp_pos _).ne'
  have : c * (c - 1) * (D.aMaj * D.i0 * (D.aMin * D.i0)) * Real.sin δ ^ 2 * B = 0 := by linear_combination e
  have h1 : c - 1 ≠ 0 := sub_ne_zero.2 hc1
  exact mul_ne_zero (mul_ne_zero (mul_ne_zero (mul_ne_zero hc0 h1) (mul_ne_zero (mul_ne_zero hmaj hi) (mul_ne_zero hmin hi))) (pow_ne_zero 2 hδ)) hB this

/-- A disk of central intensity 100 with a ring of relative amplitudes 1/10 and 1/20. -/
example : ∃ v w : ℝ,
    n4608Value false (([0, 0, 100, 10, 5, 20, 1, 0, 0, 1 / 10, 1 / 20, 15, 2] : List ℝ).map fin) 0 (fin 30) (fin 30) (fin (30 + 15 * Real.cos (90 * degree + Real.pi / 2)))
      (fin (30 + 15 * Real.sin (90 * degree + Real.pi / 2))) = .ok (fin v) ∧
    n4608Value false (([0, 0, 200, 10, 5, 20, 1, 0, 0, 1 / 10, 1 / 20, 15, 2] : List ℝ).map fin) 0 (fin 30) (fin 30) (fin (30 + 15 * Real.cos (90 * degree + Real.pi / 2)))
      (fin (30 + 15 * Real.sin (90 * degree + Real.pi / 2))) = .ok (fin w) ∧ w ≠ 2 * v := by
  have h := C86_scale_false ⟨0, 0, 100, 10, 5, 20, 1, 0, 0, 1 / 10, 1 / 20, 15, 2⟩ (by norm_num) (by norm_num) (by norm_num) (by norm_num) (by norm_num) (by norm_num)
    (by norm_num) (by norm_num) (by norm_num) (c := 2) (by norm_num) (by norm_num) [] [] 30 30 (ρ := 15) (by norm_num) (δ := Real.pi / 2) (by simp)
  have ha : RingedDisk.axis ⟨0, 0, 100, 10, 5, 20, 1, 0, 0, 1 / 10, 1 / 20, 15, 2⟩ = 90 * degree := by simp [RingedDisk.axis]
  rw [ha, show (2 : ℝ) * 100 = 200 by norm_num] at h
  simpa [RingedDisk.params, RingedDisk.disk] using h

end Imfit
