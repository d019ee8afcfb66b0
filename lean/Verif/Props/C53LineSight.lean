import Verif.Props.C77

/-!
# C53 — three-dimensional components in the images of a multi-image fit
-/

namespace Imfit

open Spec XR MeasureTheory

/-- The functions that convert all their parameters to the image. -/
def LFun.converts : LFun → Prop
  | .triax => False
  | .bpBar => False
  | _ => True

theorem adjust_physical (F : LFun) (p : List ℝ) (hp : F.Physical p) (t ρ k : ℝ) (ht : 0 < t) : F.Physical (F.adjust t ρ k p) := by
  unfold LFun.Physical at hp
  split at hp
  · exact ⟨mul_pos hp.1 ht, hp.2.1, mul_pos hp.2.2 ht⟩
  · exact ⟨mul_pos hp.1 ht, mul_pos hp.2.1 ht, div_pos hp.2.2.1 ht, hp.2.2.2.1, mul_pos hp.2.2.2.2 ht⟩
  · exact ⟨hp.1, mul_pos hp.2.1 ht, mul_pos hp.2.2 ht⟩
  · exact ⟨mul_pos hp.1 ht, hp.2⟩
  · exact ⟨mul_pos hp.1 ht, hp.2.1, hp.2.2.1, mul_nonneg hp.2.2.2.1 ht.le, mul_pos hp.2.2.2.2.1 ht, hp.2.2.2.2.2⟩
  · exact hp
  · obtain ⟨hz, hqo, hh1, hh2, ha, hqb, hzm, hhb, hσ⟩ := hp
    exact ⟨mul_pos hz ht, hqo, mul_pos hh1 ht, mul_pos hh2 ht, ha, hqb, mul_pos hzm ht, mul_pos hhb ht, mul_pos hσ ht⟩
  · exact hp.elim

theorem converts_shines (F : LFun) (hF : F.converts) (v : String → ℝ) : F.Shines v := by
  cases F <;> trivial

/-- The value of a pixel in any image. -/
theorem los_value_image {integ : (XR → XR) → XR → XR → XR} (hi : Integrates 0 integ) (F : LFun) (p : List ℝ) (hp : F.Physical p) (t ρ k : ℝ) (ht : 0 < t)
    (hs : F.Shines (F.named (F.adjust t ρ k p))) (pre post : List XR) (x0 y0 x y : ℝ) :
    F.value integ ⟨fin t, fin ρ, fin k⟩ (pre ++ p.map fin ++ post) pre.length (fin x0) (fin y0) (fin x) (fin y) =
      .ok (fin (∫ s in (-F.range (F.adjust t ρ k p))..F.range (F.adjust t ρ k p),
        ray (F.coded (F.adjust t ρ k p)) (nodes (F.adjust t ρ k p)) (tilt (F.adjust t ρ k p)) (x - x0) (y - y0) s)) := by
  obtain ⟨f, hf, hP⟩ := build_isLos F t ρ k ht p hp x0 y0
  obtain ⟨v, hv, hb⟩ := hi (f.integrand (f.start (fin x) (fin y))) _ (-F.range (F.adjust t ρ k p)) (F.range (F.adjust t ρ k p)) (integrand_fin hP x y)
    (coded_ray_integrable F _ (adjust_physical F p hp t ρ k ht) _ _ _ _ _ hs)
  rw [zero_mul] at hb
  unfold LFun.value
  rw [F.setup_reads _ pre (p.map fin) post (F.physical_length p hp), hf, ok_bind]
  unfold losValue
  rw [hP.hl, fin_neg, hv, show v = _ from sub_eq_zero.1 (abs_nonpos_iff.1 hb)]
  rfl

theorem bell_zero_scale {t : ℝ} (ht : 0 < t) (s r : ℝ) : bell 0 (s * t) (t * r) = bell 0 s r := by
  have := bell_scale ht 0 s r
  rwa [zero_mul] at this

theorem bumps_scale {t : ℝ} (ht : 0 < t) (r σ u v : ℝ) : bumps (r * t) (σ * t) (t * u) (t * v) = bumps r σ u v := by
  unfold bumps
  rw [bell_scale ht, bell_zero_scale ht, show -(r * t) = -r * t by ring, bell_scale ht]

theorem along_smul (φ t x y : ℝ) : along φ (t * x) (t * y) = t * along φ x y := by unfold along; ring
theorem across_smul (φ t x y : ℝ) : across φ (t * x) (t * y) = t * across φ x y := by unfold across; ring

theorem ellipsoid_smul (φ q qz t : ℝ) (P : Body) : ellipsoid φ q qz ⟨t * P.x, t * P.y, t * P.z⟩ = t ^ 2 * ellipsoid φ q qz P := by
  unfold ellipsoid
  simp only [along_smul, across_smul]
  ring

theorem sqrt_smul {t : ℝ} (ht : 0 < t) (a b : ℝ) : Real.sqrt ((t * a) ^ 2 + (t * b) ^ 2) = t * Real.sqrt (a ^ 2 + b ^ 2) := by
  rw [show (t * a) ^ 2 + (t * b) ^ 2 = t ^ 2 * (a ^ 2 + b ^ 2) by ring, Real.sqrt_mul (sq_nonneg t), Real.sqrt_sq ht.le]

/-- The density in units of the image. -/
theorem coded_scale (F : LFun) (hF : F.converts) (p : List ℝ) (hp : F.Physical p) (t ρ k : ℝ) (ht : 0 < t) (P : Body) :
    F.coded (F.adjust t ρ k p) ⟨t * P.x, t * P.y, t * P.z⟩ = k * F.coded p P := by
  have habs : ∀ a : ℝ, |t * a| = t * |a| := fun a => by rw [abs_mul, abs_of_pos ht]
  have hdiv : ∀ a b : ℝ, t * a / (b * t) = a / b := fun a b => by rw [mul_comm t a]; exact mul_div_mul_right _ _ ht.ne'
  unfold LFun.Physical at hp
  split at hp
  · simp only [LFun.adjust, LFun.coded, sqrt_smul ht, habs, hdiv, sechCode_scale ht]; ring
  · simp only [LFun.adjust, LFun.coded, sqrt_smul ht, habs, sechCode_scale ht, brokenCode_scale ht]; ring
  · simp only [LFun.adjust, LFun.coded, ringJ, along_smul, across_smul, ellDist_smul _ t _ _ ht.le, bell_scale ht, habs, hdiv]; ring
  · rename_i r q qz n
    simp only [LFun.adjust, LFun.coded, ferrersJ, ellipsoid_smul]
    rw [show ∀ e : ℝ, t ^ 2 * e / (r * t) ^ 2 = e / r ^ 2 from fun e => by rw [mul_pow, mul_comm (t ^ 2)]; exact mul_div_mul_right _ _ (by positivity)]
    split <;> ring
  · rename_i rx q qz rp ap sp cpar cperp
    simp only [LFun.adjust, LFun.coded, peanutJ, along_smul, across_smul, bumps_scale ht, habs]
    rw [show ∀ b : ℝ, ap * t * b + qz * (rx * t) = (ap * b + qz * rx) * t from fun b => by ring, show q * (rx * t) = q * rx * t by ring]
    simp only [hdiv]
    ring
  · exact hF.elim
  · exact hF.elim
  · exact hp.elim

theorem range_scale (F : LFun) (hF : F.converts) (p : List ℝ) (hp : F.Physical p) (t ρ k : ℝ) (ht : 0 < t) : F.range (F.adjust t ρ k p) = t * F.range p ∧
    tilt (F.adjust t ρ k p) = tilt p ∧ ∃ pa, nodes p = (pa + 90) * degree ∧ nodes (F.adjust t ρ k p) = (pa - ρ + 90) * degree := by
  unfold LFun.Physical at hp
  split at hp
  · exact ⟨by simp only [LFun.adjust, LFun.range]; ring, rfl, _, rfl, rfl⟩
  · refine ⟨?_, rfl, _, rfl, rfl⟩
    simp only [LFun.adjust, LFun.range]
    rw [mul_max_of_nonneg _ _ ht.le]
    congr 1 <;> ring
  · exact ⟨by simp only [LFun.adjust, LFun.range]; ring, rfl, _, rfl, rfl⟩
  · rename_i r q qz n
    refine ⟨?_, rfl, _, rfl, rfl⟩
    simp only [LFun.adjust, LFun.range]
    rw [show q * q * (r * t * (r * t)) = q * q * (r * r) * t ^ 2 by ring, Real.sqrt_mul' _ (sq_nonneg t), Real.sqrt_sq ht.le, mul_left_comm t, mul_max_of_nonneg _ _ ht.le]
    congr 2 <;> ring
  · exact ⟨by simp only [LFun.adjust, LFun.range]; ring, rfl, _, rfl, rfl⟩
  · exact hF.elim
  · exact hF.elim
  · exact hp.elim

/-- C53, partial: the three-dimensional functions that convert all their parameters show, at the place of an offset from the centre, the value of the reference image
times the intensity factor *and divided by the size of the pixels*: the depth of the object is measured in pixels of the image. Missing: that factor, see
`C53_depth_false`. -/
theorem C53_line_of_sight_partial {integ : (XR → XR) → XR → XR → XR} (hi : Integrates 0 integ) (F : LFun) (hF : F.converts) (p : List ℝ) (hp : F.Physical p) (s ρ κ : ℝ)
    (hs : 0 < s) (dx dy : ℝ) (pre post pre' post' : List XR) (x0 y0 X0 Y0 : ℝ) :
    ∃ v : ℝ, F.value integ defaultDesc (pre ++ p.map fin ++ post) pre.length (fin x0) (fin y0) (fin (x0 + dx)) (fin (y0 + dy)) = .ok (fin v) ∧
      F.value integ (setImageParameters (fin s) (fin ρ) (fin κ)) (pre' ++ p.map fin ++ post') pre'.length (fin X0) (fin Y0)
        (fin (X0 + (toImage s ρ dx dy).1)) (fin (Y0 + (toImage s ρ dx dy).2)) = .ok (fin (κ * v / s)) := by
  have ht : 0 < 1 / s := by positivity
  refine ⟨_, los_value_zero hi F p hp (converts_shines F hF _) pre post x0 y0 _ _, ?_⟩
  rw [setImage_fin hs, los_value_image hi F p hp (1 / s) ρ κ ht (converts_shines F hF _)]
  obtain ⟨h1, h2, pa, h3, h4⟩ := range_scale F hF p hp (1 / s) ρ κ ht
  rw [h1, h2, h3, h4]
  simp only [add_sub_cancel_left]
  congr 2
  rw [← mul_neg, ← intervalIntegral.mul_integral_comp_mul_left]
  have e : ∀ x, ray (F.coded (F.adjust (1 / s) ρ κ p)) ((pa - ρ + 90) * degree) (tilt p) (toImage s ρ dx dy).1 (toImage s ρ dx dy).2 (1 / s * x) =
      κ * ray (F.coded p) ((pa + 90) * degree) (tilt p) dx dy x := by
    intro x
    unfold ray
    rw [along_toImage, across_toImage, ← coded_scale F hF p hp (1 / s) ρ κ ht]
    congr 2 <;> ring
  simp only [e]
  rw [intervalIntegral.integral_const_mul]
  ring

/-- A ring in an image with pixels of half the size, rotated, in other units. -/
example : ∃ v : ℝ, LFun.ring.value exactInteg defaultDesc ([] ++ [(30 : ℝ), 60, 20, 1 / 2, 100, 10, 2, 1].map fin ++ []) 0 (fin 5) (fin 5) (fin (5 + 3)) (fin (5 + 4)) = .ok (fin v) ∧
    LFun.ring.value exactInteg (setImageParameters (fin (1 / 2)) (fin 30) (fin 3)) ([] ++ [(30 : ℝ), 60, 20, 1 / 2, 100, 10, 2, 1].map fin ++ []) 0 (fin 7) (fin 7)
      (fin (7 + (toImage (1 / 2) 30 3 4).1)) (fin (7 + (toImage (1 / 2) 30 3 4).2)) = .ok (fin (3 * v / (1 / 2))) :=
  C53_line_of_sight_partial exactInteg_integrates .ring trivial [30, 60, 20, 1 / 2, 100, 10, 2, 1] ⟨by norm_num, by norm_num, by norm_num⟩ (1 / 2) 30 3 (by norm_num) 3 4
    [] [] [] [] 5 5 7 7

/-- C53 is false of all the three-dimensional functions that convert their parameters: whenever the pixels have another size, every pixel that is not zero is wrong. -/
theorem C53_depth_false {integ : (XR → XR) → XR → XR → XR} (hi : Integrates 0 integ) (F : LFun) (hF : F.converts) (p : List ℝ) (hp : F.Physical p) (s ρ κ : ℝ)
    (hs : 0 < s) (hs1 : s ≠ 1) (hκ : κ ≠ 0) (dx dy x0 y0 X0 Y0 v : ℝ) (hv0 : v ≠ 0)
    (hv : F.value integ defaultDesc (p.map fin) 0 (fin x0) (fin y0) (fin (x0 + dx)) (fin (y0 + dy)) = .ok (fin v)) :
    F.value integ (setImageParameters (fin s) (fin ρ) (fin κ)) (p.map fin) 0 (fin X0) (fin Y0)
      (fin (X0 + (toImage s ρ dx dy).1)) (fin (Y0 + (toImage s ρ dx dy).2)) ≠ .ok (fin (κ * v)) := by
  obtain ⟨w, h1, h2⟩ := C53_line_of_sight_partial hi F hF p hp s ρ κ hs dx dy [] [] [] [] x0 y0 X0 Y0
  simp only [List.nil_append, List.append_nil, List.length_nil] at h1 h2
  rw [hv] at h1
  have e : v = w := by injection h1 with h; injection h
  rw [h2, ← e]
  intro h
  have h3 : κ * v / s = κ * v := by injection h with h; injection h
  rw [div_eq_iff hs.ne'] at h3
  have : κ * v * (s - 1) = 0 := by linarith
  rcases mul_eq_zero.1 this with h | h
  · exact mul_ne_zero hκ hv0 h
  · exact hs1 (by linarith)

/-- The centre of a disk is such a pixel. -/
example : ∃ v : ℝ, v ≠ 0 ∧ LFun.expDisk.value exactInteg defaultDesc ([(0 : ℝ), 0, 1, 1, 1, 1].map fin) 0 (fin 0) (fin 0) (fin 0) (fin 0) = .ok (fin v) := by
  have hp : LFun.expDisk.Physical [0, 0, 1, 1, 1, 1] := ⟨one_pos, one_pos, one_pos⟩
  have h := los_value_exact .expDisk _ hp trivial [] [] 0 0 0 0
  rw [List.nil_append, List.append_nil, List.length_nil] at h
  refine ⟨_, ?_, h⟩
  refine (intervalIntegral.intervalIntegral_pos_of_pos (coded_ray_integrable .expDisk _ hp _ _ _ _ _ trivial) (fun s => ?_) ?_).ne'
  · refine mul_pos (mul_pos one_pos (Real.exp_pos _)) ?_
    unfold sechCode
    have := fun x => Real.cosh_pos x
    split
    · positivity
    · exact Real.rpow_pos_of_pos (one_div_pos.2 (Real.cosh_pos _)) _
  · show -(20 * (1 : ℝ)) < 20 * 1
    norm_num

theorem triax_ignores (integ : (XR → XR) → XR → XR → XR) (p : List XR) (o : Nat) (d d' : ImgDesc XR) (x0 y0 x y : XR) :
    LFun.triax.value integ d p o x0 y0 x y = LFun.triax.value integ d' p o x0 y0 x y := by
  have : ∀ l : List XR, LFun.triax.build d x0 y0 l = LFun.triax.build d' x0 y0 l := by
    intro l
    unfold LFun.build
    split <;> rename_i heq <;> first | rfl | cases heq
  unfold LFun.value LFun.setup
  simp only [this]

/-- C53 is false of `TriaxBar3D`, which does not look at the image description: in an image whose intensities are twice as large, the centre has the same value. -/
theorem C53_triax_false : ∃ (p : List ℝ) (v : ℝ), LFun.triax.Physical p ∧ v ≠ 0 ∧
    LFun.triax.value exactInteg defaultDesc (p.map fin) 0 (fin 0) (fin 0) (fin 0) (fin 0) = .ok (fin v) ∧
    LFun.triax.value exactInteg (setImageParameters (fin 1) (fin 0) (fin 2)) (p.map fin) 0 (fin 0) (fin 0) (fin 0) (fin 0) = .ok (fin v) := by
  have hp : LFun.triax.Physical [0, 0, 0, 1, 1, 1, 1] := ⟨one_pos, one_pos, one_pos⟩
  have h := los_value_exact .triax _ hp trivial [] [] 0 0 0 0
  rw [List.nil_append, List.append_nil, List.length_nil] at h
  refine ⟨_, _, hp, ?_, h, by rw [← h]; exact triax_ignores _ _ _ _ _ _ _ _ _⟩
  refine (intervalIntegral.intervalIntegral_pos_of_pos (coded_ray_integrable .triax _ hp _ _ _ _ _ trivial) (fun s => ?_) ?_).ne'
  · show 0 < triaxJ _ 1 1 1 1 _
    unfold triaxJ
    positivity
  · show -(2 * (2 * (1 : ℝ) * 1)) < 2 * (2 * 1 * 1)
    norm_num

end Imfit
