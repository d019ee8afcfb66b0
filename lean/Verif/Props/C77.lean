import Verif.Props.C76
import Verif.Props.C53

/-!
# C77 — symmetry, linearity and positivity of three-dimensional components; their appearance in other images (C53)
-/

namespace Imfit

open Spec XR MeasureTheory

/-- The opposite point. -/
def Spec.Body.opposite (P : Body) : Body := ⟨-P.x, -P.y, -P.z⟩

theorem along_opposite (φ x y : ℝ) : along φ (-x) (-y) = -along φ x y := by unfold along; ring
theorem across_opposite (φ x y : ℝ) : across φ (-x) (-y) = -across φ x y := by unfold across; ring
theorem ellDist_neg (q u v : ℝ) : ellDist q (-u) (-v) = ellDist q u v := by rw [ellDist_neg_left, ellDist_neg_right]
theorem bumps_neg (r σ u v : ℝ) : bumps r σ (-u) (-v) = bumps r σ u v := by
  unfold bumps bell
  rw [add_comm]
  congr 2 <;> (congr 1; ring)
theorem ellipsoid_opposite (φ q qz : ℝ) (P : Body) : ellipsoid φ q qz P.opposite = ellipsoid φ q qz P := by
  unfold ellipsoid Body.opposite
  simp only [along_opposite, across_opposite, neg_div, neg_sq]

/-- Every density is the same at opposite points. -/
theorem coded_opposite (F : LFun) (p : List ℝ) (P : Body) : F.coded p P.opposite = F.coded p P := by
  unfold LFun.coded
  split
  · simp only [Body.opposite, neg_sq, abs_neg]
  · simp only [Body.opposite, neg_sq, abs_neg]
  · simp only [ringJ, Body.opposite, along_opposite, across_opposite, ellDist_neg, abs_neg]
  · unfold ferrersJ; rw [ellipsoid_opposite]
  · simp only [peanutJ, Body.opposite, along_opposite, across_opposite, abs_neg, bumps_neg]
  · unfold triaxJ; rw [ellipsoid_opposite]
  · simp only [Body.opposite, along_opposite, across_opposite, ellDist_neg, abs_neg, neg_div, bumps_neg]
  · rfl

theorem ray_opposite (F : LFun) (p : List ℝ) (θ i dx dy s : ℝ) : ray (F.coded p) θ i (-dx) (-dy) s = ray (F.coded p) θ i dx dy (-s) := by
  have e : sightline θ i (-dx) (-dy) s = (sightline θ i dx dy (-s)).opposite := by
    unfold sightline Body.opposite
    simp only [along_opposite, across_opposite]
    congr 1 <;> ring
  show F.coded p (sightline θ i (-dx) (-dy) s) = F.coded p (sightline θ i dx dy (-s))
  rw [e, coded_opposite]

/-- The value with an exact integrator. -/
theorem los_value_zero {integ : (XR → XR) → XR → XR → XR} (hi : Integrates 0 integ) (F : LFun) (p : List ℝ) (hp : F.Physical p) (hs : F.Shines (F.named p))
    (pre post : List XR) (x0 y0 x y : ℝ) :
    F.value integ defaultDesc (pre ++ p.map fin ++ post) pre.length (fin x0) (fin y0) (fin x) (fin y) =
      .ok (fin (∫ s in (-F.range p)..F.range p, ray (F.coded p) (nodes p) (tilt p) (x - x0) (y - y0) s)) := by
  obtain ⟨v, hv, hb⟩ := los_value hi F p hp hs pre post x0 y0 x y
  rw [zero_mul] at hb
  rw [hv, show v = _ from sub_eq_zero.1 (abs_nonpos_iff.1 hb)]

/-- C77: the image of a three-dimensional component is the same at opposite offsets from its centre. -/
theorem C77_point_symmetry {integ : (XR → XR) → XR → XR → XR} (hi : Integrates 0 integ) (F : LFun) (p : List ℝ) (hp : F.Physical p) (hs : F.Shines (F.named p))
    (pre post : List XR) (x0 y0 dx dy : ℝ) :
    F.value integ defaultDesc (pre ++ p.map fin ++ post) pre.length (fin x0) (fin y0) (fin (x0 - dx)) (fin (y0 - dy)) =
      F.value integ defaultDesc (pre ++ p.map fin ++ post) pre.length (fin x0) (fin y0) (fin (x0 + dx)) (fin (y0 + dy)) := by
  rw [los_value_zero hi F p hp hs, los_value_zero hi F p hp hs]
  simp only [add_sub_cancel_left, sub_sub_cancel_left, ray_opposite]
  rw [intervalIntegral.integral_comp_neg (fun s => ray (F.coded p) (nodes p) (tilt p) dx dy s), neg_neg]

/-- A peanut. -/
example : LFun.peanut.value exactInteg defaultDesc ([] ++ [(30 : ℝ), 60, 20, 100, 10, 1 / 2, 1 / 3, 5, 1, 2, 2, 3].map fin ++ []) 0 (fin 5) (fin 5) (fin (5 - 1)) (fin (5 - 2)) =
    LFun.peanut.value exactInteg defaultDesc ([] ++ [(30 : ℝ), 60, 20, 100, 10, 1 / 2, 1 / 3, 5, 1, 2, 2, 3].map fin ++ []) 0 (fin 5) (fin 5) (fin (5 + 1)) (fin (5 + 2)) :=
  C77_point_symmetry exactInteg_integrates .peanut [30, 60, 20, 100, 10, 1 / 2, 1 / 3, 5, 1, 2, 2, 3] ⟨by norm_num, by norm_num, by norm_num, by norm_num, by norm_num, by norm_num, by norm_num⟩ trivial [] [] 5 5 1 2

/-- The parameters of an object whose luminosity densities are `c` times as large. -/
def LFun.brighter (c : ℝ) : LFun → List ℝ → List ℝ
  | .expDisk, [pa, inc, j, h, n, z0] => [pa, inc, c * j, h, n, z0]
  | .brokenDisk, [pa, inc, j, h1, h2, rb, a, n, z0] => [pa, inc, c * j, h1, h2, rb, a, n, z0]
  | .ring, [pa, inc, rpa, ell, j, a, σ, hz] => [pa, inc, rpa, ell, c * j, a, σ, hz]
  | .ferrers, [pa, inc, bpa, j, r, q, qz, n] => [pa, inc, bpa, c * j, r, q, qz, n]
  | .peanut, [pa, inc, psi, j, rx, q, qz, rp, ap, sp, cpar, cperp] => [pa, inc, psi, c * j, rx, q, qz, rp, ap, sp, cpar, cperp]
  | .triax, [pa, inc, bpa, j, σ, q, qz] => [pa, inc, bpa, c * j, σ, q, qz]
  | .bpBar, [pa, inc, bpa, z0, ello, jo, h1, h2, rb, a, ellb, jb, p12, p13, p14, σ] => [pa, inc, bpa, z0, ello, c * jo, h1, h2, rb, a, ellb, c * jb, p12, p13, p14, σ]
  | _, p => p

theorem brokenCode_mul (c amp h1 h2 rb a r : ℝ) : brokenCode (c * amp) h1 h2 rb a r = c * brokenCode amp h1 h2 rb a r := by
  unfold brokenCode brokenI
  split <;> ring

theorem brighter_spec (F : LFun) (p : List ℝ) (hp : F.Physical p) (c : ℝ) : F.Physical (F.brighter c p) ∧ nodes (F.brighter c p) = nodes p ∧
    tilt (F.brighter c p) = tilt p ∧ F.range (F.brighter c p) = F.range p ∧ ∀ P, F.coded (F.brighter c p) P = c * F.coded p P := by
  unfold LFun.Physical at hp
  split at hp
  · exact ⟨hp, rfl, rfl, rfl, fun P => by simp only [LFun.brighter, LFun.coded]; ring⟩
  · exact ⟨hp, rfl, rfl, rfl, fun P => by simp only [LFun.brighter, LFun.coded, brokenCode_mul]; ring⟩
  · exact ⟨hp, rfl, rfl, rfl, fun P => by simp only [LFun.brighter, LFun.coded, ringJ]; ring⟩
  · exact ⟨hp, rfl, rfl, rfl, fun P => by simp only [LFun.brighter, LFun.coded, ferrersJ]; split <;> ring⟩
  · exact ⟨hp, rfl, rfl, rfl, fun P => by simp only [LFun.brighter, LFun.coded, peanutJ]; ring⟩
  · exact ⟨hp, rfl, rfl, rfl, fun P => by simp only [LFun.brighter, LFun.coded, triaxJ]; ring⟩
  · exact ⟨hp, rfl, rfl, rfl, fun P => by simp only [LFun.brighter, LFun.coded, brokenCode_mul]; ring⟩
  · exact hp.elim

theorem brighter_shines (F : LFun) (p : List ℝ) (hp : F.Physical p) (hs : F.Shines (F.named p)) (c : ℝ) (hc : 0 ≤ c) : F.Shines (F.named (F.brighter c p)) := by
  unfold LFun.Physical at hp
  split at hp <;> first | exact hp.elim | trivial | exact ⟨mul_nonneg hc hs.1, mul_nonneg hc hs.2⟩

/-- C77: the image is proportional to the luminosity density. -/
theorem C77_linear {integ : (XR → XR) → XR → XR → XR} (hi : Integrates 0 integ) (F : LFun) (p : List ℝ) (hp : F.Physical p) (hs : F.Shines (F.named p)) (c : ℝ)
    (hc : 0 ≤ c) (pre post pre' post' : List XR) (x0 y0 x y : ℝ) :
    ∃ v : ℝ, F.value integ defaultDesc (pre ++ p.map fin ++ post) pre.length (fin x0) (fin y0) (fin x) (fin y) = .ok (fin v) ∧
      F.value integ defaultDesc (pre' ++ (F.brighter c p).map fin ++ post') pre'.length (fin x0) (fin y0) (fin x) (fin y) = .ok (fin (c * v)) := by
  obtain ⟨h1, h2, h3, h4, h5⟩ := brighter_spec F p hp c
  refine ⟨_, los_value_zero hi F p hp hs pre post x0 y0 x y, ?_⟩
  rw [los_value_zero hi F _ h1 (brighter_shines F p hp hs c hc), h2, h3, h4, ← intervalIntegral.integral_const_mul]
  congr 3
  funext s
  exact h5 _

/-- A disk three times as bright. -/
example : ∃ v : ℝ, LFun.expDisk.value exactInteg defaultDesc ([] ++ [(30 : ℝ), 60, 100, 10, 2, 1].map fin ++ []) 0 (fin 5) (fin 5) (fin 7) (fin 8) = .ok (fin v) ∧
    LFun.expDisk.value exactInteg defaultDesc ([] ++ [(30 : ℝ), 60, 3 * 100, 10, 2, 1].map fin ++ []) 0 (fin 5) (fin 5) (fin 7) (fin 8) = .ok (fin (3 * v)) :=
  C77_linear exactInteg_integrates .expDisk [30, 60, 100, 10, 2, 1] ⟨by norm_num, by norm_num, by norm_num⟩ trivial 3 (by norm_num) [] [] [] [] 5 5 7 8

/-- The luminosity densities are not negative. -/
def LFun.Luminous (v : String → ℝ) : LFun → Prop
  | .peanut => 0 ≤ v "J0_bar"
  | .bpBar => 0 ≤ v "J_0_outer" ∧ 0 ≤ v "J_0_bp"
  | _ => 0 ≤ v "J_0"

theorem brokenCode_nonneg' {amp : ℝ} (h : 0 ≤ amp) (h1 h2 rb a r : ℝ) : 0 ≤ brokenCode amp h1 h2 rb a r := by
  unfold brokenCode brokenI
  have := one_add_exp_pos (-(a * rb))
  have := one_add_exp_pos (a * (r - rb))
  split <;> positivity

theorem sechCode_nonneg (n z0 z : ℝ) : 0 ≤ sechCode n z0 z := by
  unfold sechCode
  have := Real.cosh_pos (z / (2 / n * z0))
  split <;> positivity

theorem coded_nonneg (F : LFun) (p : List ℝ) (hp : F.Physical p) (hl : F.Luminous (F.named p)) (P : Body) : 0 ≤ F.coded p P := by
  unfold LFun.Physical at hp
  split at hp
  · exact mul_nonneg (mul_nonneg hl (Real.exp_pos _).le) (sechCode_nonneg _ _ _)
  · exact mul_nonneg (brokenCode_nonneg' hl _ _ _ _ _) (sechCode_nonneg _ _ _)
  · exact mul_nonneg (mul_nonneg hl (Real.exp_pos _).le) (Real.exp_pos _).le
  · simp only [LFun.coded, ferrersJ]
    split
    · exact le_rfl
    · rename_i h
      exact mul_nonneg hl (Real.rpow_nonneg (by linarith) _)
  · exact mul_nonneg hl (Real.rpow_nonneg (Real.cosh_pos _).le _)
  · exact mul_nonneg hl (Real.exp_pos _).le
  · exact add_nonneg (mul_nonneg (brokenCode_nonneg' hl.1 _ _ _ _ _) (Real.exp_pos _).le)
      (mul_nonneg (mul_nonneg (div_nonneg hl.2 (mul_nonneg hp.2.2.2.2.2.2.1.le (bumps_nonneg _ _ _ _))) (Real.exp_pos _).le) (Real.exp_pos _).le)
  · exact hp.elim

/-- C77: no pixel is negative. -/
theorem C77_nonneg {integ : (XR → XR) → XR → XR → XR} (hi : Integrates 0 integ) (F : LFun) (p : List ℝ) (hp : F.Physical p) (hl : F.Luminous (F.named p))
    (hL : 0 ≤ F.depth (F.named p)) (pre post : List XR) (x0 y0 x y : ℝ) :
    ∃ v : ℝ, F.value integ defaultDesc (pre ++ p.map fin ++ post) pre.length (fin x0) (fin y0) (fin x) (fin y) = .ok (fin v) ∧ 0 ≤ v := by
  have hs : F.Shines (F.named p) := by cases F <;> trivial
  refine ⟨_, los_value_zero hi F p hp hs pre post x0 y0 x y, ?_⟩
  rw [← (geometry_named F p hp).2.2] at hL
  exact intervalIntegral.integral_nonneg (by linarith) fun s _ => coded_nonneg F p hp hl _

/-- A broken disk. -/
example : ∃ v : ℝ, LFun.brokenDisk.value exactInteg defaultDesc ([fin 1] ++ [(30 : ℝ), 60, 100, 10, 5, 20, 1, 2, 1].map fin ++ []) 1 (fin 5) (fin 5) (fin 7) (fin 8) = .ok (fin v) ∧
    0 ≤ v :=
  C77_nonneg exactInteg_integrates .brokenDisk [30, 60, 100, 10, 5, 20, 1, 2, 1] ⟨by norm_num, by norm_num, by norm_num, by norm_num, by norm_num⟩
    (by show (0 : ℝ) ≤ 100; norm_num) (by show (0 : ℝ) ≤ max (20 * 20) (20 * 5); norm_num) [fin 1] [] 5 5 7 8

/-- C77: a disk seen face-on is circular. -/
theorem C77_face_on {integ : (XR → XR) → XR → XR → XR} (hi : Integrates 0 integ) (F : LFun) (hF : F = .expDisk ∨ F = .brokenDisk) (p : List ℝ) (hp : F.Physical p)
    (hinc : F.named p "inc" = 0) (pre post : List XR) (x0 y0 dx dy dx' dy' : ℝ) (hr : dx ^ 2 + dy ^ 2 = dx' ^ 2 + dy' ^ 2) :
    F.value integ defaultDesc (pre ++ p.map fin ++ post) pre.length (fin x0) (fin y0) (fin (x0 + dx)) (fin (y0 + dy)) =
      F.value integ defaultDesc (pre ++ p.map fin ++ post) pre.length (fin x0) (fin y0) (fin (x0 + dx')) (fin (y0 + dy')) := by
  have ho : F.orientation.2 = "inc" := by rcases hF with rfl | rfl <;> rfl
  have ht : tilt p = 0 := by rw [(geometry_named F p hp).2.1, ho, hinc, zero_mul]
  have hs : F.Shines (F.named p) := by rcases hF with rfl | rfl <;> trivial
  have hrad : ∀ a b : ℝ, along (nodes p) a b ^ 2 + across (nodes p) a b ^ 2 = a ^ 2 + b ^ 2 := by
    intro a b
    have e := Real.sin_sq_add_cos_sq (nodes p)
    unfold along across
    linear_combination (a ^ 2 + b ^ 2) * e
  have hray : ∀ s, ray (F.coded p) (nodes p) 0 dx dy s = ray (F.coded p) (nodes p) 0 dx' dy' s := by
    intro s
    unfold LFun.Physical at hp
    rcases hF with rfl | rfl
    · split at hp <;> rename_i heq <;> first | exact hp.elim | cases heq
      unfold ray
      simp only [LFun.coded, Real.cos_zero, Real.sin_zero, mul_one, mul_zero, add_zero, zero_sub]
      rw [hrad, hrad, hr]
    · split at hp <;> rename_i heq <;> first | exact hp.elim | cases heq
      unfold ray
      simp only [LFun.coded, Real.cos_zero, Real.sin_zero, mul_one, mul_zero, add_zero, zero_sub]
      rw [hrad, hrad, hr]
  rw [los_value_zero hi F p hp hs, los_value_zero hi F p hp hs, ht]
  simp only [add_sub_cancel_left, hray]

/-- A face-on disk, whatever the position angle. -/
example : LFun.expDisk.value exactInteg defaultDesc ([] ++ [(30 : ℝ), 0, 100, 10, 2, 1].map fin ++ []) 0 (fin 5) (fin 5) (fin (5 + 3)) (fin (5 + 4)) =
    LFun.expDisk.value exactInteg defaultDesc ([] ++ [(30 : ℝ), 0, 100, 10, 2, 1].map fin ++ []) 0 (fin 5) (fin 5) (fin (5 + 0)) (fin (5 + 5)) :=
  C77_face_on exactInteg_integrates .expDisk (Or.inl rfl) [30, 0, 100, 10, 2, 1] ⟨by norm_num, by norm_num, by norm_num⟩ rfl [] [] 5 5 3 4 0 5 (by norm_num)

end Imfit
