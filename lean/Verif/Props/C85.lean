import Verif.Model.Rings
import Verif.Lemmas.Spiral
import Verif.Lemmas.FuncSetup
import Mathlib.Analysis.Real.Pi.Bounds

/-!
# C85: a ring whose brightness varies around it

`GaussianRingAz`: the peak intensity goes from `A_maj` on the major axis to `A_min_rel · A_maj` on the minor axis.
-/

namespace Imfit

open Spec XR

/-- The parameters of `GaussianRingAz` in the order of their labels. -/
structure Spec.AzRing where
  pa : ℝ
  ell : ℝ
  aMaj : ℝ
  aMinRel : ℝ
  radius : ℝ
  sigma : ℝ

def Spec.AzRing.params (A : AzRing) : List ℝ := [A.pa, A.ell, A.aMaj, A.aMinRel, A.radius, A.sigma]

/-- The ring is not edge-on and has a width. -/
structure Spec.AzRing.Ok (A : AzRing) : Prop where
  ell_lt : A.ell < 1
  sigma_ne : A.sigma ≠ 0

/-- Direction of the major axis, from the x axis. -/
noncomputable def Spec.AzRing.axis (A : AzRing) : ℝ := (A.pa + 90) * degree

/-- The documented intensity at the distance `ρ` and the angle `δ` from the major axis: a Gaussian around the ellipse whose amplitude is `A_maj` on the major and
`A_min_rel · A_maj` on the minor axis. -/
noncomputable def Spec.AzRing.at (A : AzRing) (ρ δ : ℝ) : ℝ :=
  A.aMaj * (Real.cos δ ^ 2 + A.aMinRel * Real.sin δ ^ 2) * bell A.radius A.sigma (ellDist (1 - A.ell) (ρ * Real.cos δ) (ρ * Real.sin δ))

/-- `Setup` followed by `GetValue`. -/
noncomputable def ringAzAt (d : ImgDesc XR) (params : List XR) (offset : Nat) (x0 y0 x y : XR) : Res XR := do
  let f ← ringAzSetup d params offset x0 y0
  pure (ringAzValue f x y)

theorem ringAz_reads (d : ImgDesc XR) (A : AzRing) (pre post : List XR) (x0 y0 x y : XR) :
    ringAzAt d (pre ++ A.params.map fin ++ post) pre.length x0 y0 x y =
      .ok (ringAzValue (ringAzBuild d x0 y0 (fin A.pa) (fin A.ell) (fin A.aMaj) (fin A.aMinRel) (fin A.radius) (fin A.sigma)) x y) := by
  have h : ∀ (i : ℕ) (v : XR), (A.params.map fin)[i]? = some v → rd (pre ++ A.params.map fin ++ post) (i + pre.length) = .ok v := by
    intro i v hv
    rw [Nat.add_comm]
    exact rd_mid pre _ post i v hv
  unfold ringAzAt ringAzSetup
  rw [h 0 _ rfl, h 1 _ rfl, h 2 _ rfl, h 3 _ rfl, h 4 _ rfl, h 5 _ rfl]
  rfl

/-- The value at any point, with the angle as `atan2` returns it. `s`, `ρ`, `k` are the pixel scaling, the rotation and the intensity scale of the image. -/
theorem ringAz_value (A : AzRing) (hA : A.Ok) {s : ℝ} (hs : s ≠ 0) (rot k x0 y0 dx dy : ℝ) (pre post : List XR) :
    ringAzAt ⟨fin s, fin rot, fin k⟩ (pre ++ A.params.map fin ++ post) pre.length (fin x0) (fin y0) (fin (x0 + dx)) (fin (y0 + dy)) =
      .ok (fin (k * (A.aMaj * (Real.cos ((A.pa - rot + 90) * degree - Complex.arg ⟨dx, dy⟩) ^ 2 +
          A.aMinRel * Real.sin ((A.pa - rot + 90) * degree - Complex.arg ⟨dx, dy⟩) ^ 2)) *
        bell (A.radius * s) (A.sigma * s) (ellDist (1 - A.ell) (along ((A.pa - rot + 90) * degree) dx dy) (across ((A.pa - rot + 90) * degree) dx dy)))) := by
  have hq : 1 - A.ell ≠ 0 := by have := hA.ell_lt; linarith
  have eθ : ((A.pa - rot + ((90 : ℚ) : ℝ)) * ((DEG2RAD : ℚ) : ℝ)) = (A.pa - rot + 90) * degree := by
    unfold degree DEG2RAD
    push_cast
    rfl
  have hσ : 2 * (A.sigma * s) * (A.sigma * s) ≠ 0 := by have := hA.sigma_ne; positivity
  rw [ringAz_reads]
  unfold ringAzBuild ringAzValue ringAzIntensity
  simp only [lit_def, fin_add, fin_sub, fin_mul, fin_neg, fcos_fin, fsin_fin, eθ, one_def, add_sub_cancel_left, fin_div_of_ne hq, fatan2_fin]
  set θ := (A.pa - rot + 90) * degree with hθ
  set φ := Complex.arg ⟨dx, dy⟩ with hφ
  rw [fsqrt_fin_of_nonneg (add_nonneg (mul_self_nonneg _) (mul_self_nonneg _))]
  have hR : Real.sqrt ((dx * Real.cos θ + dy * Real.sin θ) * (dx * Real.cos θ + dy * Real.sin θ) +
      (-dx * Real.sin θ + dy * Real.cos θ) / (1 - A.ell) * ((-dx * Real.sin θ + dy * Real.cos θ) / (1 - A.ell))) = ellDist (1 - A.ell) (along θ dx dy) (across θ dx dy) := by
    unfold ellDist along across
    congr 1
    ring
  rw [hR]
  set r := ellDist (1 - A.ell) (along θ dx dy) (across θ dx dy)
  have e2 : ((2 : ℚ) : ℝ) = 2 := by norm_num
  have e12 : (((1 / 2 : ℚ)) : ℝ) = 1 / 2 := by norm_num
  simp only [fin_sub, fabs_fin, fin_mul, fin_neg, e2, e12, fin_div_of_ne hσ, fexp_fin]
  congr 2
  have hb : -(|r - A.radius * s| * |r - A.radius * s|) / (2 * (A.sigma * s) * (A.sigma * s)) = -((r - A.radius * s) ^ 2 / (2 * (A.sigma * s) ^ 2)) := by
    rw [abs_mul_abs_self]
    ring
  rw [hb]
  unfold bell
  congr 1
  have h2 : Real.cos (2 * (θ - φ)) = Real.cos (θ - φ) ^ 2 - Real.sin (θ - φ) ^ 2 := Real.cos_two_mul' _
  have h1 := Real.sin_sq_add_cos_sq (θ - φ)
  rw [h2]
  linear_combination (-(1 / 2 : ℝ) * k * A.aMaj * (1 + A.aMinRel)) * h1

/-- The components of an offset given in polar form relative to an axis. -/
theorem along_polar (θ ρ δ : ℝ) : along θ (ρ * Real.cos (θ + δ)) (ρ * Real.sin (θ + δ)) = ρ * Real.cos δ := by
  unfold along
  have : Real.cos δ = Real.cos (θ + δ) * Real.cos θ + Real.sin (θ + δ) * Real.sin θ := by rw [← Real.cos_sub, add_sub_cancel_left]
  rw [this]; ring

theorem across_polar (θ ρ δ : ℝ) : across θ (ρ * Real.cos (θ + δ)) (ρ * Real.sin (θ + δ)) = ρ * Real.sin δ := by
  unfold across
  have : Real.sin δ = Real.sin (θ + δ) * Real.cos θ - Real.cos (θ + δ) * Real.sin θ := by rw [← Real.sin_sub, add_sub_cancel_left]
  rw [this]; ring

/-- The documented value everywhere but at the centre, in every image: with the pixel scaling `s`, the rotation `rot` and the intensity scale `k`, the point seen at the
distance `s·ρ` and turned by `-rot` has `k` times the documented intensity at `(ρ, δ)`. For the image of a fit, `s = k = 1` and `rot = 0`. -/
theorem C85_value (A : AzRing) (hA : A.Ok) {s : ℝ} (hs : 0 < s) (rot k x0 y0 : ℝ) (pre post : List XR) {ρ : ℝ} (hρ : 0 < ρ) (δ : ℝ) :
    ringAzAt ⟨fin s, fin rot, fin k⟩ (pre ++ A.params.map fin ++ post) pre.length (fin x0) (fin y0)
        (fin (x0 + s * ρ * Real.cos (A.axis - rot * degree + δ))) (fin (y0 + s * ρ * Real.sin (A.axis - rot * degree + δ))) = .ok (fin (k * A.at ρ δ)) := by
  have eax : A.axis - rot * degree = (A.pa - rot + 90) * degree := by unfold AzRing.axis; ring
  rw [eax, ringAz_value A hA hs.ne']
  obtain ⟨j, hj⟩ := arg_polar (mul_pos hs hρ) ((A.pa - rot + 90) * degree + δ)
  rw [hj, along_polar, across_polar]
  congr 2
  unfold AzRing.at
  have e : ∀ t : ℝ, t - (t + δ + j * (2 * Real.pi)) = -(δ + j * (2 * Real.pi)) := fun t => by ring
  rw [e, Real.cos_neg, Real.sin_neg, Real.cos_add_int_mul_two_pi, Real.sin_add_int_mul_two_pi, neg_sq, mul_assoc s, mul_assoc s, ellDist_smul _ _ _ _ hs.le, bell_scale hs]
  ring

/-- On the axes: `A_maj` on the major axis and `A_min_rel · A_maj` on the minor axis, where the ring is narrower by the axis ratio. -/
theorem C85_axes (A : AzRing) (hA : A.Ok) (x0 y0 : ℝ) (pre post : List XR) {ρ : ℝ} (hρ : 0 < ρ) :
    ringAzAt defaultDesc (pre ++ A.params.map fin ++ post) pre.length (fin x0) (fin y0) (fin (x0 + ρ * Real.cos A.axis)) (fin (y0 + ρ * Real.sin A.axis)) =
        .ok (fin (A.aMaj * bell A.radius A.sigma ρ)) ∧
      ringAzAt defaultDesc (pre ++ A.params.map fin ++ post) pre.length (fin x0) (fin y0) (fin (x0 - ρ * Real.sin A.axis)) (fin (y0 + ρ * Real.cos A.axis)) =
        .ok (fin (A.aMinRel * A.aMaj * bell A.radius A.sigma (ρ / (1 - A.ell)))) := by
  have hd : (defaultDesc : ImgDesc XR) = ⟨fin 1, fin 0, fin 1⟩ := rfl
  have hq : 0 < 1 - A.ell := by have := hA.ell_lt; linarith
  have h := fun δ => C85_value A hA one_pos 0 1 x0 y0 pre post hρ δ
  simp only [one_mul, zero_mul, sub_zero] at h
  constructor
  · have := h 0
    rw [add_zero] at this
    rw [hd, this]
    unfold AzRing.at ellDist
    simp only [Real.cos_zero, Real.sin_zero]
    norm_num
    exact Or.inl (by rw [Real.sqrt_sq hρ.le])
  · have := h (Real.pi / 2)
    rw [Real.cos_add_pi_div_two, Real.sin_add_pi_div_two, mul_neg, ← sub_eq_add_neg] at this
    rw [hd, this]
    unfold AzRing.at ellDist
    simp only [Real.cos_pi_div_two, Real.sin_pi_div_two]
    norm_num
    rw [Real.sqrt_sq (by positivity), mul_comm A.aMaj]

/-- A round ring of radius 2 and width 1 with half the brightness on the minor axis: 3 on the major and 3/2 on the minor axis. -/
example : ringAzAt defaultDesc [fin 7, fin (-90), fin 0, fin 3, fin (1 / 2), fin 2, fin 1] 1 (fin 5) (fin 5) (fin 7) (fin 5) = .ok (fin 3) ∧
    ringAzAt defaultDesc [fin 7, fin (-90), fin 0, fin 3, fin (1 / 2), fin 2, fin 1] 1 (fin 5) (fin 5) (fin 5) (fin 7) = .ok (fin (3 / 2)) := by
  have h := C85_axes ⟨-90, 0, 3, 1 / 2, 2, 1⟩ ⟨by norm_num, by norm_num⟩ 5 5 [fin 7] [] (ρ := 2) (by norm_num)
  have ha : AzRing.axis ⟨-90, 0, 3, 1 / 2, 2, 1⟩ = 0 := by simp [AzRing.axis]
  rw [ha] at h
  norm_num [AzRing.params, bell] at h ⊢
  exact h

/-- The ring looks the same after half a turn. -/
theorem C85_symmetry (A : AzRing) (hA : A.Ok) {s : ℝ} (hs : 0 < s) (rot k x0 y0 dx dy : ℝ) (pre post : List XR) :
    ringAzAt ⟨fin s, fin rot, fin k⟩ (pre ++ A.params.map fin ++ post) pre.length (fin x0) (fin y0) (fin (x0 - dx)) (fin (y0 - dy)) =
      ringAzAt ⟨fin s, fin rot, fin k⟩ (pre ++ A.params.map fin ++ post) pre.length (fin x0) (fin y0) (fin (x0 + dx)) (fin (y0 + dy)) := by
  by_cases h0 : dx = 0 ∧ dy = 0
  · rw [h0.1, h0.2]; simp
  · have hz : (⟨dx, dy⟩ : ℂ) ≠ 0 := fun h => h0 ⟨by simpa using congrArg Complex.re h, by simpa using congrArg Complex.im h⟩
    set z : ℂ := ⟨dx, dy⟩ with hzd
    have hn : 0 < ‖z‖ := norm_pos_iff.2 hz
    have hx : dx = ‖z‖ * Real.cos z.arg := by rw [Complex.norm_mul_cos_arg]
    have hy : dy = ‖z‖ * Real.sin z.arg := by rw [Complex.norm_mul_sin_arg]
    have hp := C85_value A hA hs rot k x0 y0 pre post (ρ := ‖z‖ / s) (by positivity) (z.arg - (A.axis - rot * degree))
    have hm := C85_value A hA hs rot k x0 y0 pre post (ρ := ‖z‖ / s) (by positivity) (z.arg - (A.axis - rot * degree) + Real.pi)
    have e : s * (‖z‖ / s) = ‖z‖ := by field_simp
    rw [e, show A.axis - rot * degree + (z.arg - (A.axis - rot * degree)) = z.arg by ring, ← hx, ← hy] at hp
    rw [e, show A.axis - rot * degree + (z.arg - (A.axis - rot * degree) + Real.pi) = z.arg + Real.pi by ring, Real.cos_add_pi, Real.sin_add_pi, mul_neg, mul_neg, ← hx, ← hy] at hm
    rw [sub_eq_add_neg, sub_eq_add_neg, hp, hm]
    congr 3
    unfold AzRing.at ellDist
    rw [Real.cos_add_pi, Real.sin_add_pi]
    simp only [neg_sq, mul_neg, neg_div]

/-- Everywhere (also at the centre) the value lies between those of rings with the constant amplitudes `A_min_rel · A_maj` and `A_maj`. -/
theorem C85_bounds (A : AzRing) (hA : A.Ok) (h0 : 0 ≤ A.aMaj) (h1 : A.aMinRel ≤ 1) (x0 y0 dx dy : ℝ) (pre post : List XR) :
    ∃ v : ℝ, ringAzAt defaultDesc (pre ++ A.params.map fin ++ post) pre.length (fin x0) (fin y0) (fin (x0 + dx)) (fin (y0 + dy)) = .ok (fin v) ∧
      A.aMinRel * A.aMaj * bell A.radius A.sigma (ellDist (1 - A.ell) (along A.axis dx dy) (across A.axis dx dy)) ≤ v ∧
      v ≤ A.aMaj * bell A.radius A.sigma (ellDist (1 - A.ell) (along A.axis dx dy) (across A.axis dx dy)) := by
  have hv := ringAz_value A hA one_ne_zero 0 1 x0 y0 dx dy pre post
  simp only [sub_zero, mul_one, one_mul] at hv
  refine ⟨_, hv, ?_, ?_⟩
  · refine mul_le_mul_of_nonneg_right ?_ (Real.exp_pos _).le
    nlinarith [Real.sin_sq_add_cos_sq ((A.pa + 90) * degree - Complex.arg ⟨dx, dy⟩), mul_nonneg h0 (sub_nonneg.2 h1),
      mul_nonneg (mul_nonneg h0 (sub_nonneg.2 h1)) (sq_nonneg (Real.cos ((A.pa + 90) * degree - Complex.arg ⟨dx, dy⟩)))]
  · refine mul_le_mul_of_nonneg_right ?_ (Real.exp_pos _).le
    nlinarith [Real.sin_sq_add_cos_sq ((A.pa + 90) * degree - Complex.arg ⟨dx, dy⟩), mul_nonneg h0 (sub_nonneg.2 h1),
      mul_nonneg (mul_nonneg h0 (sub_nonneg.2 h1)) (sq_nonneg (Real.sin ((A.pa + 90) * degree - Complex.arg ⟨dx, dy⟩)))]

/-- With `A_min_rel = 1` the result is that of `GaussianRing`, as documented: in every image and at every point. -/
theorem C85_constant (A : AzRing) (hA : A.Ok) (h1 : A.aMinRel = 1) (doSub : Bool) {s : ℝ} (hs : s ≠ 0) (rot k x0 y0 x y : ℝ) (pre post pre' post' : List XR) :
    ringAzAt ⟨fin s, fin rot, fin k⟩ (pre ++ A.params.map fin ++ post) pre.length (fin x0) (fin y0) (fin x) (fin y) =
      (PFun.gaussRing : PFun XR).value doSub ⟨fin s, fin rot, fin k⟩ (pre' ++ ([A.pa, A.ell, A.aMaj, A.radius, A.sigma] : List ℝ).map fin ++ post') pre'.length (fin x0)
        (fin y0) (fin x) (fin y) := by
  have hq : 0 < 1 - A.ell := by have := hA.ell_lt; linarith
  have hv := ringAz_value A hA hs rot k x0 y0 (x - x0) (y - y0) pre post
  rw [add_sub_cancel, add_sub_cancel, h1] at hv
  have e1 : ∀ t : ℝ, Real.cos t ^ 2 + 1 * Real.sin t ^ 2 = 1 := fun t => by rw [one_mul]; exact Real.cos_sq_add_sin_sq t
  rw [hv, e1, mul_one]
  unfold PFun.value
  rw [setup_reads _ _ _ pre' _ post' rfl]
  have hp := planeFn_isPlane (A.pa - rot) x0 y0 (fun _ _ => pure 1)
    (fun u v => gaussRingProfile (fin A.aMaj * fin k) (fin A.radius * fin s) (fin A.sigma * fin s) (ellR (1 - fin A.ell) u v))
    (fun u v => k * A.aMaj * bell (A.radius * s) (A.sigma * s) (ellDist (1 - A.ell) u v)) ?_
  · have := planeValue_fin hp x y 1 rfl
    rw [if_neg (by norm_num)] at this
    rw [← this]
    rfl
  · intro u v
    beta_reduce
    rw [one_def, fin_sub, ellR_fin hq, fin_mul, fin_mul, fin_mul, gaussRingProfile_fin (mul_ne_zero hA.sigma_ne hs), mul_comm A.aMaj k]

end Imfit
