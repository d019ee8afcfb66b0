import Verif.Lemmas.Spiral
import Verif.Lemmas.FuncSetup
import Mathlib.Analysis.Real.Pi.Bounds

/-!
# C82 — a spiral arc has its maximum where the user puts it
-/

namespace Imfit

open Spec XR

/-- The parameters of `LogSpiralArc` in the order of their labels. -/
structure Spec.Arc where
  pa : ℝ
  ell : ℝ
  rScale : ℝ
  pitch : ℝ
  thetaMax : ℝ
  imax : ℝ
  sigmaR : ℝ
  sigmaCcw : ℝ
  sigmaCw : ℝ

def Spec.Arc.params (A : Arc) : List ℝ := [A.pa, A.ell, A.rScale, A.pitch, A.thetaMax, A.imax, A.sigmaR, A.sigmaCcw, A.sigmaCw]

/-- Sizes and widths are positive; the pitch angle is not a right angle. -/
structure Spec.Arc.Ok (A : Arc) : Prop where
  ell_lt : A.ell < 1
  scale_pos : 0 < A.rScale
  imax_pos : 0 < A.imax
  r_pos : 0 < A.sigmaR
  ccw_pos : 0 < A.sigmaCcw
  cw_pos : 0 < A.sigmaCw
  cos_ne : Real.cos (A.pitch * degree) ≠ 0

/-- Distance from the centre in the plane of the component of a point of the image at the distance `ρ` and the angle `t` from the x axis. -/
noncomputable def Spec.Arc.radius (A : Arc) (ρ t : ℝ) : ℝ :=
  ellDist (1 - A.ell) (along ((A.pa + 90) * degree) (ρ * Real.cos t) (ρ * Real.sin t)) (across ((A.pa + 90) * degree) (ρ * Real.cos t) (ρ * Real.sin t))

/-- The documented intensity at the angle `δ` (counter-clockwise from the direction of the maximum) and the radius `r`: a logarithmic spiral through the maximum, a
Gaussian profile across it, and Gaussians of different widths along it on either side of the maximum. -/
noncomputable def Spec.Arc.intensity (A : Arc) (δ r : ℝ) : ℝ :=
  A.imax * bell 0 ((if 0 ≤ δ then A.sigmaCcw else A.sigmaCw) * degree) δ * bell (A.rScale * Real.exp (Real.tan (A.pitch * degree) * δ)) A.sigmaR r

/-- `Setup` followed by `GetValue`. -/
noncomputable def arcAt (params : List XR) (offset : Nat) (x0 y0 x y : XR) : Res XR := do
  let s ← arcSetup params offset x0 y0
  pure (arcValue s x y)

theorem degree_pos : 0 < degree := by unfold degree; norm_num

theorem truncZ_turn {t : ℝ} (h0 : 0 ≤ t) (h1 : t < 2 * Real.pi) (k : ℤ) (hk : 0 ≤ k) : truncZ ((t + k * (2 * Real.pi)) / (2 * Real.pi)) = k := by
  have hp := Real.two_pi_pos
  have hk' : (0 : ℝ) ≤ k := by exact_mod_cast hk
  unfold truncZ
  rw [if_pos (by positivity), Int.floor_eq_iff, le_div_iff₀ hp, div_lt_iff₀ hp]
  constructor <;> linarith

/-- `GetStdAngle` is the angle between 0 and 2π. -/
theorem arcStdAngle_fin {ρ t : ℝ} (hρ : 0 < ρ) (h0 : 0 ≤ t) (h1 : t < 2 * Real.pi) : arcStdAngle (fin (ρ * Real.cos t)) (fin (ρ * Real.sin t)) = fin t := by
  obtain ⟨k, hk⟩ := arg_polar hρ t
  have hp := Real.two_pi_pos
  have hlo := Complex.neg_pi_lt_arg ⟨ρ * Real.cos t, ρ * Real.sin t⟩
  have hkk : 0 ≤ k + 1 := by
    by_contra h
    have : (k : ℝ) ≤ -2 := by
      have : k ≤ -2 := by omega
      exact_mod_cast this
    rw [hk] at hlo
    nlinarith [Real.pi_pos]
  unfold arcStdAngle
  rw [fatan2_fin, fpi_fin, lit2, fin_mul, fin_add, hk, ffmod_fin hp.ne', show 2 * Real.pi + (t + k * (2 * Real.pi)) = t + ((k + 1 : ℤ) : ℝ) * (2 * Real.pi) by push_cast; ring,
    truncZ_turn h0 h1 _ hkk]
  congr 1
  push_cast
  ring

theorem arcThetaRel_fin (ref t : ℝ) :
    arcThetaRel (fin ref) (fin t) = fin (if t - (Real.pi - ref) < 0 then t - (Real.pi - ref) + 2 * Real.pi else t - (Real.pi - ref)) := by
  unfold arcThetaRel
  simp only [fpi_fin, lit2, fin_sub, fin_mul, fin_add, zero_def, flt_fin]
  by_cases h : t - (Real.pi - ref) < 0 <;> simp [h]

theorem arcThetaDiff_fin (M t : ℝ) :
    arcThetaDiff (fin M) (fin t) = fin (if Real.pi < (if t < M then t + 2 * Real.pi else t) - M then (if t < M then t + 2 * Real.pi else t) - M - 2 * Real.pi
      else (if t < M then t + 2 * Real.pi else t) - M) := by
  unfold arcThetaDiff
  simp only [fpi_fin, lit2, fin_mul, fin_add, flt_fin]
  by_cases h : t < M
  · simp only [h, decide_true, if_true, fin_sub, flt_fin, fin_neg]
    by_cases h2 : Real.pi < t + 2 * Real.pi - M
    · simp only [h2, decide_true, if_true]
      congr 1
      ring
    · simp only [h2, decide_false, Bool.false_eq_true, if_false]
  · simp only [h, decide_false, Bool.false_eq_true, if_false, fin_sub, flt_fin, fin_neg]
    by_cases h2 : Real.pi < t - M
    · simp only [h2, decide_true, if_true]
      congr 1
      ring
    · simp only [h2, decide_false, Bool.false_eq_true, if_false]

theorem arcThetaRef_fin (M : ℝ) : arcThetaRef (fin M) = fin (if 0 ≤ M ∧ M ≤ Real.pi then -M else 2 * Real.pi - M) := by
  unfold arcThetaRef
  simp only [fpi_fin, lit2, fin_mul, zero_def, fle_fin, fin_neg, fin_sub]
  by_cases h1 : 0 ≤ M <;> by_cases h2 : M ≤ Real.pi <;> simp [h1, h2]

/-- The reference angle used for a direction of the maximum. -/
noncomputable def refOf (M : ℝ) : ℝ := if 0 ≤ M ∧ M ≤ Real.pi then -M else 2 * Real.pi - M

theorem refOf_low {M : ℝ} (h0 : 0 ≤ M) (h1 : M ≤ Real.pi) : refOf M = -M := if_pos ⟨h0, h1⟩

theorem refOf_high {M : ℝ} (h1 : ¬ M ≤ Real.pi) : refOf M = 2 * Real.pi - M := if_neg fun h => h1 h.2

/-- The three angles of the code for a direction of the maximum between 0 and 2π and a point less than half a turn away from it. -/
theorem arc_angles {M δ : ℝ} (h0 : 0 ≤ M) (h1 : M < 2 * Real.pi) (hl : -Real.pi < δ) (hu : δ < Real.pi) :
    ∃ t, 0 ≤ t ∧ t < 2 * Real.pi ∧ Real.cos t = Real.cos (M + δ) ∧ Real.sin t = Real.sin (M + δ) ∧ arcThetaRel (fin (refOf M)) (fin t) = fin (Real.pi + δ) ∧
      arcThetaDiff (fin M) (fin t) = fin δ := by
  have hp := Real.pi_pos
  rcases lt_or_ge (M + δ) 0 with hneg | hnn
  · have hM : M ≤ Real.pi := by linarith
    refine ⟨M + δ + 2 * Real.pi, by linarith, by linarith, Real.cos_add_two_pi _, Real.sin_add_two_pi _, ?_, ?_⟩
    · rw [refOf_low h0 hM, arcThetaRel_fin, if_neg (by linarith)]
      congr 1; ring
    · rw [arcThetaDiff_fin, if_neg (show ¬ (M + δ + 2 * Real.pi < M) by linarith), if_pos (by linarith)]
      congr 1; ring
  · rcases lt_or_ge (M + δ) (2 * Real.pi) with hlt | hge
    · refine ⟨M + δ, hnn, hlt, rfl, rfl, ?_, ?_⟩
      · by_cases hM : M ≤ Real.pi
        · rw [refOf_low h0 hM, arcThetaRel_fin, if_pos (by linarith)]
          congr 1; ring
        · rw [refOf_high hM, arcThetaRel_fin, if_neg (by linarith)]
          congr 1; ring
      · rw [arcThetaDiff_fin]
        by_cases hd : δ < 0
        · rw [if_pos (show M + δ < M by linarith), if_pos (by linarith)]
          congr 1; ring
        · rw [if_neg (show ¬ (M + δ < M) by linarith), if_neg (by linarith)]
          congr 1; ring
    · have hM : ¬ M ≤ Real.pi := by linarith
      refine ⟨M + δ - 2 * Real.pi, by linarith, by linarith, Real.cos_sub_two_pi _, Real.sin_sub_two_pi _, ?_, ?_⟩
      · rw [refOf_high hM, arcThetaRel_fin, if_pos (by linarith)]
        congr 1; ring
      · rw [arcThetaDiff_fin, if_pos (show M + δ - 2 * Real.pi < M by linarith), if_neg (by linarith)]
        congr 1; ring

/-- The prepared arc. -/
theorem arcSetup_fin (A : Arc) (hA : A.Ok) (pre post : List XR) (x0 y0 : ℝ) :
    ∃ s, arcSetup (pre ++ A.params.map fin ++ post) pre.length (fin x0) (fin y0) = .ok s ∧ s.x0 = fin x0 ∧ s.y0 = fin y0 ∧ s.q = fin (1 - A.ell) ∧
      s.cosPA = fin (Real.cos ((A.pa + 90) * degree)) ∧ s.sinPA = fin (Real.sin ((A.pa + 90) * degree)) ∧ s.tanPitch = fin (Real.tan (A.pitch * degree)) ∧
      s.twoSigmaR2 = fin (2 * A.sigmaR * A.sigmaR) ∧ s.thetaMax = fin (A.thetaMax * degree) ∧ s.thetaRef = fin (refOf (A.thetaMax * degree)) ∧ s.imax = fin A.imax ∧
      s.ccw2 = fin (2 * (A.sigmaCcw * degree) * (A.sigmaCcw * degree)) ∧ s.cw2 = fin (2 * (A.sigmaCw * degree) * (A.sigmaCw * degree)) ∧
      s.r0 = fin A.rScale / fexp (fin (Real.tan (A.pitch * degree)) * arcThetaRel (fin (refOf (A.thetaMax * degree))) (fin (A.thetaMax * degree))) := by
  have e : ((DEG2RAD : ℚ) : ℝ) = degree := by unfold degree DEG2RAD; push_cast; rfl
  have e90 : ((90 : ℚ) : ℝ) = 90 := by norm_num
  have hrd : ∀ i v, (A.params.map fin)[i]? = some v → rd (pre ++ A.params.map fin ++ post) (pre.length + i) = .ok v := fun i v h => rd_mid pre _ post i v h
  unfold arcSetup
  rw [show pre.length = pre.length + 0 from rfl, hrd 0 _ rfl]
  simp only [Nat.add_zero]
  rw [hrd 1 _ rfl, hrd 2 _ rfl, hrd 3 _ rfl, hrd 4 _ rfl, hrd 5 _ rfl, hrd 6 _ rfl, hrd 7 _ rfl, hrd 8 _ rfl]
  simp only [ok_bind, pure_eq_ok]
  refine ⟨_, rfl, rfl, rfl, rfl, ?_, ?_, ?_, ?_, ?_, ?_, rfl, ?_, ?_, ?_⟩
  · simp only [lit_def, fin_add, fin_mul, fcos_fin, e, e90]
  · simp only [lit_def, fin_add, fin_mul, fsin_fin, e, e90]
  · simp only [lit_def, fin_mul, e, ftan_fin hA.cos_ne]
  · simp only [lit2, fin_mul]
  · simp only [lit_def, fin_mul, e]
  · simp only [lit_def, fin_mul, e, arcThetaRef_fin, refOf]
  · simp only [lit2, lit_def, fin_mul, e]
    norm_num
  · simp only [lit2, lit_def, fin_mul, e]
    norm_num
  · simp only [lit_def, fin_mul, e, arcThetaRef_fin, refOf, ftan_fin hA.cos_ne]

/-- The value at a point of the image whose angle the code sees as `t`. -/
theorem arcAt_fin (A : Arc) (hA : A.Ok) (pre post : List XR) (x0 y0 : ℝ) {ρ : ℝ} (hρ : 0 < ρ) {u t : ℝ} (ht0 : 0 ≤ t) (ht1 : t < 2 * Real.pi)
    (hc : Real.cos t = Real.cos u) (hs : Real.sin t = Real.sin u) {δ rel rmax : ℝ}
    (hrel : arcThetaRel (fin (refOf (A.thetaMax * degree))) (fin t) = fin rel)
    (hrmax : arcThetaRel (fin (refOf (A.thetaMax * degree))) (fin (A.thetaMax * degree)) = fin rmax)
    (hd : arcThetaDiff (fin (A.thetaMax * degree)) (fin t) = fin δ) :
    arcAt (pre ++ A.params.map fin ++ post) pre.length (fin x0) (fin y0) (fin (x0 + ρ * Real.cos u)) (fin (y0 + ρ * Real.sin u)) =
      .ok (fin (A.imax * bell 0 ((if 0 ≤ δ then A.sigmaCcw else A.sigmaCw) * degree) δ *
        bell (A.rScale * Real.exp (Real.tan (A.pitch * degree) * (rel - rmax))) A.sigmaR (A.radius ρ u))) := by
  obtain ⟨s, h, hx, hy, hq, hcp, hsp, htan, hsr, htm, href, him, hccw, hcw, hr0⟩ := arcSetup_fin A hA pre post x0 y0
  have hdg := degree_pos
  have hq0 : 0 < 1 - A.ell := by linarith [hA.ell_lt]
  have h1 : 2 * A.sigmaR * A.sigmaR ≠ 0 := by have := hA.r_pos; positivity
  have h2 : 2 * (A.sigmaCcw * degree) * (A.sigmaCcw * degree) ≠ 0 := by have := hA.ccw_pos; positivity
  have h3 : 2 * (A.sigmaCw * degree) * (A.sigmaCw * degree) ≠ 0 := by have := hA.cw_pos; positivity
  have hb : ∀ σ : ℝ, -(δ * δ) / (2 * (σ * degree) * (σ * degree)) = -((δ - 0) ^ 2 / (2 * (σ * degree) ^ 2)) := fun σ => by rw [sub_zero, neg_div]; congr 2 <;> ring
  have hr0' : s.r0 = fin (A.rScale / Real.exp (Real.tan (A.pitch * degree) * rmax)) := by
    rw [hr0, hrmax, fin_mul, fexp_fin, fin_div_of_ne (Real.exp_pos _).ne']
  unfold arcAt
  rw [h, ok_bind, pure_eq_ok]
  unfold arcValue
  simp only [hx, hy, fin_sub, add_sub_cancel_left, hcp, hsp, hq, fin_mul, fin_neg, fin_add, ellR_fin hq0]
  rw [← hc, ← hs, arcStdAngle_fin hρ ht0 ht1, href, hrel]
  unfold arcIntensity
  simp only [htm, hd, hr0', htan, him, fin_mul, fexp_fin, fin_sub, hccw, hcw, hsr, fin_neg, fin_div_of_ne h1, fin_div_of_ne h2, fin_div_of_ne h3, zero_def, fle_fin, hb]
  rw [hc, hs]
  have hrad : ellDist (1 - A.ell) (ρ * Real.cos u * Real.cos ((A.pa + 90) * degree) + ρ * Real.sin u * Real.sin ((A.pa + 90) * degree))
      (-(ρ * Real.cos u) * Real.sin ((A.pa + 90) * degree) + ρ * Real.sin u * Real.cos ((A.pa + 90) * degree)) = A.radius ρ u := by
    unfold Arc.radius along across
    congr 1
    ring
  have hexp : A.rScale / Real.exp (Real.tan (A.pitch * degree) * rmax) * Real.exp (Real.tan (A.pitch * degree) * rel) =
      A.rScale * Real.exp (Real.tan (A.pitch * degree) * (rel - rmax)) := by
    rw [mul_sub, Real.exp_sub]
    ring
  rw [hrad, hexp]
  have hbr : ∀ m r : ℝ, -((r - m) * (r - m)) / (2 * A.sigmaR * A.sigmaR) = -((r - m) ^ 2 / (2 * A.sigmaR ^ 2)) := fun m r => by rw [neg_div]; congr 2 <;> ring
  rw [hbr]
  by_cases hd0 : 0 ≤ δ
  · simp only [hd0, decide_true, if_true, fin_mul, bell]
  · simp only [hd0, decide_false, Bool.false_eq_true, if_false, fin_mul, bell]

/-- The value of the arc at any point less than half a turn away from the direction of the maximum is the documented one, if that direction is given as an angle
between 0 and 360 degrees. What is missing: a negative angle (`C82_negative_false`). -/
theorem C82_partial (A : Arc) (hA : A.Ok) (h0 : 0 ≤ A.thetaMax * degree) (h1 : A.thetaMax * degree < 2 * Real.pi) (pre post : List XR) (x0 y0 : ℝ) {ρ : ℝ} (hρ : 0 < ρ)
    {δ : ℝ} (hl : -Real.pi < δ) (hu : δ < Real.pi) :
    arcAt (pre ++ A.params.map fin ++ post) pre.length (fin x0) (fin y0) (fin (x0 + ρ * Real.cos (A.thetaMax * degree + δ)))
        (fin (y0 + ρ * Real.sin (A.thetaMax * degree + δ))) =
      .ok (fin (A.intensity δ (A.radius ρ (A.thetaMax * degree + δ)))) := by
  obtain ⟨t, t0, t1, tc, ts, tr, td⟩ := arc_angles h0 h1 hl hu
  obtain ⟨t', t0', t1', tc', ts', tr', td'⟩ := arc_angles h0 h1 (δ := 0) (by linarith [Real.pi_pos]) Real.pi_pos
  have hm : arcThetaRel (fin (refOf (A.thetaMax * degree))) (fin (A.thetaMax * degree)) = fin Real.pi := by
    by_cases hM : A.thetaMax * degree ≤ Real.pi
    · rw [refOf_low h0 hM, arcThetaRel_fin, if_pos (by linarith [Real.pi_pos])]
      congr 1; ring
    · rw [refOf_high hM, arcThetaRel_fin, if_neg (by linarith [Real.pi_pos])]
      congr 1; ring
  rw [arcAt_fin A hA pre post x0 y0 hρ t0 t1 tc ts tr hm td, add_sub_cancel_left]
  rfl

theorem bell_le (m s r : ℝ) : bell m s r ≤ 1 := by
  unfold bell
  rw [Real.exp_le_one_iff, neg_nonpos]
  positivity

theorem bell_eq_one {s : ℝ} (hs : s ≠ 0) (m r : ℝ) : bell m s r = 1 ↔ r = m := by
  unfold bell
  rw [Real.exp_eq_one_iff, neg_eq_zero, div_eq_zero_iff, or_iff_left (by positivity), sq_eq_zero_iff, sub_eq_zero]

theorem bell_gt_zero (m s r : ℝ) : 0 < bell m s r := Real.exp_pos _

/-- The arc is brightest, with the given intensity, exactly in the given direction at the given radius. -/
theorem C82_maximum (A : Arc) (hA : A.Ok) (h0 : 0 ≤ A.thetaMax * degree) (h1 : A.thetaMax * degree < 2 * Real.pi) (pre post : List XR) (x0 y0 : ℝ) {ρ : ℝ} (hρ : 0 < ρ)
    {δ : ℝ} (hl : -Real.pi < δ) (hu : δ < Real.pi) :
    ∃ v, arcAt (pre ++ A.params.map fin ++ post) pre.length (fin x0) (fin y0) (fin (x0 + ρ * Real.cos (A.thetaMax * degree + δ)))
        (fin (y0 + ρ * Real.sin (A.thetaMax * degree + δ))) = .ok (fin v) ∧ 0 < v ∧ v ≤ A.imax ∧
      (v = A.imax ↔ δ = 0 ∧ A.radius ρ (A.thetaMax * degree + δ) = A.rScale) := by
  refine ⟨_, C82_partial A hA h0 h1 pre post x0 y0 hρ hl hu, ?_⟩
  have hi := hA.imax_pos
  have hs : (if 0 ≤ δ then A.sigmaCcw else A.sigmaCw) * degree ≠ 0 := by
    have h1 := degree_pos
    have h2 := hA.ccw_pos
    have h3 := hA.cw_pos
    split_ifs <;> positivity
  unfold Arc.intensity
  set b1 := bell 0 ((if 0 ≤ δ then A.sigmaCcw else A.sigmaCw) * degree) δ with hb1
  set b2 := bell (A.rScale * Real.exp (Real.tan (A.pitch * degree) * δ)) A.sigmaR (A.radius ρ (A.thetaMax * degree + δ)) with hb2
  have p1 : 0 < b1 := bell_gt_zero _ _ _
  have p2 : 0 < b2 := bell_gt_zero _ _ _
  have q1 : b1 ≤ 1 := bell_le _ _ _
  have q2 : b2 ≤ 1 := bell_le _ _ _
  have q3 : b1 * b2 ≤ 1 := mul_le_one₀ q1 p2.le q2
  refine ⟨by positivity, by rw [mul_assoc]; exact mul_le_of_le_one_right hi.le q3, ?_⟩
  rw [mul_assoc, mul_eq_left₀ hi.ne']
  constructor
  · intro h
    have e1 : b1 = 1 := by nlinarith
    have e2 : b2 = 1 := by rw [e1, one_mul] at h; exact h
    have d0 := (bell_eq_one hs 0 δ).1 e1
    refine ⟨d0, ?_⟩
    have := (bell_eq_one hA.r_pos.ne' _ _).1 e2
    rw [this, d0, mul_zero, Real.exp_zero, mul_one]
  · rintro ⟨d0, hr⟩
    have e1 : b1 = 1 := (bell_eq_one hs 0 δ).2 d0
    have e2 : b2 = 1 := (bell_eq_one hA.r_pos.ne' _ _).2 (by rw [hr, d0, mul_zero, Real.exp_zero, mul_one])
    rw [e1, e2, one_mul]

/-- If the direction of the maximum is given as a negative angle (as an angle to the right of the x axis is usually written), the arc is not brightest there: at the
given radius and direction the value is below the given intensity, because the radius of the arm is taken one turn further on. -/
theorem C82_negative_false (A : Arc) (hA : A.Ok) (h0 : A.thetaMax * degree < 0) (h1 : -Real.pi ≤ A.thetaMax * degree) (hs : Real.sin (A.pitch * degree) ≠ 0) (pre post : List XR)
    (x0 y0 : ℝ) {ρ : ℝ} (hρ : 0 < ρ) (hr : A.radius ρ (A.thetaMax * degree) = A.rScale) :
    ∃ v, arcAt (pre ++ A.params.map fin ++ post) pre.length (fin x0) (fin y0) (fin (x0 + ρ * Real.cos (A.thetaMax * degree)))
        (fin (y0 + ρ * Real.sin (A.thetaMax * degree))) = .ok (fin v) ∧ v < A.imax := by
  have hp := Real.pi_pos
  set M := A.thetaMax * degree with hM
  have href : refOf M = 2 * Real.pi - M := by rw [refOf, if_neg (by intro h; linarith [h.1])]
  have hrel : arcThetaRel (fin (refOf M)) (fin (M + 2 * Real.pi)) = fin (3 * Real.pi) := by
    rw [arcThetaRel_fin, href, if_neg (by linarith)]
    congr 1; ring
  have hmax : arcThetaRel (fin (refOf M)) (fin M) = fin Real.pi := by
    rw [arcThetaRel_fin, href, if_neg (by linarith)]
    congr 1; ring
  have hd : arcThetaDiff (fin M) (fin (M + 2 * Real.pi)) = fin 0 := by
    rw [arcThetaDiff_fin, if_neg (show ¬ (M + 2 * Real.pi < M) by linarith), if_pos (by linarith)]
    congr 1; ring
  refine ⟨_, arcAt_fin A hA pre post x0 y0 hρ (u := M) (t := M + 2 * Real.pi) (by linarith) (by linarith) (Real.cos_add_two_pi _) (Real.sin_add_two_pi _) hrel hmax hd, ?_⟩
  have hi := hA.imax_pos
  have hb0 : bell 0 ((if (0 : ℝ) ≤ 0 then A.sigmaCcw else A.sigmaCw) * degree) 0 = 1 := by simp [bell]
  rw [hb0, mul_one]
  refine mul_lt_of_lt_one_right hi (lt_of_le_of_ne (bell_le _ _ _) fun h => ?_)
  have e := (bell_eq_one hA.r_pos.ne' _ _).1 h
  rw [hr] at e
  have hx : Real.exp (Real.tan (A.pitch * degree) * (3 * Real.pi - Real.pi)) = 1 := by
    have := hA.scale_pos
    have h2 : A.rScale * 1 = A.rScale * Real.exp (Real.tan (A.pitch * degree) * (3 * Real.pi - Real.pi)) := by rw [mul_one]; exact e
    exact (mul_left_cancel₀ this.ne' h2).symm
  rw [Real.exp_eq_one_iff] at hx
  rcases mul_eq_zero.1 hx with h | h
  · rw [Real.tan_eq_sin_div_cos] at h
    exact div_ne_zero hs hA.cos_ne h
  · linarith

/-- An arc seen face-on, 20 pixels from the centre. -/
def Spec.Arc.sample (thetaMax : ℝ) : Arc := ⟨0, 0, 20, 20, thetaMax, 100, 3, 40, 30⟩

theorem sample_ok (t : ℝ) : (Arc.sample t).Ok := by
  have h1 : (0 : ℝ) < 20 * degree := by unfold degree; norm_num
  have h2 : 20 * degree < Real.pi / 2 := by
    have := Real.two_le_pi
    unfold degree
    norm_num
    linarith
  exact ⟨by norm_num [Arc.sample], by norm_num [Arc.sample], by norm_num [Arc.sample], by norm_num [Arc.sample], by norm_num [Arc.sample], by norm_num [Arc.sample],
    (Real.cos_pos_of_mem_Ioo ⟨by linarith, h2⟩).ne'⟩

theorem sample_radius (t u : ℝ) {ρ : ℝ} (hρ : 0 ≤ ρ) : (Arc.sample t).radius ρ u = ρ := by
  unfold Arc.radius Arc.sample
  simp only
  unfold ellDist along across
  have e1 := Real.sin_sq_add_cos_sq u
  have e2 := Real.sin_sq_add_cos_sq ((0 + 90) * degree)
  rw [show (ρ * Real.cos u * Real.cos ((0 + 90) * degree) + ρ * Real.sin u * Real.sin ((0 + 90) * degree)) ^ 2 +
      ((ρ * Real.sin u * Real.cos ((0 + 90) * degree) - ρ * Real.cos u * Real.sin ((0 + 90) * degree)) / (1 - 0)) ^ 2 = ρ ^ 2 by
    rw [sub_zero, div_one]
    linear_combination (ρ ^ 2 * (Real.sin ((0 + 90) * degree) ^ 2 + Real.cos ((0 + 90) * degree) ^ 2)) * e1 + ρ ^ 2 * e2]
  exact Real.sqrt_sq hρ

/-- The maximum of an arc at 300 degrees: 100, at 20 pixels. -/
example : ∃ v, arcAt ([] ++ (Arc.sample 300).params.map fin ++ []) 0 (fin 0) (fin 0) (fin (0 + 20 * Real.cos (300 * degree + 0))) (fin (0 + 20 * Real.sin (300 * degree + 0))) = .ok (fin v) ∧ v = 100 := by
  have h1 : 300 * degree < 2 * Real.pi := by
    have := Real.pi_gt_three
    unfold degree
    norm_num
    linarith
  obtain ⟨v, h, -, -, h3⟩ := C82_maximum (Arc.sample 300) (sample_ok _) (show 0 ≤ 300 * degree from by have := degree_pos; positivity) h1 [] [] 0 0 (ρ := 20) (by norm_num) (δ := 0)
    (by linarith [Real.pi_pos]) Real.pi_pos
  exact ⟨v, h, h3.2 ⟨rfl, sample_radius _ _ (by norm_num)⟩⟩

/-- The same arc given as -60 degrees is fainter there. -/
example : ∃ v, arcAt ([] ++ (Arc.sample (-60)).params.map fin ++ []) 0 (fin 0) (fin 0) (fin (0 + 20 * Real.cos (-60 * degree))) (fin (0 + 20 * Real.sin (-60 * degree))) = .ok (fin v) ∧ v < 100 := by
  have h1 : (0 : ℝ) < 20 * degree := by unfold degree; norm_num
  have h2 : 20 * degree < Real.pi := by
    have := Real.two_le_pi
    unfold degree
    norm_num
    linarith
  refine C82_negative_false (Arc.sample (-60)) (sample_ok _) (show -60 * degree < 0 from by have := degree_pos; linarith) (show -Real.pi ≤ -60 * degree from ?_)
    (Real.sin_pos_of_pos_of_lt_pi h1 h2).ne' [] [] 0 0 (by norm_num) (sample_radius _ _ (by norm_num))
  have := Real.two_le_pi
  unfold degree
  norm_num
  linarith

end Imfit
