import Verif.Spec.LineSight
import Verif.Model.LineSight
import Verif.Lemmas.PlaneSetup

/-!
# Three-dimensional components in exact arithmetic
-/

namespace Imfit

open Spec XR

/-- Parameters of the physical range. -/
def LFun.Physical : LFun → List ℝ → Prop
  | .expDisk, [_, _, _, h, n, z0] => 0 < h ∧ 0 < n ∧ 0 < z0
  | .brokenDisk, [_, _, _, h1, h2, _, a, n, z0] => 0 < h1 ∧ 0 < h2 ∧ 0 < a ∧ 0 < n ∧ 0 < z0
  | .ring, [_, _, _, ell, _, _, σ, hz] => ell < 1 ∧ 0 < σ ∧ 0 < hz
  | .ferrers, [_, _, _, _, r, q, qz, n] => 0 < r ∧ 0 < q ∧ 0 < qz ∧ 0 ≤ n
  | .peanut, [_, _, _, _, rx, q, qz, _, ap, sp, cpar, cperp] => 0 < rx ∧ 0 < q ∧ 0 < qz ∧ 0 ≤ ap ∧ 0 < sp ∧ 0 < cpar ∧ 0 < cperp
  | .triax, [_, _, _, _, σ, q, qz] => 0 < σ ∧ 0 < q ∧ 0 < qz
  | .bpBar, [_, _, _, z0, ello, _, h1, h2, _, a, ellb, _, _, zmax, hb, σ] =>
    0 < z0 ∧ ello < 1 ∧ 0 < h1 ∧ 0 < h2 ∧ 0 < a ∧ ellb < 1 ∧ 0 < zmax ∧ 0 < hb ∧ 0 < σ
  | _, _ => False

/-- The parameters as converted for an image, by position. -/
noncomputable def LFun.adjust (t ρ k : ℝ) : LFun → List ℝ → List ℝ
  | .expDisk, [pa, inc, j, h, n, z0] => [pa - ρ, inc, j * k, h * t, n, z0 * t]
  | .brokenDisk, [pa, inc, j, h1, h2, rb, a, n, z0] => [pa - ρ, inc, j * k, h1 * t, h2 * t, rb * t, a / t, n, z0 * t]
  | .ring, [pa, inc, rpa, ell, j, a, σ, hz] => [pa - ρ, inc, rpa, ell, j * k, a * t, σ * t, hz * t]
  | .ferrers, [pa, inc, bpa, j, r, q, qz, n] => [pa - ρ, inc, bpa, j * k, r * t, q, qz, n]
  | .peanut, [pa, inc, psi, j, rx, q, qz, rp, ap, sp, cpar, cperp] => [pa - ρ, inc, psi, j * k, rx * t, q, qz, rp * t, ap * t, sp * t, cpar, cperp]
  | .bpBar, [pa, inc, bpa, z0, ello, jo, h1, h2, rb, a, ellb, jb, p12, p13, p14, σ] =>
    [pa - ρ, inc, bpa, z0 * t, ello, jo * k, h1 * t, h2 * t, rb * t, a, ellb, jb * k, p12 * t, p13 * t, p14 * t, σ * t]
  | _, p => p

/-- The density that is integrated, by position of the parameters. -/
noncomputable def LFun.coded : LFun → List ℝ → Body → ℝ
  | .expDisk, [_, _, j, h, n, z0], P => j * Real.exp (-(Real.sqrt (P.x ^ 2 + P.y ^ 2) / h)) * sechCode n z0 |P.z|
  | .brokenDisk, [_, _, j, h1, h2, rb, a, n, z0], P => brokenCode j h1 h2 rb a (Real.sqrt (P.x ^ 2 + P.y ^ 2)) * sechCode n z0 |P.z|
  | .ring, [_, _, rpa, ell, j, a, σ, hz], P => ringJ ((rpa + 90) * degree) (1 - ell) j a σ hz P
  | .ferrers, [_, _, bpa, j, r, q, qz, n], P => ferrersJ ((bpa + 90) * degree + Real.pi / 2) j r q qz n P
  | .peanut, [_, _, psi, j, rx, q, qz, rp, ap, sp, cpar, cperp], P => peanutJ (psi * degree) j rx q qz rp ap sp cpar cperp P
  | .triax, [_, _, bpa, j, σ, q, qz], P => triaxJ ((bpa + 90) * degree) j σ q qz P
  | .bpBar, [_, _, bpa, z0, ello, jo, h1, h2, rb, a, ellb, jb, p12, p13, p14, σ], P =>
    let u := along ((bpa + 90) * degree) P.x P.y
    let v := across ((bpa + 90) * degree) P.x P.y
    let w := p13 * bumps p12 σ u (v / (1 - ellb))
    brokenCode jo h1 h2 rb a (ellDist (1 - ello) u v) * Real.exp (-(|P.z| / z0)) +
      jb / w * Real.exp (-(ellDist (1 - ellb) u v / p14)) * Real.exp (-(|P.z| / (w * z0)))
  | _, _, _ => 0

/-- Half the length of the integration range, by position of the parameters. -/
noncomputable def LFun.range : LFun → List ℝ → ℝ
  | .expDisk, [_, _, _, h, _, _] => 20 * h
  | .brokenDisk, [_, _, _, _, h2, rb, _, _, _] => max (20 * rb) (20 * h2)
  | .ring, [_, _, _, _, _, a, _, _] => 2 * a
  | .ferrers, [_, inc, _, _, r, q, _, _] => 101 / 100 * max (Real.sqrt (q * q * (r * r)) * Real.sin (inc * degree)) r
  | .peanut, [_, _, _, _, rx, _, _, _, _, _, _, _] => 10 * rx
  | .triax, [_, _, _, _, σ, _, _] => 2 * (2 * σ * σ)
  | .bpBar, [_, _, _, _, _, _, _, _, rb, _, _, _, _, _, _, _] => 5 * rb
  | _, _ => 0

/-- The direction of the line of nodes in the image. -/
noncomputable def nodes : List ℝ → ℝ
  | pa :: _ => (pa + 90) * degree
  | [] => 0

/-- The inclination. -/
noncomputable def tilt : List ℝ → ℝ
  | _ :: inc :: _ => inc * degree
  | _ => 0

/-- A prepared function: geometry, range and density. -/
structure IsLos (f : LosFn XR) (x0 y0 θ i L : ℝ) (J : Body → ℝ) : Prop where
  hx : f.x0 = fin x0
  hy : f.y0 = fin y0
  hc : f.cosPA = fin (Real.cos θ)
  hs : f.sinPA = fin (Real.sin θ)
  hci : f.cosInc = fin (Real.cos i)
  hsi : f.sinInc = fin (Real.sin i)
  hl : f.limit = fin L
  hd : ∀ x y z, f.dens (fin x) (fin y) (fin z) = fin (J ⟨x, y, z⟩)

theorem lit_deg : (lit DEG2RAD : XR) = fin degree := by simp [lit_def, DEG2RAD, degree]
theorem lit90 : (lit 90 : XR) = fin 90 := by simp [lit_def]

theorem losFn_isLos (pa inc x0 y0 L : ℝ) (dens : XR → XR → XR → XR) (J : Body → ℝ) (h : ∀ x y z, dens (fin x) (fin y) (fin z) = fin (J ⟨x, y, z⟩)) :
    IsLos (losFn (fin pa) (fin inc) (fin x0) (fin y0) (fin L) dens) x0 y0 ((pa + 90) * degree) (inc * degree) L J := by
  unfold losFn
  simp only [lit_deg, lit90, fin_add, fin_mul, fcos_fin, fsin_fin]
  exact ⟨rfl, rfl, rfl, rfl, rfl, rfl, rfl, h⟩

/-- The density along the line of sight. -/
noncomputable def ray (J : Body → ℝ) (θ i dx dy s : ℝ) : ℝ :=
  J ⟨along θ dx dy, across θ dx dy * Real.cos i + s * Real.sin i, across θ dx dy * Real.sin i - s * Real.cos i⟩

theorem ray_seen (J : Body → ℝ) (θ i dx dy s : ℝ) (P : Body) (h : Seen θ i P dx dy s) : ray J θ i dx dy s = J P := by
  obtain ⟨h1, h2, h3⟩ := h
  have e := Real.sin_sq_add_cos_sq i
  have hy : across θ dx dy * Real.cos i + s * Real.sin i = P.y := by rw [h2, h3]; linear_combination P.y * e
  have hz : across θ dx dy * Real.sin i - s * Real.cos i = P.z := by rw [h2, h3]; linear_combination P.z * e
  unfold ray
  rw [h1, hy, hz]

theorem integrand_fin {f : LosFn XR} {x0 y0 θ i L : ℝ} {J : Body → ℝ} (h : IsLos f x0 y0 θ i L J) (x y s : ℝ) :
    f.integrand (f.start (fin x) (fin y)) (fin s) = fin (ray J θ i (x - x0) (y - y0) s) := by
  unfold LosFn.integrand LosFn.start ray
  simp only [h.hx, h.hy, h.hc, h.hs, h.hci, h.hsi, fin_sub, fin_mul, fin_add, fin_neg]
  rw [h.hd]
  unfold along across
  congr 3 <;> ring

theorem fpow_two (a : ℝ) : fpow (fin a) (fin 2) = fin (a ^ 2) := by
  rcases lt_trichotomy a 0 with h | h | h
  · have he : ∃ k : ℤ, (k : ℝ) = 2 := ⟨2, by norm_num⟩
    show (if 0 < a then XR.powPos a (fin 2) else if a = 0 then XR.powZero (fin 2) else XR.powNeg a (fin 2)) = _
    rw [if_neg h.not_gt, if_neg h.ne]
    unfold XR.powNeg
    simp only [he, dite_true]
    have h2 : he.choose = 2 := by exact_mod_cast he.choose_spec
    rw [h2]
    norm_cast
  · rw [h, fpow_zero_pos (by norm_num)]; norm_num
  · rw [fpow_pos h]; norm_num

theorem along_quarter (θ x y : ℝ) : along (θ + Real.pi / 2) x y = across θ x y := by
  unfold along across; rw [Real.cos_add_pi_div_two, Real.sin_add_pi_div_two]; ring
theorem across_quarter (θ x y : ℝ) : across (θ + Real.pi / 2) x y = -along θ x y := by
  unfold along across; rw [Real.cos_add_pi_div_two, Real.sin_add_pi_div_two]; ring

theorem objCoords_fin (θ x y z : ℝ) : objCoords (fin (Real.cos θ)) (fin (Real.sin θ)) (fin x) (fin y) (fin z) = (fin (along θ x y), fin (across θ x y), fin |z|) := by
  unfold objCoords along across
  simp only [fin_mul, fin_add, fin_neg, fabs_fin]
  congr 3
  ring

theorem expDisk_fin {h n z0 : ℝ} (hh : 0 < h) (hn : 0 < n) (hz : 0 < z0) (j x y z : ℝ) :
    expDiskDensity (fin j) (fin h) (fin n) (fin z0) (fin x) (fin y) (fin z) = fin (j * Real.exp (-(Real.sqrt (x ^ 2 + y ^ 2) / h)) * sechCode n z0 |z|) := by
  unfold expDiskDensity
  have h0 : 0 ≤ x * x + y * y := add_nonneg (mul_self_nonneg _) (mul_self_nonneg _)
  simp only [fin_mul, fin_add, fsqrt_fin_of_nonneg h0, fin_neg, fin_div_of_ne hh.ne', fexp_fin, fabs_fin, verticalSech_fin hn.ne' hz.ne']
  rw [neg_div, ← sq, ← sq]

theorem brokenDisk_fin {h1 h2 a n z0 : ℝ} (hh1 : 0 < h1) (hh2 : 0 < h2) (ha : 0 < a) (hn : 0 < n) (hz : 0 < z0) (j rb x y z : ℝ) :
    brokenDiskDensity (fin j) (fin h1) (fin h2) (fin rb) (fin a) (fin n) (fin z0) (fin x) (fin y) (fin z) =
      fin (brokenCode j h1 h2 rb a (Real.sqrt (x ^ 2 + y ^ 2)) * sechCode n z0 |z|) := by
  unfold brokenDiskDensity
  have h0 : 0 ≤ x * x + y * y := add_nonneg (mul_self_nonneg _) (mul_self_nonneg _)
  simp only [fin_mul, fin_add, fsqrt_fin_of_nonneg h0, fabs_fin, verticalSech_fin hn.ne' hz.ne', brokenProfile_fin hh1.ne' hh2.ne' ha.ne']
  rw [← sq, ← sq]

theorem ring_fin {q σ hz : ℝ} (hq : 0 < q) (hσ : 0 < σ) (hh : 0 < hz) (φ j a x y z : ℝ) :
    ringDensity (fin (Real.cos φ)) (fin (Real.sin φ)) (fin q) (fin j) (fin a) (fin σ) (fin hz) (fin x) (fin y) (fin z) = fin (ringJ φ q j a σ hz ⟨x, y, z⟩) := by
  unfold ringDensity
  rw [objCoords_fin]
  have h0 : ∀ v w : ℝ, 0 ≤ v * v + w * w := fun v w => add_nonneg (mul_self_nonneg _) (mul_self_nonneg _)
  have h2 : 2 * σ * σ ≠ 0 := by positivity
  simp only [lit2, fin_div_of_ne hq.ne', fin_mul, fin_add, fin_sub, fsqrt_fin_of_nonneg (h0 _ _), fin_neg, fin_div_of_ne h2, fin_div_of_ne hh.ne', fexp_fin]
  unfold ringJ bell ellDist
  simp only
  congr 3
  · rw [← sq, ← sq]
    congr 1
    ring
  · rw [neg_div]

theorem ferrers3_fin {r q qz n : ℝ} (hr : 0 < r) (hq : 0 < q) (hqz : 0 < qz) (hn : 0 ≤ n) (φ j x y z : ℝ) :
    ferrersDensity (fin (Real.cos φ)) (fin (Real.sin φ)) (fin j) (fin r) (fin q) (fin qz) (fin n) (fin x) (fin y) (fin z) =
      fin (ferrersJ (φ + Real.pi / 2) j r q qz n ⟨x, y, z⟩) := by
  have h1 : r * r ≠ 0 := by positivity
  have h2 : q * q * (r * r) ≠ 0 := by positivity
  have h3 : qz * qz * (r * r) ≠ 0 := by positivity
  have e : across φ x y * across φ x y / (r * r) + along φ x y * along φ x y / (q * q * (r * r)) + |z| * |z| / (qz * qz * (r * r)) =
      ellipsoid (φ + Real.pi / 2) q qz ⟨x, y, z⟩ / r ^ 2 := by
    unfold ellipsoid
    rw [along_quarter, across_quarter, abs_mul_abs_self]
    field_simp
  unfold ferrersDensity
  rw [objCoords_fin]
  simp only [fin_mul, fin_div_of_ne h1, fin_div_of_ne h2, fin_div_of_ne h3, fin_add, one_def, zero_def, flt_fin, fin_sub, e]
  unfold ferrersJ
  by_cases h : 1 < ellipsoid (φ + Real.pi / 2) q qz ⟨x, y, z⟩ / r ^ 2
  · simp only [h, decide_true, if_true]
  · simp only [h, decide_false, Bool.false_eq_true, if_false]
    rw [fpow_nonneg' (by linarith) hn]
    simp only [fin_mul]

theorem bumps_nonneg (r σ u v : ℝ) : 0 ≤ bumps r σ u v := by unfold bumps bell; positivity
theorem bumps_pos (r σ u v : ℝ) : 0 < bumps r σ u v := by unfold bumps bell; positivity

theorem peanut_fin {rx q qz ap sp cpar cperp : ℝ} (hr : 0 < rx) (hq : 0 < q) (hqz : 0 < qz) (hap : 0 ≤ ap) (hsp : 0 < sp) (h1 : 0 < cpar) (h2 : 0 < cperp)
    (φ j rp x y z : ℝ) :
    peanutDensity (fin (Real.cos φ)) (fin (Real.sin φ)) (fin j) (fin rx) (fin q) (fin qz) (fin rp) (fin ap) (fin sp) (fin cpar) (fin cperp) (fin x) (fin y) (fin z) =
      fin (peanutJ φ j rx q qz rp ap sp cpar cperp ⟨x, y, z⟩) := by
  have e1 : x * Real.cos φ + y * Real.sin φ = along φ x y := rfl
  have e2 : -x * Real.sin φ + y * Real.cos φ = across φ x y := by unfold across; ring
  have hl : (lit (-2) : XR) = fin (-2) := by simp [lit_def]
  have h0 : 2 * sp ^ 2 ≠ 0 := by positivity
  have hqr : q * rx ≠ 0 := by positivity
  have hz0 : ∀ u v : ℝ, ap * Real.exp (-((u - rp) ^ 2 / (2 * sp ^ 2) + v ^ 2 / (2 * sp ^ 2))) + ap * Real.exp (-((u + rp) ^ 2 / (2 * sp ^ 2) + v ^ 2 / (2 * sp ^ 2))) + qz * rx =
      ap * bumps rp sp u v + qz * rx := by
    intro u v
    unfold bumps bell
    rw [← Real.exp_add, ← Real.exp_add]
    ring_nf
  have hzp : ∀ u v : ℝ, 0 < ap * bumps rp sp u v + qz * rx := fun u v => by have := bumps_nonneg rp sp u v; positivity
  have hcd : cpar / cperp > 0 := by positivity
  have hci : 0 < 1 / cpar := by positivity
  unfold peanutDensity peanutJ
  simp only [lit2, hl, fin_mul, fin_add, fin_neg, e1, e2, fin_sub, fpow_two, fin_div_of_ne h0, fexp_fin, hz0, fabs_fin, fin_div_of_ne hr.ne', fin_div_of_ne hqr,
    fin_div_of_ne (hzp _ _).ne', fin_div_of_ne h2.ne', one_def, fin_div_of_ne h1.ne']
  rw [fpow_nonneg (a := |along φ x y| / rx) (by positivity) h2, fpow_nonneg (a := |across φ x y| / (q * rx)) (by positivity) h2]
  simp only [fin_add]
  rw [fpow_nonneg (by positivity) hcd, fpow_nonneg (a := |z| / _) (by have := hzp (along φ x y) (across φ x y); positivity) h1]
  simp only [fin_add]
  rw [fpow_nonneg (by have := hzp (along φ x y) (across φ x y); positivity) hci]
  simp only [fin_neg, fcosh_fin, Real.cosh_neg]
  rw [fpow_pos (Real.cosh_pos _)]
  simp only [fin_mul]

theorem triax_fin {σ q qz : ℝ} (hσ : 0 < σ) (hq : 0 < q) (hqz : 0 < qz) (φ j x y z : ℝ) :
    triaxDensity (fin (Real.cos φ)) (fin (Real.sin φ)) (fin j) (fin σ) (fin q) (fin qz) (fin x) (fin y) (fin z) = fin (triaxJ φ j σ q qz ⟨x, y, z⟩) := by
  have h0 : 2 * σ * σ ≠ 0 := by positivity
  unfold triaxDensity
  rw [objCoords_fin]
  simp only [lit2, fabs_fin, fin_div_of_ne hq.ne', fin_div_of_ne hqz.ne', fin_mul, fin_add, fin_neg, fin_div_of_ne h0, fexp_fin, abs_mul_abs_self]
  unfold triaxJ ellipsoid
  congr 3
  rw [show |z| / qz * (|z| / qz) = (z / qz) ^ 2 by rw [← sq, div_pow, div_pow, sq_abs]]
  field_simp

theorem brokenUnit_fin {h1 h2 a : ℝ} (hh1 : h1 ≠ 0) (hh2 : h2 ≠ 0) (ha : a ≠ 0) (amp rb r : ℝ) :
    fin amp * brokenUnit (fin h1) (fin h2) (fin rb) (fin a) (fin r) = fin (brokenCode amp h1 h2 rb a r) := by
  unfold brokenUnit brokenCode brokenI
  simp only [lit100, one_def, fin_div_of_ne hh1, fin_div_of_ne hh2, fin_div_of_ne ha, fin_sub, fin_mul, fin_neg, fexp_fin, fin_add, flt_fin,
    fpow_pos (one_add_exp_pos _)]
  by_cases h : 100 < a * (r - rb)
  · simp only [h, decide_true, if_true, fin_mul]
    rw [neg_mul, mul_assoc]
  · simp only [h, decide_false, Bool.false_eq_true, if_false, fin_mul]
    rw [neg_mul, neg_div, mul_assoc, mul_assoc, mul_assoc]

theorem doubleGaussian_fin {σ : ℝ} (hσ : 0 < σ) (x y r : ℝ) : doubleGaussian (fin x) (fin y) (fin r) (fin (2 * σ * σ)) = fin (bumps r σ x y) := by
  have h0 : 2 * σ * σ ≠ 0 := by positivity
  unfold doubleGaussian bumps bell
  simp only [fin_sub, fin_add, fin_mul, fin_neg, fin_div_of_ne h0, fexp_fin]
  rw [← Real.exp_add, ← Real.exp_add]
  congr 3 <;> ring

theorem bpBar_fin {z0 qo h1 h2 a qb zmax hb σ : ℝ} (hz : 0 < z0) (hqo : 0 < qo) (hh1 : 0 < h1) (hh2 : 0 < h2) (ha : 0 < a) (hqb : 0 < qb) (hzm : 0 < zmax)
    (hhb : 0 < hb) (hσ : 0 < σ) (φ jo rb jb rmax x y z : ℝ) :
    bpBarDensity (fin (Real.cos φ)) (fin (Real.sin φ)) (fin z0) (fin qo) (fin jo) (fin h1) (fin h2) (fin rb) (fin a) (fin qb) (fin jb) (fin rmax) (fin zmax) (fin hb) (fin σ)
      (fin x) (fin y) (fin z) =
      fin (brokenCode jo h1 h2 rb a (ellDist qo (along φ x y) (across φ x y)) * Real.exp (-(|z| / z0)) +
        jb / (zmax * bumps rmax σ (along φ x y) (across φ x y / qb)) * Real.exp (-(ellDist qb (along φ x y) (across φ x y) / hb)) *
          Real.exp (-(|z| / (zmax * bumps rmax σ (along φ x y) (across φ x y / qb) * z0)))) := by
  have h0 : ∀ v w : ℝ, 0 ≤ v * v + w * w := fun v w => add_nonneg (mul_self_nonneg _) (mul_self_nonneg _)
  have hw : ∀ u v : ℝ, zmax * bumps rmax σ u v ≠ 0 := fun u v => (mul_pos hzm (bumps_pos _ _ _ _)).ne'
  have hwz : ∀ u v : ℝ, zmax * bumps rmax σ u v * z0 ≠ 0 := fun u v => mul_ne_zero (hw u v) hz.ne'
  unfold bpBarDensity
  rw [objCoords_fin]
  simp only [lit2, fin_div_of_ne hqo.ne', fin_div_of_ne hqb.ne', fin_mul, fin_add, fsqrt_fin_of_nonneg (h0 _ _), brokenUnit_fin hh1.ne' hh2.ne' ha.ne', fin_neg,
    fin_div_of_ne hz.ne', fexp_fin, doubleGaussian_fin hσ, fin_div_of_ne (hw _ _), fin_div_of_ne (hwz _ _), fin_div_of_ne hhb.ne']
  unfold ellDist
  simp only [neg_div, ← sq]

theorem cfmax_fin (a b : ℝ) : cfmax (fin a) (fin b) = fin (max a b) := by
  unfold cfmax
  simp only [fle_fin, le_refl, decide_true, Bool.not_true, Bool.false_eq_true, if_false, flt_fin, decide_eq_true_eq]
  split
  · rename_i h; rw [max_eq_right h.le]
  · rename_i h; rw [max_eq_left (not_lt.1 h)]

theorem stdMax_fin (a b : ℝ) : stdMax (fin a) (fin b) = fin (max a b) := by
  unfold stdMax
  simp only [flt_fin, decide_eq_true_eq]
  split
  · rename_i h; rw [max_eq_right h.le]
  · rename_i h; rw [max_eq_left (not_lt.1 h)]

/-- Every function with parameters of the physical range has the stated geometry, range and density, in every image. -/
theorem build_isLos (F : LFun) (t ρ k : ℝ) (ht : 0 < t) (p : List ℝ) (hp : F.Physical p) (x0 y0 : ℝ) :
    ∃ f, F.build ⟨fin t, fin ρ, fin k⟩ (fin x0) (fin y0) (p.map fin) = .ok f ∧
      IsLos f x0 y0 (nodes (F.adjust t ρ k p)) (tilt (F.adjust t ρ k p)) (F.range (F.adjust t ρ k p)) (F.coded (F.adjust t ρ k p)) := by
  unfold LFun.Physical at hp
  have l20 : (lit 20 : XR) = fin 20 := by simp [lit_def]
  have l10 : (lit 10 : XR) = fin 10 := by simp [lit_def]
  have l5 : (lit 5 : XR) = fin 5 := by simp [lit_def]
  have l101 : (lit (101 / 100) : XR) = fin (101 / 100) := by simp [lit_def]
  split at hp
  · obtain ⟨hh, hn, hz⟩ := hp
    refine ⟨_, rfl, ?_⟩
    simp only [fin_sub, fin_mul, l20]
    exact losFn_isLos _ _ _ _ _ _ _ fun x y z => expDisk_fin (mul_pos hh ht) hn (mul_pos hz ht) _ x y z
  · obtain ⟨hh1, hh2, ha, hn, hz⟩ := hp
    refine ⟨_, rfl, ?_⟩
    simp only [fin_sub, fin_mul, l20, cfmax_fin, fin_div_of_ne ht.ne']
    exact losFn_isLos _ _ _ _ _ _ _ fun x y z => brokenDisk_fin (mul_pos hh1 ht) (mul_pos hh2 ht) (div_pos ha ht) hn (mul_pos hz ht) _ _ x y z
  · obtain ⟨hq, hσ, hz⟩ := hp
    refine ⟨_, rfl, ?_⟩
    simp only [fin_sub, fin_mul, fin_add, lit2, lit90, lit_deg, fcos_fin, fsin_fin, one_def]
    exact losFn_isLos _ _ _ _ _ _ _ fun x y z => ring_fin (sub_pos.2 hq) (mul_pos hσ ht) (mul_pos hz ht) _ _ _ x y z
  · rename_i r q qz n
    obtain ⟨hr, hq, hqz, hn⟩ := hp
    refine ⟨_, rfl, ?_⟩
    have h0 : 0 ≤ q * q * (r * t * (r * t)) := by positivity
    simp only [fin_sub, fin_mul, fin_add, l101, lit90, lit_deg, fcos_fin, fsin_fin, fsqrt_fin_of_nonneg h0, stdMax_fin]
    exact losFn_isLos _ _ _ _ _ _ _ fun x y z => ferrers3_fin (mul_pos hr ht) hq hqz hn _ _ x y z
  · obtain ⟨hr, hq, hqz, hap, hsp, h1, h2⟩ := hp
    refine ⟨_, rfl, ?_⟩
    simp only [fin_sub, fin_mul, l10, lit_deg, fcos_fin, fsin_fin]
    exact losFn_isLos _ _ _ _ _ _ _ fun x y z => peanut_fin (mul_pos hr ht) hq hqz (mul_nonneg hap ht.le) (mul_pos hsp ht) h1 h2 _ _ _ x y z
  · obtain ⟨hσ, hq, hqz⟩ := hp
    refine ⟨_, rfl, ?_⟩
    simp only [fin_mul, fin_add, lit2, lit90, lit_deg, fcos_fin, fsin_fin]
    exact losFn_isLos _ _ _ _ _ _ _ fun x y z => triax_fin hσ hq hqz _ _ x y z
  · obtain ⟨hz, hqo, hh1, hh2, ha, hqb, hzm, hhb, hσ⟩ := hp
    refine ⟨_, rfl, ?_⟩
    simp only [fin_sub, fin_mul, fin_add, l5, lit90, lit_deg, fcos_fin, fsin_fin, one_def]
    exact losFn_isLos _ _ _ _ _ _ _ fun x y z => bpBar_fin (mul_pos hz ht) (sub_pos.2 hqo) (mul_pos hh1 ht) (mul_pos hh2 ht) ha (sub_pos.2 hqb) (mul_pos hzm ht)
      (mul_pos hhb ht) (mul_pos hσ ht) _ _ _ _ _ x y z
  · exact hp.elim

theorem LFun.physical_length (F : LFun) (p : List ℝ) (hp : F.Physical p) : (p.map fin).length = F.nPars := by
  unfold LFun.Physical at hp
  split at hp <;> first | rfl | exact hp.elim

theorem LFun.setup_reads (F : LFun) (d : ImgDesc XR) (pre p post : List XR) (hp : p.length = F.nPars) (x0 y0 : XR) :
    F.setup d (pre ++ p ++ post) pre.length x0 y0 = F.build d x0 y0 p := by
  unfold LFun.setup
  rw [← hp, rdPars, ok_bind]

end Imfit
