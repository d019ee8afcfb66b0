import Verif.Props.C75Turned
import Mathlib.Analysis.SpecialFunctions.ImproperIntegrals
import Mathlib.Analysis.SpecialFunctions.Gaussian.GaussianIntegral

/-!
# C76 — the integration range of a three-dimensional component covers the object
-/

namespace Imfit

open Spec XR MeasureTheory Set

/-- A function with exponential tails is integrable, and a finite range misses little. -/
theorem tail_bound {g : ℝ → ℝ} {K c L : ℝ} (hc : 0 < c) (hL : 0 ≤ L) (hm : Measurable g) (hi : IntervalIntegrable g volume (-L) L)
    (hb : ∀ s, L < |s| → |g s| ≤ K * Real.exp (-(c * |s|))) : Integrable g ∧ |(∫ s, g s) - ∫ s in (-L)..L, g s| ≤ 2 * K * Real.exp (-(c * L)) / c := by
  have r1 : IntegrableOn (fun s => K * Real.exp (-c * s)) (Ioi L) := (integrableOn_exp_mul_Ioi (neg_lt_zero.2 hc) L).const_mul K
  have r2 : IntegrableOn (fun s => K * Real.exp (c * s)) (Iic (-L)) := (integrableOn_exp_mul_Iic hc (-L)).const_mul K
  have b1 : ∀ s ∈ Ioi L, ‖g s‖ ≤ K * Real.exp (-c * s) := fun s hs => by
    have h0 : L < s := hs
    have := hb s (by rwa [abs_of_nonneg (by linarith)])
    rw [abs_of_nonneg (by linarith : 0 ≤ s)] at this
    rw [Real.norm_eq_abs, neg_mul]
    exact this
  have b2' : ∀ s ∈ Iio (-L), ‖g s‖ ≤ K * Real.exp (c * s) := fun s hs => by
    have h0 : s < -L := hs
    have := hb s (by rw [abs_of_nonpos (by linarith)]; linarith)
    rw [abs_of_nonpos (by linarith : s ≤ 0), mul_neg, neg_neg] at this
    exact this
  have r2' : IntegrableOn (fun s => K * Real.exp (c * s)) (Iio (-L)) := r2.mono_set Iio_subset_Iic_self
  have i1 : IntegrableOn g (Ioi L) := r1.mono' hm.aestronglyMeasurable (ae_restrict_of_forall_mem measurableSet_Ioi b1)
  have i2' : IntegrableOn g (Iio (-L)) := r2'.mono' hm.aestronglyMeasurable (ae_restrict_of_forall_mem measurableSet_Iio b2')
  have i2 : IntegrableOn g (Iic (-L)) := (integrableOn_Iic_iff_integrableOn_Iio).2 i2'
  have i3 : IntegrableOn g (Ioi (-L)) := by
    have h : IntegrableOn g (Ioc (-L) L) := hi.1
    have := h.union i1
    rwa [Ioc_union_Ioi_eq_Ioi (by linarith)] at this
  have i4 : Integrable g := by
    rw [← integrableOn_univ, ← Iic_union_Ioi (a := -L)]
    exact i2.union i3
  refine ⟨i4, ?_⟩
  have e1 := intervalIntegral.integral_Iic_add_Ioi i2 i3
  have e2 := intervalIntegral.integral_interval_add_Ioi i3 i1
  have n1 : |∫ s in Ioi L, g s| ≤ K * Real.exp (-(c * L)) / c := by
    have h1 := norm_integral_le_of_norm_le r1 (ae_restrict_of_forall_mem measurableSet_Ioi b1)
    rw [integral_const_mul, integral_exp_mul_Ioi (neg_lt_zero.2 hc)] at h1
    rw [Real.norm_eq_abs] at h1
    refine h1.trans (le_of_eq ?_)
    rw [neg_mul, div_neg, neg_div, neg_neg, mul_div_assoc]
  have n2 : |∫ s in Iic (-L), g s| ≤ K * Real.exp (-(c * L)) / c := by
    have h1 := norm_integral_le_of_norm_le r2' (ae_restrict_of_forall_mem measurableSet_Iio b2')
    rw [← integral_Iic_eq_integral_Iio, ← integral_Iic_eq_integral_Iio, integral_const_mul, integral_exp_mul_Iic hc] at h1
    rw [Real.norm_eq_abs] at h1
    refine h1.trans (le_of_eq ?_)
    rw [mul_neg, mul_div_assoc]
  rw [← e1, ← e2]
  have := abs_add_le (∫ s in Iic (-L), g s) (∫ s in Ioi L, g s)
  calc _ = |(∫ s in Iic (-L), g s) + ∫ s in Ioi L, g s| := by congr 1; ring
    _ ≤ _ := by
      refine this.trans (by rw [show 2 * K * Real.exp (-(c * L)) / c = K * Real.exp (-(c * L)) / c + K * Real.exp (-(c * L)) / c by ring]; linarith)

theorem lineTotal_ray {J : Body → ℝ} {θ i dx dy : ℝ} (h : Integrable (ray J θ i dx dy)) : LineTotal J θ i dx dy (∫ s, ray J θ i dx dy s) :=
  ⟨_, fun s P hP => ray_seen J θ i dx dy s P hP, h, rfl⟩

/-- The distance of a point from the centre is at least its depth. -/
theorem depth_le (θ i dx dy s : ℝ) : s ^ 2 ≤ (sightline θ i dx dy s).x ^ 2 + (sightline θ i dx dy s).y ^ 2 + (sightline θ i dx dy s).z ^ 2 := by
  have e := Real.sin_sq_add_cos_sq i
  have h : (sightline θ i dx dy s).y ^ 2 + (sightline θ i dx dy s).z ^ 2 = across θ dx dy ^ 2 + s ^ 2 := by
    unfold sightline
    linear_combination (across θ dx dy ^ 2 + s ^ 2) * e
  nlinarith [sq_nonneg (sightline θ i dx dy s).x, sq_nonneg (across θ dx dy)]

/-- An ellipsoid whose first axis is the longest is inside the sphere. -/
theorem ellipsoid_ge {q qz : ℝ} (hq : 0 < q) (hq1 : q ≤ 1) (hz : 0 < qz) (hz1 : qz ≤ 1) (φ : ℝ) (P : Body) : P.x ^ 2 + P.y ^ 2 + P.z ^ 2 ≤ ellipsoid φ q qz P := by
  have e := Real.sin_sq_add_cos_sq φ
  have h : along φ P.x P.y ^ 2 + across φ P.x P.y ^ 2 = P.x ^ 2 + P.y ^ 2 := by
    unfold along across
    linear_combination (P.x ^ 2 + P.y ^ 2) * e
  have hd : ∀ a r : ℝ, 0 < r → r ≤ 1 → a ^ 2 ≤ (a / r) ^ 2 := fun a r h0 h1 => by
    rw [div_pow, le_div_iff₀ (by positivity)]
    nlinarith [sq_nonneg a, mul_le_one₀ h1 h0.le h1]
  unfold ellipsoid
  linarith [hd (across φ P.x P.y) q hq hq1, hd P.z qz hz hz1]

/-- C76: `FerrersBar3D` integrates over the whole bar if the first axis is the longest (as documented): the value is the integral along the whole line of sight, up to
the relative error of the integrator. (The bar itself is turned, see `C75_ferrers_false`.) -/
theorem C76_ferrers {τ : ℝ} {integ : (XR → XR) → XR → XR → XR} (hi : Integrates τ integ) (pa inc bpa j r q qz n : ℝ) (hr : 0 < r) (hq : 0 < q) (hq1 : q ≤ 1)
    (hz : 0 < qz) (hz1 : qz ≤ 1) (hn : 0 ≤ n) (pre post : List XR) (x0 y0 dx dy : ℝ) :
    ∃ v w : ℝ, LFun.ferrers.value integ defaultDesc (pre ++ [pa, inc, bpa, j, r, q, qz, n].map fin ++ post) pre.length (fin x0) (fin y0) (fin (x0 + dx)) (fin (y0 + dy)) =
        .ok (fin v) ∧
      LineTotal (ferrersJ ((bpa + 90) * degree + Real.pi / 2) j r q qz n) ((pa + 90) * degree) (inc * degree) dx dy w ∧ |v - w| ≤ τ * |w| := by
  have hp : LFun.ferrers.Physical [pa, inc, bpa, j, r, q, qz, n] := ⟨hr, hq, hz, hn⟩
  obtain ⟨v, hv, hb⟩ := los_value hi .ferrers _ hp trivial pre post x0 y0 (x0 + dx) (y0 + dy)
  simp only [add_sub_cancel_left] at hb
  set L := LFun.ferrers.range [pa, inc, bpa, j, r, q, qz, n] with hLd
  have hL : r ≤ L := by
    show r ≤ 101 / 100 * max _ r
    have := le_max_right (Real.sqrt (q * q * (r * r)) * Real.sin (inc * degree)) r
    linarith
  have hm := sightline_moves ((pa + 90) * degree) (inc * degree) dx dy
  obtain ⟨t1, t2⟩ := tail_bound (g := ray (LFun.ferrers.coded [pa, inc, bpa, j, r, q, qz, n]) ((pa + 90) * degree) (inc * degree) dx dy) (K := 0) (c := 1) (L := L) one_pos
    (by linarith) (ferrersJ_measurable hm _ _ _ _ _ _) (coded_ray_integrable .ferrers _ hp _ _ _ _ _ trivial) fun s hs => by
      rw [zero_mul]
      refine le_of_eq (abs_eq_zero.2 ?_)
      show ferrersJ _ j r q qz n (sightline ((pa + 90) * degree) (inc * degree) dx dy s) = 0
      unfold ferrersJ
      rw [if_pos]
      rw [lt_div_iff₀ (by positivity), one_mul]
      refine lt_of_lt_of_le ?_ ((depth_le ((pa + 90) * degree) (inc * degree) dx dy s).trans (ellipsoid_ge hq hq1 hz hz1 _ _))
      rw [← sq_abs s]
      have : r < |s| := lt_of_le_of_lt hL hs
      nlinarith
  rw [mul_zero, zero_mul, zero_div] at t2
  have e : (∫ s, ray (LFun.ferrers.coded [pa, inc, bpa, j, r, q, qz, n]) ((pa + 90) * degree) (inc * degree) dx dy s) =
      ∫ s in (-L)..L, ray (LFun.ferrers.coded [pa, inc, bpa, j, r, q, qz, n]) ((pa + 90) * degree) (inc * degree) dx dy s := sub_eq_zero.1 (abs_nonpos_iff.1 t2)
  exact ⟨v, _, hv, lineTotal_ray t1, by rw [show LFun.ferrers.coded [pa, inc, bpa, j, r, q, qz, n] = ferrersJ ((bpa + 90) * degree + Real.pi / 2) j r q qz n from rfl] at e hb; rw [e]; exact hb⟩

/-- A bar at an angle. -/
example : ∃ v w : ℝ, LFun.ferrers.value exactInteg defaultDesc ([fin 4] ++ [(30 : ℝ), 60, 20, 100, 10, 1 / 2, 1 / 3, 2].map fin ++ []) 1 (fin 5) (fin 5) (fin (5 + 1)) (fin (5 + 2)) =
    .ok (fin v) ∧ LineTotal (ferrersJ ((20 + 90) * degree + Real.pi / 2) 100 10 (1 / 2) (1 / 3) 2) ((30 + 90) * degree) (60 * degree) 1 2 w ∧ |v - w| ≤ 0 * |w| :=
  C76_ferrers exactInteg_integrates 30 60 20 100 10 (1 / 2) (1 / 3) 2 (by norm_num) (by norm_num) (by norm_num) (by norm_num) (by norm_num) (by norm_num) [fin 4] [] 5 5 1 2

/-- C76, partial: the exponential disk that is not thicker than long loses at most `2^(1+2/n) J_0 h exp(-20)` of the light of a pixel. Missing: thicker disks
(`C76_thick_disk_false`) and broken disks. -/
theorem C76_expDisk_partial (pa inc j h n z0 : ℝ) (hh : 0 < h) (hn : 0 < n) (hz : 0 < z0) (hzh : z0 ≤ h) (pre post : List XR) (x0 y0 dx dy : ℝ) :
    ∃ v w u : ℝ, LFun.expDisk.value exactInteg defaultDesc (pre ++ [pa, inc, j, h, n, z0].map fin ++ post) pre.length (fin x0) (fin y0) (fin (x0 + dx)) (fin (y0 + dy)) =
        .ok (fin v) ∧
      LineTotal (expDiskJ j h n z0) ((pa + 90) * degree) (inc * degree) dx dy w ∧
      LineIntegral (fun P => |expDiskJ j h n z0 P|) ((pa + 90) * degree) (inc * degree) (20 * h) dx dy u ∧
      |v - w| ≤ (Real.exp (2 / n * Real.exp (-200)) - 1) * u + 2 ^ (1 + 2 / n) * |j| * h * Real.exp (-20) := by
  have hp : LFun.expDisk.Physical [pa, inc, j, h, n, z0] := ⟨hh, hn, hz⟩
  obtain ⟨v, w, u, hv, hw, hu, hd⟩ := C75_documented le_rfl exactInteg_integrates .expDisk trivial _ hp (by show 0 ≤ 20 * h; positivity) pre post x0 y0 dx dy
  change LineIntegral (expDiskJ j h n z0) ((pa + 90) * degree) (inc * degree) (20 * h) dx dy w at hw
  change LineIntegral (fun P => |expDiskJ j h n z0 P|) ((pa + 90) * degree) (inc * degree) (20 * h) dx dy u at hu
  change |v - w| ≤ (Real.exp (2 / n * Real.exp (-200)) * (1 + 0) - 1) * u at hd
  have hm := sightline_moves ((pa + 90) * degree) (inc * degree) dx dy
  have hcont := expDiskJ_continuous hm j h n z0
  obtain ⟨t1, t2⟩ := tail_bound (g := ray (expDiskJ j h n z0) ((pa + 90) * degree) (inc * degree) dx dy) (K := |j| * 2 ^ (2 / n)) (c := 1 / h) (L := 20 * h) (by positivity)
    (by positivity) hcont.measurable (hcont.intervalIntegrable _ _) fun s _ => by
      show |expDiskJ j h n z0 (sightline ((pa + 90) * degree) (inc * degree) dx dy s)| ≤ _
      have hdl := depth_le ((pa + 90) * degree) (inc * degree) dx dy s
      set P := sightline ((pa + 90) * degree) (inc * degree) dx dy s
      unfold expDiskJ
      have hsech : sechI n z0 |P.z| ≤ 2 ^ (2 / n) * Real.exp (-(|P.z| / h)) := by
        unfold sechI
        have hc : Real.exp (n * |P.z| / (2 * z0)) / 2 ≤ Real.cosh (n * |P.z| / (2 * z0)) := by
          rw [Real.cosh_eq]
          have := Real.exp_pos (-(n * |P.z| / (2 * z0)))
          linarith
        have h1 : 1 / Real.cosh (n * |P.z| / (2 * z0)) ≤ 2 * Real.exp (-(n * |P.z| / (2 * z0))) := by
          rw [Real.exp_neg, ← div_eq_mul_inv, ← one_div_div (Real.exp _) 2]
          exact one_div_le_one_div_of_le (by positivity) hc
        refine (Real.rpow_le_rpow (by positivity) h1 (by positivity)).trans ?_
        rw [Real.mul_rpow (by norm_num) (Real.exp_pos _).le, ← Real.exp_mul]
        refine mul_le_mul_of_nonneg_left (Real.exp_le_exp.2 ?_) (by positivity)
        rw [show -(n * |P.z| / (2 * z0)) * (2 / n) = -(|P.z| / z0) by field_simp]
        exact neg_le_neg (div_le_div_of_nonneg_left (abs_nonneg _) hz hzh)
      have hs0 : 0 ≤ sechI n z0 |P.z| := by unfold sechI; positivity
      have hR : |s| ≤ Real.sqrt (P.x ^ 2 + P.y ^ 2) + |P.z| := by
        refine abs_le_of_sq_le_sq ?_ (by positivity)
        have := Real.sq_sqrt (by positivity : 0 ≤ P.x ^ 2 + P.y ^ 2)
        have := sq_abs P.z
        nlinarith [mul_nonneg (Real.sqrt_nonneg (P.x ^ 2 + P.y ^ 2)) (abs_nonneg P.z)]
      rw [abs_mul, abs_mul, abs_of_pos (Real.exp_pos _), abs_of_nonneg hs0]
      calc |j| * Real.exp (-(Real.sqrt (P.x ^ 2 + P.y ^ 2) / h)) * sechI n z0 |P.z|
          ≤ |j| * Real.exp (-(Real.sqrt (P.x ^ 2 + P.y ^ 2) / h)) * (2 ^ (2 / n) * Real.exp (-(|P.z| / h))) := mul_le_mul_of_nonneg_left hsech (by positivity)
        _ = |j| * 2 ^ (2 / n) * Real.exp (-((Real.sqrt (P.x ^ 2 + P.y ^ 2) + |P.z|) / h)) := by
          rw [add_div, neg_add, Real.exp_add]; ring
        _ ≤ _ := by
          refine mul_le_mul_of_nonneg_left (Real.exp_le_exp.2 (neg_le_neg ?_)) (by positivity)
          rw [one_div, inv_mul_eq_div]
          exact div_le_div_of_nonneg_right hR hh.le
  refine ⟨v, _, u, hv, lineTotal_ray t1, hu, ?_⟩
  rw [lineIntegral_unique hw] at hd
  have e : 2 * (|j| * 2 ^ (2 / n)) * Real.exp (-(1 / h * (20 * h))) / (1 / h) = 2 ^ (1 + 2 / n) * |j| * h * Real.exp (-20) := by
    rw [show 1 / h * (20 * h) = 20 by field_simp, Real.rpow_add (by norm_num), Real.rpow_one]
    field_simp
  rw [e] at t2
  rw [add_zero, mul_one] at hd
  rw [abs_sub_comm] at t2
  have := abs_add_le (v - ∫ s in (-(20 * h))..(20 * h), ray (expDiskJ j h n z0) ((pa + 90) * degree) (inc * degree) dx dy s)
    ((∫ s in (-(20 * h))..(20 * h), ray (expDiskJ j h n z0) ((pa + 90) * degree) (inc * degree) dx dy s) - ∫ s, ray (expDiskJ j h n z0) ((pa + 90) * degree) (inc * degree) dx dy s)
  rw [sub_add_sub_cancel] at this
  linarith

/-- A thin disk seen under 60 degrees. -/
example : ∃ v w u : ℝ, LFun.expDisk.value exactInteg defaultDesc ([fin 4] ++ [(30 : ℝ), 60, 100, 10, 2, 1].map fin ++ []) 1 (fin 5) (fin 5) (fin (5 + 1)) (fin (5 + 2)) =
      .ok (fin v) ∧
    LineTotal (expDiskJ 100 10 2 1) ((30 + 90) * degree) (60 * degree) 1 2 w ∧
    LineIntegral (fun P => |expDiskJ 100 10 2 1 P|) ((30 + 90) * degree) (60 * degree) (20 * 10) 1 2 u ∧
    |v - w| ≤ (Real.exp (2 / 2 * Real.exp (-200)) - 1) * u + 2 ^ (1 + 2 / (2 : ℝ)) * |(100 : ℝ)| * 10 * Real.exp (-20) :=
  C76_expDisk_partial 30 60 100 10 2 1 (by norm_num) (by norm_num) (by norm_num) (by norm_num) [fin 4] [] 5 5 1 2

/-- C76, partial: `TriaxBar3D` whose first axis is the longest loses at most `J_0 exp(-8 σ²)` of the light of a pixel, with `σ` in pixels. Missing: small bars, see
`C76_small_bar_false`. -/
theorem C76_triax_partial (pa inc bpa j σ q qz : ℝ) (hσ : 0 < σ) (hq : 0 < q) (hq1 : q ≤ 1) (hz : 0 < qz) (hz1 : qz ≤ 1) (pre post : List XR) (x0 y0 dx dy : ℝ) :
    ∃ v w : ℝ, LFun.triax.value exactInteg defaultDesc (pre ++ [pa, inc, bpa, j, σ, q, qz].map fin ++ post) pre.length (fin x0) (fin y0) (fin (x0 + dx)) (fin (y0 + dy)) =
        .ok (fin v) ∧
      LineTotal (triaxJ ((bpa + 90) * degree) j σ q qz) ((pa + 90) * degree) (inc * degree) dx dy w ∧ |v - w| ≤ |j| * Real.exp (-(8 * σ ^ 2)) := by
  have hp : LFun.triax.Physical [pa, inc, bpa, j, σ, q, qz] := ⟨hσ, hq, hz⟩
  have hv := los_value_exact .triax _ hp trivial pre post x0 y0 (x0 + dx) (y0 + dy)
  simp only [add_sub_cancel_left] at hv
  have hL : LFun.triax.range [pa, inc, bpa, j, σ, q, qz] = 4 * σ ^ 2 := (geometry_named .triax _ hp).2.2
  rw [hL] at hv
  have hm := sightline_moves ((pa + 90) * degree) (inc * degree) dx dy
  have hcont := triaxJ_continuous hm ((bpa + 90) * degree) j σ q qz
  obtain ⟨t1, t2⟩ := tail_bound (g := ray (triaxJ ((bpa + 90) * degree) j σ q qz) ((pa + 90) * degree) (inc * degree) dx dy) (K := |j|) (c := 2) (L := 4 * σ ^ 2) two_pos
    (by positivity) hcont.measurable (hcont.intervalIntegrable _ _) fun s hs => by
      show |triaxJ _ j σ q qz (sightline ((pa + 90) * degree) (inc * degree) dx dy s)| ≤ _
      unfold triaxJ
      rw [abs_mul, abs_of_pos (Real.exp_pos _)]
      refine mul_le_mul_of_nonneg_left (Real.exp_le_exp.2 (neg_le_neg ?_)) (abs_nonneg j)
      have h1 := (depth_le ((pa + 90) * degree) (inc * degree) dx dy s).trans (ellipsoid_ge hq hq1 hz hz1 ((bpa + 90) * degree) _)
      rw [le_div_iff₀ (by positivity)]
      rw [← sq_abs s] at h1
      nlinarith [abs_nonneg s]
  rw [show 2 * |j| * Real.exp (-(2 * (4 * σ ^ 2))) / 2 = |j| * Real.exp (-(8 * σ ^ 2)) by rw [show 2 * (4 * σ ^ 2) = 8 * σ ^ 2 by ring]; ring, abs_sub_comm] at t2
  exact ⟨_, _, hv, lineTotal_ray t1, t2⟩

/-- A bar with a width of three pixels. -/
example : ∃ v w : ℝ, LFun.triax.value exactInteg defaultDesc ([fin 4] ++ [(30 : ℝ), 60, 20, 100, 3, 1 / 2, 1 / 3].map fin ++ []) 1 (fin 5) (fin 5) (fin (5 + 1)) (fin (5 + 2)) =
      .ok (fin v) ∧
    LineTotal (triaxJ ((20 + 90) * degree) 100 3 (1 / 2) (1 / 3)) ((30 + 90) * degree) (60 * degree) 1 2 w ∧ |v - w| ≤ |100| * Real.exp (-(8 * 3 ^ 2)) :=
  C76_triax_partial 30 60 20 100 3 (1 / 2) (1 / 3) (by norm_num) (by norm_num) (by norm_num) (by norm_num) (by norm_num) [fin 4] [] 5 5 1 2

/-- C76 is false of small bars of `TriaxBar3D`: the range is `4 σ²`, which is not a length. A bar with a width of a quarter of a pixel is cut off at one `σ`. -/
theorem C76_small_bar_false : ∃ (p : List ℝ) (v w : ℝ), LFun.triax.Physical p ∧
    LFun.triax.value exactInteg defaultDesc (p.map fin) 0 (fin 0) (fin 0) (fin 0) (fin 0) = .ok (fin v) ∧
    LineTotal (LFun.triax.documented (LFun.triax.named p)) ((LFun.triax.named p "PA" + 90) * degree) (LFun.triax.named p "inc" * degree) 0 0 w ∧ v ≤ 1 / 2 ∧ 3 / 5 < w := by
  have hp : LFun.triax.Physical [0, 0, 0, 1, 1 / 4, 1, 1] := ⟨by norm_num, one_pos, one_pos⟩
  set p : List ℝ := [0, 0, 0, 1, 1 / 4, 1, 1] with hpd
  have hv := los_value_exact .triax p hp trivial [] [] 0 0 0 0
  rw [List.nil_append, List.append_nil, List.length_nil, sub_self] at hv
  have hL : LFun.triax.range p = 1 / 4 := by
    rw [(geometry_named .triax p hp).2.2]
    show 4 * (1 / 4 : ℝ) ^ 2 = 1 / 4
    norm_num
  have hray : ∀ s, ray (LFun.triax.documented (LFun.triax.named p)) ((LFun.triax.named p "PA" + 90) * degree) (LFun.triax.named p "inc" * degree) 0 0 s =
      Real.exp (-8 * s ^ 2) := by
    intro s
    show triaxJ _ 1 (1 / 4) 1 1 (sightline ((0 + 90) * degree) (0 * degree) 0 0 s) = _
    unfold triaxJ ellipsoid sightline along across
    simp only [zero_mul, Real.cos_zero, Real.sin_zero, mul_zero, add_zero, zero_add, sub_self, zero_sub, one_mul, mul_one, div_one]
    congr 1
    ring
  have hfun : ray (LFun.triax.documented (LFun.triax.named p)) ((LFun.triax.named p "PA" + 90) * degree) (LFun.triax.named p "inc" * degree) 0 0 =
      fun s => Real.exp (-8 * s ^ 2) := funext hray
  have hint : Integrable (ray (LFun.triax.documented (LFun.triax.named p)) ((LFun.triax.named p "PA" + 90) * degree) (LFun.triax.named p "inc" * degree) 0 0) := by
    rw [hfun]
    exact integrable_exp_neg_mul_sq (by norm_num)
  refine ⟨p, _, _, hp, hv, lineTotal_ray hint, ?_, ?_⟩
  · rw [hL]
    have h1 : (∫ s in (-(1 / 4 : ℝ))..(1 / 4), ray (LFun.triax.coded p) (nodes p) (tilt p) 0 0 s) ≤ ∫ _ in (-(1 / 4 : ℝ))..(1 / 4), (1 : ℝ) := by
      refine intervalIntegral.integral_mono_on (by norm_num) (coded_ray_integrable .triax p hp _ _ _ _ _ trivial) intervalIntegrable_const fun s _ => ?_
      have e : ray (LFun.triax.coded p) (nodes p) (tilt p) 0 0 s = Real.exp (-8 * s ^ 2) := hray s
      rw [e]
      exact Real.exp_le_one_iff.2 (by nlinarith [sq_nonneg s])
    refine h1.trans (le_of_eq ?_)
    rw [intervalIntegral.integral_const, smul_eq_mul]
    norm_num
  · rw [hfun, integral_gaussian]
    refine Real.lt_sqrt_of_sq_lt ?_
    have := Real.pi_gt_three
    linarith

/-- C76 is false of thick disks: a face-on disk a hundred times as thick as long loses more than a third of its light. -/
theorem C76_thick_disk_false : ∃ (p : List ℝ) (v w : ℝ), LFun.expDisk.Physical p ∧
    LFun.expDisk.value exactInteg defaultDesc (p.map fin) 0 (fin 0) (fin 0) (fin 0) (fin 0) = .ok (fin v) ∧
    LineIntegral (LFun.expDisk.documented (LFun.expDisk.named p)) ((LFun.expDisk.named p "PA" + 90) * degree) (LFun.expDisk.named p "inc" * degree) 100 0 0 w ∧
    v ≤ 40 ∧ 66 < w := by
  have hp : LFun.expDisk.Physical [0, 0, 1, 1, 1, 100] := ⟨one_pos, one_pos, by norm_num⟩
  set p : List ℝ := [0, 0, 1, 1, 1, 100] with hpd
  have hv := los_value_exact .expDisk p hp trivial [] [] 0 0 0 0
  rw [List.nil_append, List.append_nil, List.length_nil, sub_self] at hv
  have hL : LFun.expDisk.range p = 20 := by show 20 * (1 : ℝ) = 20; norm_num
  have hcont := expDiskJ_continuous (sightline_moves ((0 + 90) * degree) (0 * degree) 0 0) 1 1 1 100
  have hpt : ∀ s, sightline ((0 + 90) * degree) (0 * degree) 0 0 s = ⟨0, 0, -s⟩ := by
    intro s
    unfold sightline along across
    simp
  refine ⟨p, _, _, hp, hv, lineIntegral_ray (hcont.intervalIntegrable _ _), ?_, ?_⟩
  · rw [hL]
    have h1 : (∫ s in (-(20 : ℝ))..20, ray (LFun.expDisk.coded p) (nodes p) (tilt p) 0 0 s) ≤ ∫ _ in (-(20 : ℝ))..20, (1 : ℝ) := by
      refine intervalIntegral.integral_mono_on (by norm_num) (coded_ray_integrable .expDisk p hp _ _ _ _ _ trivial) intervalIntegrable_const fun s hs => ?_
      show LFun.expDisk.coded p (sightline ((0 + 90) * degree) (0 * degree) 0 0 s) ≤ 1
      rw [hpt]
      show 1 * Real.exp (-(Real.sqrt (0 ^ 2 + 0 ^ 2) / 1)) * sechCode 1 100 |(-s)| ≤ 1
      have hs1 : |(-s)| ≤ 20 := by rw [abs_neg]; exact abs_le.2 hs
      have h2 : sechCode 1 100 |(-s)| ≤ 1 := by
        unfold sechCode
        rw [if_neg (show ¬(100 < |(-s)| / (2 / 1 * 100)) by rw [not_lt, div_le_iff₀ (by norm_num)]; linarith)]
        exact Real.rpow_le_one (by have := Real.cosh_pos (|(-s)| / (2 / 1 * 100)); positivity) (by rw [div_le_one (Real.cosh_pos _)]; exact Real.one_le_cosh _) (by norm_num)
      simpa using h2
    refine h1.trans (le_of_eq ?_)
    rw [intervalIntegral.integral_const, smul_eq_mul]
    norm_num
  · have h1 : (∫ _ in (-(100 : ℝ))..100, (Real.exp (-1))) ≤
        ∫ s in (-(100 : ℝ))..100, ray (LFun.expDisk.documented (LFun.expDisk.named p)) ((LFun.expDisk.named p "PA" + 90) * degree) (LFun.expDisk.named p "inc" * degree) 0 0 s := by
      refine intervalIntegral.integral_mono_on (by norm_num) intervalIntegrable_const (hcont.intervalIntegrable _ _) fun s hs => ?_
      show Real.exp (-1) ≤ expDiskJ 1 1 1 100 (sightline ((0 + 90) * degree) (0 * degree) 0 0 s)
      rw [hpt]
      have hs1 : |(-s)| ≤ 100 := by rw [abs_neg]; exact abs_le.2 hs
      unfold expDiskJ sechI
      simp only [ne_eq, OfNat.ofNat_ne_zero, not_false_eq_true, zero_pow, add_zero, Real.sqrt_zero, neg_zero, Real.exp_zero, one_mul, div_one]
      have hx0 : 0 ≤ |(-s)| / (2 * 100) := by positivity
      have hx : |(-s)| / (2 * 100) ≤ 1 / 2 := by rw [div_le_iff₀ (by norm_num)]; linarith
      have hc : Real.cosh (|(-s)| / (2 * 100)) ≤ Real.exp (1 / 2) := by
        rw [Real.cosh_eq]
        have a1 := Real.exp_le_exp.2 hx
        have a2 : Real.exp (-(|(-s)| / (2 * 100))) ≤ Real.exp (1 / 2) := Real.exp_le_exp.2 (by linarith)
        linarith
      calc Real.exp (-1) = (1 / Real.exp (1 / 2)) ^ (2 : ℝ) := by
            rw [one_div, ← Real.exp_neg, ← Real.exp_mul]; norm_num
        _ ≤ _ := Real.rpow_le_rpow (by positivity) (one_div_le_one_div_of_le (Real.cosh_pos _) hc) (by norm_num)
    refine lt_of_lt_of_le ?_ h1
    rw [intervalIntegral.integral_const, smul_eq_mul, Real.exp_neg]
    have h2 := Real.exp_one_lt_d9
    have h3 : (1 : ℝ) / 3 < (Real.exp 1)⁻¹ := by
      rw [← one_div]
      exact one_div_lt_one_div_of_lt (Real.exp_pos 1) (by linarith)
    linarith

/-- C76 is false of rings of radius zero (a disk with a Gaussian profile) and of `BPBar3D` with a break radius of zero: nothing is integrated, and the image is zero
everywhere although the density is positive everywhere. -/
theorem C76_empty_range_false :
    (∃ p : List ℝ, LFun.ring.Physical p ∧ (∀ P, 0 < LFun.ring.documented (LFun.ring.named p) P) ∧
      ∀ x y : ℝ, LFun.ring.value exactInteg defaultDesc (p.map fin) 0 (fin 0) (fin 0) (fin x) (fin y) = .ok (fin 0)) ∧
    ∃ p : List ℝ, LFun.bpBar.Physical p ∧ (∀ P, 0 < LFun.bpBar.documented (LFun.bpBar.named p) P) ∧
      ∀ x y : ℝ, LFun.bpBar.value exactInteg defaultDesc (p.map fin) 0 (fin 0) (fin 0) (fin x) (fin y) = .ok (fin 0) := by
  constructor
  · have hp : LFun.ring.Physical [0, 0, 0, 0, 1, 0, 1, 1] := ⟨one_pos, one_pos, one_pos⟩
    refine ⟨_, hp, fun P => ?_, fun x y => ?_⟩
    · show 0 < ringJ _ _ 1 _ _ _ P
      unfold ringJ bell
      positivity
    · have h := los_value_exact .ring _ hp trivial [] [] 0 0 x y
      rw [List.nil_append, List.append_nil, List.length_nil, show LFun.ring.range [0, 0, 0, 0, 1, 0, 1, 1] = 0 from mul_zero 2, neg_zero, intervalIntegral.integral_same] at h
      exact h
  · have hp : LFun.bpBar.Physical [0, 0, 0, 1, 0, 1, 1, 1, 0, 1, 0, 1, 1, 1, 1, 1] :=
      ⟨one_pos, one_pos, one_pos, one_pos, one_pos, one_pos, one_pos, one_pos, one_pos⟩
    refine ⟨_, hp, fun P => ?_, fun x y => ?_⟩
    · show 0 < bpBarJ _ _ _ 1 1 1 0 1 _ 1 1 1 1 1 P
      unfold bpBarJ brokenI
      have := fun u v => bumps_pos 1 1 u v
      have := one_add_exp_pos (-(1 * 0))
      refine add_pos ?_ ?_
      · have := fun r => one_add_exp_pos (1 * (r - 0))
        refine mul_pos (mul_pos (mul_pos (mul_pos one_pos ?_) (Real.exp_pos _)) ?_) (Real.exp_pos _)
        · exact Real.rpow_pos_of_pos (one_add_exp_pos _) _
        · exact Real.rpow_pos_of_pos (one_add_exp_pos _) _
      · exact mul_pos (mul_pos (div_pos one_pos (mul_pos one_pos (bumps_pos _ _ _ _))) (Real.exp_pos _)) (Real.exp_pos _)
    · have h := los_value_exact .bpBar _ hp ⟨zero_le_one, zero_le_one⟩ [] [] 0 0 x y
      rw [List.nil_append, List.append_nil, List.length_nil, show LFun.bpBar.range [0, 0, 0, 1, 0, 1, 1, 1, 0, 1, 0, 1, 1, 1, 1, 1] = 0 from mul_zero 5, neg_zero,
        intervalIntegral.integral_same] at h
      exact h

end Imfit
