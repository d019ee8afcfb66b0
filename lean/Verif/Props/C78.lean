import Verif.Props.C77

/-!
# C78 — the luminosity parameter of a three-dimensional component is its largest density
-/

namespace Imfit

open Spec XR MeasureTheory

theorem sechCode_le_one {n z0 : ℝ} (hn : 0 < n) (hz : 0 < z0) (z : ℝ) : sechCode n z0 z ≤ 1 := by
  unfold sechCode
  split
  · rename_i h
    have e : z / (2 / n * z0) = n * z / (2 * z0) := by field_simp
    rw [e] at h
    have e2 : Real.exp (-(z / z0)) = Real.exp (-(n * z / (2 * z0))) ^ (2 / n) := by
      rw [← Real.exp_mul]
      congr 1
      field_simp
    rw [e2, ← Real.mul_rpow (by norm_num) (Real.exp_pos _).le]
    refine Real.rpow_le_one (by positivity) ?_ (by positivity)
    have h1 : Real.exp (-(n * z / (2 * z0))) ≤ Real.exp (-1) := Real.exp_le_exp.2 (by linarith)
    have h2 : Real.exp (-1) ≤ 1 / 2 := by
      rw [Real.exp_neg, ← one_div]
      exact one_div_le_one_div_of_le two_pos (by have := Real.add_one_le_exp (1 : ℝ); linarith)
    linarith
  · exact Real.rpow_le_one (by have := Real.cosh_pos (z / (2 / n * z0)); positivity) (by rw [div_le_one (Real.cosh_pos _)]; exact Real.one_le_cosh _) (by positivity)

/-- The ratio of the two factors of a broken exponential. -/
theorem ratio_le {x y : ℝ} (hx : 0 < x) {e g : ℝ} (h1 : 1 ≤ y / x) (h2 : y / x ≤ Real.exp g) (hy : 0 < y) : x ^ (-e) * y ^ e ≤ Real.exp (max (e * g) 0) := by
  have h : x ^ (-e) * y ^ e = (y / x) ^ e := by rw [Real.div_rpow hy.le hx.le, Real.rpow_neg hx.le]; ring
  rw [h]
  rcases le_total 0 e with h0 | h0
  · refine (Real.rpow_le_rpow (by positivity) h2 h0).trans ?_
    rw [← Real.exp_mul, mul_comm]
    exact Real.exp_le_exp.2 (le_max_left _ _)
  · refine (Real.rpow_le_one_of_one_le_of_nonpos h1 h0).trans ?_
    exact Real.one_le_exp (le_max_right _ _)

theorem brokenCode_le {amp h1 h2 rb a r : ℝ} (hamp : 0 ≤ amp) (hh1 : 0 < h1) (hh2 : 0 < h2) (ha : 0 < a) (hrb : 0 ≤ rb) (hr : 0 ≤ r) : brokenCode amp h1 h2 rb a r ≤ amp := by
  set e := 1 / a * (1 / h1 - 1 / h2) with he
  have hx := one_add_exp_pos (-(a * rb))
  have hx2 : 1 + Real.exp (-(a * rb)) ≤ 2 := by
    have := Real.exp_le_one_iff.2 (neg_nonpos.2 (mul_nonneg ha.le hrb))
    linarith
  have hfin : max (e * (a * r)) 0 + -(r / h1) ≤ 0 := by
    have e1 : e * (a * r) = r / h1 - r / h2 := by rw [he]; field_simp
    rw [e1]
    have p1 : 0 ≤ r / h1 := by positivity
    have p2 : 0 ≤ r / h2 := by positivity
    rcases max_cases (r / h1 - r / h2) 0 with ⟨h, _⟩ | ⟨h, _⟩ <;> rw [h] <;> linarith
  have key : ∀ y : ℝ, 0 < y → 1 ≤ y / (1 + Real.exp (-(a * rb))) → y / (1 + Real.exp (-(a * rb))) ≤ Real.exp (a * r) →
      amp * (1 + Real.exp (-(a * rb))) ^ (-e) * Real.exp (-(r / h1)) * y ^ e ≤ amp := by
    intro y hy k1 k2
    have h := ratio_le (e := e) hx k1 k2 hy
    calc _ = amp * ((1 + Real.exp (-(a * rb))) ^ (-e) * y ^ e * Real.exp (-(r / h1))) := by ring
      _ ≤ amp * (Real.exp (max (e * (a * r)) 0) * Real.exp (-(r / h1))) :=
        mul_le_mul_of_nonneg_left (mul_le_mul_of_nonneg_right h (Real.exp_pos _).le) hamp
      _ ≤ amp * 1 := mul_le_mul_of_nonneg_left (by rw [← Real.exp_add]; exact Real.exp_le_one_iff.2 hfin) hamp
      _ = amp := mul_one _
  unfold brokenCode
  split
  · rename_i h
    have := key (Real.exp (a * (r - rb))) (Real.exp_pos _) ?_ ?_
    · refine le_trans (le_of_eq ?_) this
      have ee : Real.exp (rb / h2 - rb / h1 - r / h2) = Real.exp (-(r / h1)) * Real.exp (a * (r - rb)) ^ e := by
        rw [← Real.exp_mul, ← Real.exp_add]
        congr 1
        rw [he]
        field_simp
        ring
      rw [ee]
      ring
    · rw [le_div_iff₀ hx, one_mul]
      have := Real.add_one_le_exp (a * (r - rb))
      linarith
    · rw [div_le_iff₀ hx]
      have h1 : Real.exp (a * (r - rb)) = Real.exp (a * r) * Real.exp (-(a * rb)) := by rw [← Real.exp_add]; congr 1; ring
      rw [h1]
      have := Real.exp_pos (a * r)
      nlinarith
  · unfold brokenI
    refine key _ (one_add_exp_pos _) ?_ ?_
    · rw [le_div_iff₀ hx, one_mul]
      have : Real.exp (-(a * rb)) ≤ Real.exp (a * (r - rb)) := Real.exp_le_exp.2 (by nlinarith)
      linarith
    · rw [div_le_iff₀ hx]
      have h1 : Real.exp (a * (r - rb)) = Real.exp (a * r) * Real.exp (-(a * rb)) := by rw [← Real.exp_add]; congr 1; ring
      rw [h1]
      have := Real.one_le_exp (mul_nonneg ha.le hr)
      nlinarith

/-- The largest density. -/
noncomputable def LFun.peak (v : String → ℝ) : LFun → ℝ
  | .peanut => v "J0_bar"
  | _ => v "J_0"

theorem coded_le (F : LFun) (hF : F ≠ .bpBar) (p : List ℝ) (hp : F.Physical p) (hl : F.Luminous (F.named p)) (hb : F = .brokenDisk → 0 ≤ F.named p "r_break") (P : Body) :
    F.coded p P ≤ F.peak (F.named p) := by
  have he : ∀ a b : ℝ, 0 ≤ a → 0 < b → Real.exp (-(a / b)) ≤ 1 := fun a b h0 h1 => Real.exp_le_one_iff.2 (neg_nonpos.2 (by positivity))
  unfold LFun.Physical at hp
  split at hp
  · rename_i j h n z0
    have h1 := he (Real.sqrt (P.x ^ 2 + P.y ^ 2)) h (Real.sqrt_nonneg _) hp.1
    have h2 := sechCode_le_one hp.2.1 hp.2.2 |P.z|
    have hj : 0 ≤ j := hl
    show j * Real.exp (-(Real.sqrt (P.x ^ 2 + P.y ^ 2) / h)) * sechCode n z0 |P.z| ≤ j
    calc _ ≤ j * 1 * 1 := mul_le_mul (mul_le_mul_of_nonneg_left h1 hj) h2 (sechCode_nonneg _ _ _) (by linarith)
      _ = j := by ring
  · rename_i j h1 h2 rb a n z0
    have hj : 0 ≤ j := hl
    have hrb : 0 ≤ rb := hb rfl
    show brokenCode j h1 h2 rb a (Real.sqrt (P.x ^ 2 + P.y ^ 2)) * sechCode n z0 |P.z| ≤ j
    calc _ ≤ j * 1 := mul_le_mul (brokenCode_le hj hp.1 hp.2.1 hp.2.2.1 hrb (Real.sqrt_nonneg _)) (sechCode_le_one hp.2.2.2.1 hp.2.2.2.2 |P.z|) (sechCode_nonneg _ _ _) hj
      _ = j := mul_one j
  · rename_i j a σ hz
    have hj : 0 ≤ j := hl
    show ringJ _ _ j a σ hz P ≤ j
    unfold ringJ bell
    calc _ ≤ j * 1 * 1 := mul_le_mul (mul_le_mul_of_nonneg_left (he _ _ (sq_nonneg _) (by have := hp.2.1; positivity)) hj) (he _ _ (abs_nonneg _) hp.2.2) (Real.exp_pos _).le
          (by linarith)
      _ = j := by ring
  · rename_i j r q qz n
    have hj : 0 ≤ j := hl
    exact (le_abs_self _).trans ((ferrersJ_bound hp.2.2.2 _ j _ _ _ P).trans (le_of_eq (abs_of_nonneg hj)))
  · rename_i j rx q qz rp ap sp cpar cperp
    have hj : 0 ≤ j := hl
    refine mul_le_of_le_one_right hj ?_
    rw [Real.rpow_neg (Real.cosh_pos _).le]
    exact inv_le_one_of_one_le₀ (Real.one_le_rpow (Real.one_le_cosh _) (by norm_num))
  · rename_i j σ q qz
    have hj : 0 ≤ j := hl
    refine mul_le_of_le_one_right hj (he _ _ ?_ (by have := hp.1; positivity))
    unfold ellipsoid
    positivity
  · exact absurd rfl hF
  · exact hp.elim

/-- C78, partial: no pixel of a three-dimensional component is brighter than the luminosity parameter times the length of the integration range. Missing: `BPBar3D`, see
`C78_unbounded_false`. -/
theorem C78_peak_partial {integ : (XR → XR) → XR → XR → XR} (hi : Integrates 0 integ) (F : LFun) (hF : F ≠ .bpBar) (p : List ℝ) (hp : F.Physical p)
    (hl : F.Luminous (F.named p)) (hb : F = .brokenDisk → 0 ≤ F.named p "r_break") (hL : 0 ≤ F.depth (F.named p)) (pre post : List XR) (x0 y0 x y : ℝ) :
    ∃ v : ℝ, F.value integ defaultDesc (pre ++ p.map fin ++ post) pre.length (fin x0) (fin y0) (fin x) (fin y) = .ok (fin v) ∧
      v ≤ 2 * F.depth (F.named p) * F.peak (F.named p) := by
  have hs : F.Shines (F.named p) := by cases F <;> trivial
  refine ⟨_, los_value_zero hi F p hp hs pre post x0 y0 x y, ?_⟩
  rw [← (geometry_named F p hp).2.2] at hL ⊢
  have h1 : (∫ s in (-F.range p)..F.range p, ray (F.coded p) (nodes p) (tilt p) (x - x0) (y - y0) s) ≤ ∫ _ in (-F.range p)..F.range p, F.peak (F.named p) :=
    intervalIntegral.integral_mono_on (by linarith) (coded_ray_integrable F p hp _ _ _ _ _ hs) intervalIntegrable_const fun s _ => coded_le F hF p hp hl hb _
  refine h1.trans (le_of_eq ?_)
  rw [intervalIntegral.integral_const, smul_eq_mul]
  ring

/-- A broken disk. -/
example : ∃ v : ℝ, LFun.brokenDisk.value exactInteg defaultDesc ([] ++ [(30 : ℝ), 60, 100, 10, 5, 20, 1, 2, 1].map fin ++ []) 0 (fin 5) (fin 5) (fin 7) (fin 8) = .ok (fin v) ∧
    v ≤ 2 * max (20 * 20) (20 * 5) * 100 :=
  C78_peak_partial exactInteg_integrates .brokenDisk (by simp) [30, 60, 100, 10, 5, 20, 1, 2, 1] ⟨by norm_num, by norm_num, by norm_num, by norm_num, by norm_num⟩
    (by show (0 : ℝ) ≤ 100; norm_num) (fun _ => by show (0 : ℝ) ≤ 20; norm_num) (by show (0 : ℝ) ≤ max (20 * 20) (20 * 5); norm_num) [] [] 5 5 7 8

/-- C78 is false of `BPBar3D`: the density of its bulge is divided by a factor that falls off faster than the density itself, so that in the midplane the density grows
without bound away from the centre. -/
theorem C78_unbounded_false : ∃ p : List ℝ, LFun.bpBar.Physical p ∧ ∀ M, ∃ (f : LosFn XR) (x d : ℝ),
    LFun.bpBar.setup defaultDesc (p.map fin) 0 (fin 0) (fin 0) = .ok f ∧ f.dens (fin x) (fin 0) (fin 0) = fin d ∧ M < d := by
  have hp : LFun.bpBar.Physical [0, 0, -90, 1, 0, 0, 1, 1, 1, 1, 0, 1, 0, 1, 1, 1] :=
    ⟨one_pos, one_pos, one_pos, one_pos, one_pos, one_pos, one_pos, one_pos, one_pos⟩
  refine ⟨_, hp, fun M => ?_⟩
  obtain ⟨f, hf, hP⟩ := build_isLos .bpBar 1 0 1 one_pos _ hp 0 0
  rw [adjust_one'] at hP
  have hset := LFun.setup_reads .bpBar ⟨fin 1, fin 0, fin 1⟩ [] _ [] (LFun.physical_length .bpBar _ hp) (fin 0) (fin 0)
  rw [List.nil_append, List.append_nil, hf] at hset
  set m := max M 0 with hm
  have hm0 : 0 ≤ m := le_max_right _ _
  refine ⟨f, 2 + 2 * m, _, hset, hP.hd _ _ _, ?_⟩
  refine lt_of_le_of_lt (le_max_left M 0) ?_
  rw [← hm]
  have e1 : along ((-90 + 90) * degree) (2 + 2 * m) 0 = 2 + 2 * m := by unfold along; norm_num
  have e2 : across ((-90 + 90) * degree) (2 + 2 * m) 0 = 0 := by unfold across; norm_num
  have e3 : ellDist (1 - 0) (2 + 2 * m) 0 = 2 + 2 * m := by
    unfold ellDist
    rw [zero_div, show (2 + 2 * m) ^ 2 + (0 : ℝ) ^ 2 = (2 + 2 * m) ^ 2 by ring, Real.sqrt_sq (by linarith)]
  have e4 : bumps 0 1 (2 + 2 * m) 0 = 2 * Real.exp (-((2 + 2 * m) ^ 2 / 2)) := by
    unfold bumps bell
    simp only [sub_zero, neg_zero, ne_eq, OfNat.ofNat_ne_zero, not_false_eq_true, zero_pow, zero_div, Real.exp_zero, mul_one, one_pow]
    ring
  have e5 : LFun.bpBar.coded [0, 0, -90, 1, 0, 0, 1, 1, 1, 1, 0, 1, 0, 1, 1, 1] ⟨2 + 2 * m, 0, 0⟩ = 1 / 2 * Real.exp (2 * m * (1 + m)) := by
    simp only [LFun.coded, e1, e2, zero_div, e3, e4, abs_zero, neg_zero, Real.exp_zero, mul_one, one_mul]
    rw [show brokenCode 0 1 1 1 1 (2 + 2 * m) = 0 by have := brokenCode_mul 0 0 1 1 1 1 (2 + 2 * m); rwa [zero_mul, zero_mul] at this, zero_add]
    rw [div_mul_eq_mul_div, one_mul, div_one, ← div_div, div_eq_mul_inv, ← Real.exp_neg, show ∀ a b : ℝ, Real.exp a / 2 * Real.exp b = 1 / 2 * Real.exp (a + b) from
      fun a b => by rw [Real.exp_add]; ring]
    congr 2
    ring
  rw [e5]
  have h1 := Real.add_one_le_exp (2 * m * (1 + m))
  nlinarith [mul_nonneg hm0 hm0]

end Imfit
