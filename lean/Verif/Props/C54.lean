import Verif.Props.C53
import Mathlib.Analysis.Complex.ExponentialBounds

/-!
# C54: beyond the overflow guards the profiles go on as documented
-/

namespace Imfit

open Spec XR

/-- The documented intensity of the functions with an overflow guard, along and across the major axis. For the flat bar the break radius and the outer scale length
at the given angle are those of the code. -/
noncomputable def PFun.documented : PFun XR → List ℝ → ℝ → ℝ → ℝ
  | .brokenExp, [_, ell, i0, h1, h2, rb, a], u, v => brokenI i0 h1 h2 rb a (ellDist (1 - ell) u v)
  | .doubleBroken, [_, ell, i0, h1, h2, h3, rb1, rb2, a1, a2], u, v => doubleBrokenI i0 h1 h2 h3 rb1 rb2 a1 a2 (ellDist (1 - ell) u v)
  | .flatExp, [_, ell, i0, h, rb, a], u, v => flatExpI i0 h rb a (ellDist (1 - ell) u v)
  | .brokenExp2d, [_, i0, h1, h2, rb, a, hz], u, v => brokenI i0 h1 h2 rb a |u| * Real.exp (-(|v| / hz))
  | .brokenBar, [_, i0, h1, h2, rb, a, s], u, v => brokenI i0 h1 h2 rb a |u| * bell 0 s v
  | .edgeDisk k1, [_, l0, h, n, z0], u, v => diskI (realK k1) l0 h n z0 u v
  | .flatBar, [_, ell, dpa, i0, h1, h2, rb, a], u, v =>
    if u = 0 ∧ v = 0 then brokenI i0 h1 h2 rb a 0
    else brokenI i0 h1 (flatH2 (dpa * degree) h1 h2 (axisAngle u v)) (ellDist (1 - ell) u v / ellDist 1 u v * rb) a (ellDist (1 - ell) u v)
  | _, _, _, _ => 0

/-- Bound on the logarithm of the ratio between the documented intensity and the one computed. -/
noncomputable def PFun.slack : PFun XR → List ℝ → ℝ
  | .brokenExp, [_, _, _, h1, h2, _, a] => |1 / h1 - 1 / h2| / a * Real.exp (-100)
  | .doubleBroken, [_, _, _, h1, h2, h3, _, _, a1, a2] => (|1 / h1 - 1 / h2| / a1 + |1 / h2 - 1 / h3| / a2) * Real.exp (-100)
  | .brokenExp2d, [_, _, h1, h2, _, a, _] => |1 / h1 - 1 / h2| / a * Real.exp (-100)
  | .brokenBar, [_, _, h1, h2, _, a, _] => |1 / h1 - 1 / h2| / a * Real.exp (-100)
  | .edgeDisk _, [_, _, _, n, _] => 2 / n * Real.exp (-200)
  | .flatBar, [_, _, _, _, h1, h2, _, a] => |1 / h1 - 1 / h2| / a * Real.exp (-100)
  | _, _ => 0

/-- The functions with an accurate guard. -/
def PFun.guarded : PFun XR → Prop
  | .brokenExp => True
  | .doubleBroken => True
  | .brokenExp2d => True
  | .brokenBar => True
  | .edgeDisk _ => True
  | .flatBar => True
  | _ => False

/-- For large arguments `1 + e^x` is `e^x` up to a tiny factor. -/
theorem one_add_exp_large {x c : ℝ} (hx : c ≤ x) : ∃ δ, 0 ≤ δ ∧ δ ≤ Real.exp (-c) ∧ 1 + Real.exp x = Real.exp (x + δ) := by
  refine ⟨Real.log (1 + Real.exp (-x)), Real.log_nonneg (by have := Real.exp_pos (-x); linarith), ?_, ?_⟩
  · have h1 : Real.log (1 + Real.exp (-x)) ≤ Real.exp (-x) := by
      have := Real.log_le_sub_one_of_pos (one_add_exp_pos (-x))
      linarith
    exact h1.trans (Real.exp_le_exp.2 (by linarith))
  · rw [Real.exp_add, Real.exp_log (one_add_exp_pos _), mul_add, mul_one, ← Real.exp_add, add_neg_cancel, Real.exp_zero, add_comm]

theorem bend_large {ha hb rb a r : ℝ} (ha0 : 0 < a) (hx : 100 < a * (r - rb)) : ∃ ε, |ε| ≤ |1 / ha - 1 / hb| / a * Real.exp (-100) ∧
    (1 + Real.exp (a * (r - rb))) ^ (1 / a * (1 / ha - 1 / hb)) = Real.exp ((r - rb) * (1 / ha - 1 / hb)) * Real.exp ε := by
  obtain ⟨δ, h0, h1, h2⟩ := one_add_exp_large hx.le
  refine ⟨δ * (1 / a * (1 / ha - 1 / hb)), ?_, ?_⟩
  · rw [abs_mul, abs_mul, abs_of_nonneg h0, abs_of_pos (one_div_pos.2 ha0)]
    calc δ * (1 / a * |1 / ha - 1 / hb|) ≤ Real.exp (-100) * (1 / a * |1 / ha - 1 / hb|) := mul_le_mul_of_nonneg_right h1 (by positivity)
      _ = _ := by ring
  · rw [h2, ← Real.exp_mul, ← Real.exp_add]
    congr 1
    field_simp

theorem brokenI_code {h1 h2 a : ℝ} (ha0 : 0 < a) (amp rb r : ℝ) : ∃ ε, |ε| ≤ |1 / h1 - 1 / h2| / a * Real.exp (-100) ∧
    brokenI amp h1 h2 rb a r = brokenCode amp h1 h2 rb a r * Real.exp ε := by
  unfold brokenCode
  by_cases h : 100 < a * (r - rb)
  · obtain ⟨ε, he, hb⟩ := bend_large (ha := h1) (hb := h2) ha0 h
    refine ⟨ε, he, ?_⟩
    rw [if_pos h]
    unfold brokenI
    rw [hb, show rb / h2 - rb / h1 - r / h2 = -(r / h1) + (r - rb) * (1 / h1 - 1 / h2) by ring, Real.exp_add]
    ring
  · exact ⟨0, by rw [abs_zero]; positivity, by rw [if_neg h, Real.exp_zero, mul_one]⟩

theorem dbe_code {ha hb a : ℝ} (ha0 : 0 < a) (rb r : ℝ) : ∃ ε, |ε| ≤ |1 / ha - 1 / hb| / a * Real.exp (-100) ∧
    (1 + Real.exp (a * (r - rb))) ^ (1 / a * (1 / ha - 1 / hb)) = dbeCode ha hb rb a r * Real.exp ε := by
  unfold dbeCode
  by_cases h : 100 < a * (r - rb)
  · obtain ⟨ε, he, hx⟩ := bend_large (ha := ha) (hb := hb) ha0 h
    refine ⟨ε, he, ?_⟩
    rw [if_pos h, hx]
    congr 2
    ring
  · exact ⟨0, by rw [abs_zero]; positivity, by rw [if_neg h, Real.exp_zero, mul_one]⟩

theorem doubleBroken_code {h1 h2 h3 a1 a2 : ℝ} (ha1 : 0 < a1) (ha2 : 0 < a2) (amp rb1 rb2 r : ℝ) :
    ∃ ε, |ε| ≤ (|1 / h1 - 1 / h2| / a1 + |1 / h2 - 1 / h3| / a2) * Real.exp (-100) ∧
      doubleBrokenI amp h1 h2 h3 rb1 rb2 a1 a2 r = doubleBrokenCode amp h1 h2 h3 rb1 rb2 a1 a2 r * Real.exp ε := by
  obtain ⟨e1, b1, x1⟩ := dbe_code (ha := h1) (hb := h2) ha1 rb1 r
  obtain ⟨e2, b2, x2⟩ := dbe_code (ha := h2) (hb := h3) ha2 rb2 r
  refine ⟨e1 + e2, ?_, ?_⟩
  · rw [add_mul]
    exact (abs_add_le _ _).trans (add_le_add b1 b2)
  · unfold doubleBrokenI doubleBrokenCode bend
    rw [Real.div_rpow (one_add_exp_pos _).le (one_add_exp_pos _).le, Real.div_rpow (one_add_exp_pos _).le (one_add_exp_pos _).le, x1, x2, Real.exp_add]
    field_simp

theorem sech_code {n z0 : ℝ} (hn : 0 < n) (hz : 0 < z0) (z : ℝ) : ∃ ε, |ε| ≤ 2 / n * Real.exp (-200) ∧ sechI n z0 z = sechCode n z0 z * Real.exp ε := by
  have e : z / (2 / n * z0) = n * z / (2 * z0) := by field_simp
  unfold sechCode sechI
  rw [e]
  by_cases h : 100 < n * z / (2 * z0)
  · obtain ⟨δ, h0, h1, h2⟩ := one_add_exp_large (x := 2 * (n * z / (2 * z0))) (c := 200) (by linarith)
    refine ⟨-(2 / n * δ), ?_, ?_⟩
    · rw [abs_neg, abs_of_nonneg (by positivity)]
      exact mul_le_mul_of_nonneg_left h1 (by positivity)
    · rw [if_pos h]
      set y := n * z / (2 * z0) with hy
      have hc : Real.cosh y = Real.exp (y + δ) / 2 := by
        rw [Real.cosh_eq]
        have : Real.exp (y + δ) = Real.exp (-y) * (1 + Real.exp (2 * y)) := by rw [h2, ← Real.exp_add]; congr 1; ring
        rw [this, mul_add, mul_one, ← Real.exp_add, show -y + 2 * y = y by ring, add_comm]
      rw [hc, one_div_div, Real.div_rpow (by norm_num) (Real.exp_pos _).le, ← Real.exp_mul, mul_assoc, ← Real.exp_add, div_eq_mul_inv, ← Real.exp_neg]
      congr 2
      rw [hy]
      field_simp
      ring
  · exact ⟨0, by rw [abs_zero]; positivity, by rw [if_neg h, Real.exp_zero, mul_one]⟩

theorem flatH2_between {dpa h1 h2 w : ℝ} (hd : 0 < dpa) (hh1 : 0 < h1) (hh2 : 0 < h2) (hw : 0 ≤ w) :
    |1 / h1 - 1 / flatH2 dpa h1 h2 w| ≤ |1 / h1 - 1 / h2| := by
  unfold flatH2
  split_ifs with h
  · simp
  · have hs : w * w ≤ dpa * dpa := mul_self_le_mul_self hw (not_lt.1 h)
    obtain ⟨τ, hτ⟩ : ∃ τ, τ = w * w / (dpa * dpa) := ⟨_, rfl⟩
    have e : h2 + (h1 - h2) / (dpa * dpa) * w * w = h2 + (h1 - h2) * τ := by rw [hτ]; field_simp
    have hle : τ ≤ 1 := by rw [hτ]; exact (div_le_one (by positivity)).2 hs
    have hge : 0 ≤ τ := by rw [hτ]; positivity
    rw [e]
    rcases le_total h1 h2 with hc | hc
    · have hm : h1 ≤ h2 + (h1 - h2) * τ := by nlinarith
      have hm2 : h2 + (h1 - h2) * τ ≤ h2 := by nlinarith
      have q1 := one_div_le_one_div_of_le hh1 hm
      have q2 := one_div_le_one_div_of_le (hh1.trans_le hm) hm2
      rw [abs_of_nonneg (by linarith), abs_of_nonneg (by linarith)]
      linarith
    · have hm : h2 + (h1 - h2) * τ ≤ h1 := by nlinarith
      have hm2 : h2 ≤ h2 + (h1 - h2) * τ := by nlinarith
      have q1 := one_div_le_one_div_of_le hh2 hm2
      have q2 := one_div_le_one_div_of_le (hh2.trans_le hm2) hm
      rw [abs_of_nonpos (by linarith), abs_of_nonpos (by linarith)]
      linarith

/-- C54: for the functions with an accurate guard the value of a pixel is the documented intensity at its centre up to a relative deviation of the size of
`e^-100` times the ratio of the scale lengths, for all parameters of the physical range and all points — inside and beyond the radius at which the code changes to
the asymptotic form. -/
theorem C54_guard (F : PFun XR) (hF : F.guarded) (p : List ℝ) (hp : F.Physical p) (pre post : List XR) (x0 y0 x y : ℝ) :
    ∃ v ε : ℝ, F.value false defaultDesc (pre ++ p.map fin ++ post) pre.length (fin x0) (fin y0) (fin x) (fin y) = .ok (fin v) ∧
      F.documented p (along (majorAxis p) (x - x0) (y - y0)) (across (majorAxis p) (x - x0) (y - y0)) = v * Real.exp ε ∧ |ε| ≤ F.slack p := by
  suffices h : ∀ u v, ∃ ε, F.documented p u v = F.ref p u v * Real.exp ε ∧ |ε| ≤ F.slack p by
    obtain ⟨ε, h1, h2⟩ := h (along (majorAxis p) (x - x0) (y - y0)) (across (majorAxis p) (x - x0) (y - y0))
    exact ⟨_, ε, by rw [defaultDesc_fin, value_off F 1 0 1 one_pos p hp, adjust_one], h1, h2⟩
  intro u v
  unfold PFun.Physical at hp
  split at hp <;> first | exact False.elim hF | exact False.elim hp | skip
  · obtain ⟨ε, h1, h2⟩ := brokenI_code hp.2.2.2 _ _ _
    exact ⟨ε, h2, h1⟩
  · obtain ⟨ε, h1, h2⟩ := doubleBroken_code hp.2.2.2.2.1 hp.2.2.2.2.2 _ _ _ _
    exact ⟨ε, h2, h1⟩
  · obtain ⟨ε, h1, h2⟩ := brokenI_code hp.2.2.1 _ _ _
    refine ⟨ε, ?_, h1⟩
    simp only [PFun.documented, PFun.ref]
    rw [h2]
    ring
  · obtain ⟨ε, h1, h2⟩ := brokenI_code hp.2.2.1 _ _ _
    refine ⟨ε, ?_, h1⟩
    simp only [PFun.documented, PFun.ref]
    rw [h2]
    ring
  · obtain ⟨ε, h1, h2⟩ := sech_code hp.2.1 hp.2.2.1 |v|
    refine ⟨ε, ?_, h1⟩
    simp only [PFun.documented, PFun.ref, diskI, edgeDiskCode, h2, abs_eq_zero]
    ring
  · obtain ⟨hell, hd, hh1, hh2, ha⟩ := hp
    have hdeg : 0 < degree := by unfold degree; positivity
    simp only [PFun.documented, PFun.ref, flatBarCode, PFun.slack]
    by_cases h0 : u = 0 ∧ v = 0
    · simp only [if_pos h0]
      obtain ⟨ε, h1, h2⟩ := brokenI_code ha _ _ _
      exact ⟨ε, h2, h1⟩
    · simp only [if_neg h0]
      obtain ⟨ε, h1, h2⟩ := brokenI_code ha _ _ _
      refine ⟨ε, h2, h1.trans ?_⟩
      have := flatH2_between (mul_pos hd hdeg) hh1 hh2 (axisAngle_nonneg u v)
      gcongr

/-- A broken exponential with break radius 10 and sharpness 10, at radius 40, far beyond the guard: the pixel is within `e^(±0.01 e^-100)` of the formula. -/
example : ∃ v ε : ℝ, (PFun.brokenExp : PFun XR).value false defaultDesc ([] ++ [(0 : ℝ), 0, 100, 10, 5, 10, 10].map fin ++ []) 0 (fin 0) (fin 0) (fin 40) (fin 0) =
      .ok (fin v) ∧ brokenI 100 10 5 10 10 40 = v * Real.exp ε ∧ |ε| ≤ 1 / 100 * Real.exp (-100) := by
  obtain ⟨v, ε, h1, h2, h3⟩ := C54_guard .brokenExp trivial [0, 0, 100, 10, 5, 10, 10] ⟨by norm_num, by norm_num, by norm_num, by norm_num⟩ [] [] 0 0 40 0
  refine ⟨v, ε, h1, ?_, h3.trans (le_of_eq ?_)⟩
  · rw [← h2]
    simp only [PFun.documented]
    congr 1
    unfold ellDist along across
    have h := Real.sin_sq_add_cos_sq (majorAxis [0, 0, 100, 10, 5, 10, 10])
    rw [show ((40 - 0) * Real.cos (majorAxis [0, 0, 100, 10, 5, 10, 10]) + (0 - 0) * Real.sin (majorAxis [0, 0, 100, 10, 5, 10, 10])) ^ 2 +
      (((0 - 0) * Real.cos (majorAxis [0, 0, 100, 10, 5, 10, 10]) - (40 - 0) * Real.sin (majorAxis [0, 0, 100, 10, 5, 10, 10])) / (1 - 0)) ^ 2 =
      40 ^ 2 * (Real.sin (majorAxis [0, 0, 100, 10, 5, 10, 10]) ^ 2 + Real.cos (majorAxis [0, 0, 100, 10, 5, 10, 10]) ^ 2) by ring, h, mul_one, Real.sqrt_sq (by norm_num)]
  · unfold PFun.slack
    norm_num

theorem flatExp_code {h a : ℝ} (hh : 0 < h) (ha : 0 < a) (amp rb r : ℝ) (hx : 100 < a * (r - rb)) : ∃ ε, |ε| ≤ 1 / (a * h) * Real.exp (-100) ∧
    flatExpI amp h rb a r = flatExpCode amp h rb a r * Real.exp (rb / h) * Real.exp ε := by
  obtain ⟨δ, h0, h1, h2⟩ := one_add_exp_large hx.le
  refine ⟨-(1 / (a * h) * δ), ?_, ?_⟩
  · rw [abs_neg, abs_of_nonneg (by positivity)]
    exact mul_le_mul_of_nonneg_left h1 (by positivity)
  · unfold flatExpCode flatExpI
    rw [if_pos hx, h2, ← Real.exp_mul, mul_assoc (_ * _ ^ _) (Real.exp (-(r / h))), ← Real.exp_add, mul_assoc, mul_assoc, mul_assoc, ← Real.exp_add]
    congr 3
    field_simp
    ring

/-- C54 fails for `FlatExponential`: beyond the guard the code leaves out the factor `e^(r_b/h)`, so that the documented intensity is larger than the value of the
pixel by that factor, for all parameters and all pixels beyond the guard. With a break radius of ten scale lengths the profile drops by the factor 22000 between the
two sides of the guard. -/
theorem C54_flatExp_false :
    (∀ pa ell amp h rb a : ℝ, ell < 1 → 0 < h → 0 < a → ∀ (pre post : List XR) (x0 y0 x y : ℝ),
      100 < a * (ellDist (1 - ell) (along ((pa + 90) * degree) (x - x0) (y - y0)) (across ((pa + 90) * degree) (x - x0) (y - y0)) - rb) →
      ∃ v ε : ℝ, (PFun.flatExp : PFun XR).value false defaultDesc (pre ++ [pa, ell, amp, h, rb, a].map fin ++ post) pre.length (fin x0) (fin y0) (fin x) (fin y) =
          .ok (fin v) ∧
        flatExpI amp h rb a (ellDist (1 - ell) (along ((pa + 90) * degree) (x - x0) (y - y0)) (across ((pa + 90) * degree) (x - x0) (y - y0))) =
          v * Real.exp (rb / h) * Real.exp ε ∧ |ε| ≤ 1 / (a * h) * Real.exp (-100)) ∧
    ∃ v : ℝ, (PFun.flatExp : PFun XR).value false defaultDesc ([(0 : ℝ), 0, 100, 5, 50, 10].map fin) 0 (fin 0) (fin 0) (fin 70) (fin 0) = .ok (fin v) ∧
      0 < v ∧ 22000 * v < flatExpI 100 5 50 10 70 := by
  have key : ∀ pa ell amp h rb a : ℝ, ell < 1 → 0 < h → 0 < a → ∀ (pre post : List XR) (x0 y0 x y : ℝ),
      (PFun.flatExp : PFun XR).value false defaultDesc (pre ++ [pa, ell, amp, h, rb, a].map fin ++ post) pre.length (fin x0) (fin y0) (fin x) (fin y) =
        .ok (fin (flatExpCode amp h rb a (ellDist (1 - ell) (along ((pa + 90) * degree) (x - x0) (y - y0)) (across ((pa + 90) * degree) (x - x0) (y - y0))))) := by
    intro pa ell amp h rb a he hh ha pre post x0 y0 x y
    rw [defaultDesc_fin, value_off .flatExp 1 0 1 one_pos [pa, ell, amp, h, rb, a] ⟨he, hh, ha⟩]
    rfl
  refine ⟨?_, ?_⟩
  · intro pa ell amp h rb a he hh ha pre post x0 y0 x y hx
    obtain ⟨ε, h1, h2⟩ := flatExp_code hh ha amp rb _ hx
    exact ⟨_, ε, key pa ell amp h rb a he hh ha pre post x0 y0 x y, h2, h1⟩
  · have hr : ∀ θ, ellDist (1 - 0) (along θ (70 - 0) (0 - 0)) (across θ (70 - 0) (0 - 0)) = 70 := by
      intro θ
      unfold ellDist along across
      have h := Real.sin_sq_add_cos_sq θ
      rw [show ((70 - 0) * Real.cos θ + (0 - 0) * Real.sin θ) ^ 2 + (((0 - 0) * Real.cos θ - (70 - 0) * Real.sin θ) / (1 - 0)) ^ 2 =
        70 ^ 2 * (Real.sin θ ^ 2 + Real.cos θ ^ 2) by ring, h, mul_one, Real.sqrt_sq (by norm_num)]
    have hv := key 0 0 100 5 50 10 (by norm_num) (by norm_num) (by norm_num) [] [] 0 0 70 0
    rw [hr] at hv
    refine ⟨_, hv, ?_, ?_⟩
    · unfold flatExpCode
      rw [if_pos (by norm_num)]
      positivity
    · obtain ⟨ε, h1, h2⟩ := flatExp_code (h := 5) (a := 10) (by norm_num) (by norm_num) 100 50 70 (by norm_num)
      rw [h2]
      have hpos : 0 < flatExpCode 100 5 50 10 70 := by
        unfold flatExpCode
        rw [if_pos (by norm_num)]
        positivity
      have hε : -(1 / 1000) ≤ ε := by
        have e1 : Real.exp (-100) ≤ 1 / 20 := by
          rw [Real.exp_neg, inv_eq_one_div]
          apply one_div_le_one_div_of_le (by norm_num)
          have := Real.add_one_le_exp (100 : ℝ)
          linarith
        have h3 := (abs_le.1 h1).1
        have : 1 / ((10 : ℝ) * 5) * Real.exp (-100) ≤ 1 / 1000 := by linarith
        linarith
      rw [mul_assoc, ← Real.exp_add, mul_comm]
      apply mul_lt_mul_of_pos_left _ hpos
      have h4 : Real.exp (9999 / 1000) ≤ Real.exp (50 / 5 + ε) := Real.exp_le_exp.2 (by linarith)
      refine lt_of_lt_of_le ?_ h4
      have e1 : Real.exp (9999 / 1000) = Real.exp 1 ^ 10 * Real.exp (-(1 / 1000)) := by
        rw [← Real.exp_nat_mul, ← Real.exp_add]
        norm_num
      have e2 : (2.7182818283 : ℝ) ^ 10 ≤ Real.exp 1 ^ 10 := pow_le_pow_left₀ (by norm_num) Real.exp_one_gt_d9.le 10
      have e3 : (999 / 1000 : ℝ) ≤ Real.exp (-(1 / 1000)) := by
        have := Real.add_one_le_exp (-(1 / 1000) : ℝ)
        linarith
      rw [e1]
      calc (22000 : ℝ) < 2.7182818283 ^ 10 * (999 / 1000) := by norm_num
        _ ≤ Real.exp 1 ^ 10 * Real.exp (-(1 / 1000)) := mul_le_mul e2 e3 (by norm_num) (by positivity)

end Imfit
