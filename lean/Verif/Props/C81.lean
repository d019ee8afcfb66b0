import Verif.Lemmas.Spiral
import Mathlib.Topology.Order.Basic
import Mathlib.Analysis.SpecialFunctions.Pow.Continuity

/-!
# C81 — spiral components have the documented arms and amplitude
-/

namespace Imfit

open Spec XR

/-- What a user may ask for: a pattern whose arms wind neither at right angles to the radius nor along it, of positive size and width, in a plane seen from any direction
but edge-on. -/
structure Spec.PatternOk (ell pitch ri σ : ℝ) : Prop where
  ell_lt : ell < 1
  sin_ne : Real.sin (pitch * degree) ≠ 0
  cos_ne : Real.cos (pitch * degree) ≠ 0
  ri_pos : 0 < ri
  σ_pos : 0 < σ

/-- The value of a spiral with an integer number of arms at the point with polar coordinates `(r, φ)` of its plane is the documented one: the radial amplitude times an
azimuthal Gaussian centred on the arms. `φ` may be any real number. For `LogSpiral3` only where the code uses its exact formula.
What is missing: a number of arms that is not an integer (`C81_fraction_false`) and continuity of the amplitude of `LogSpiral3` (`C81_jump_false`). -/
theorem C81_partial (A : Amplitude) (hA : A.Ok) (m : ℤ) {pa ell pitch ri σ γ : ℝ} (hp : PatternOk ell pitch ri σ) (x0 y0 : ℝ) (pre post : List XR) {r : ℝ} (hr : 0 < r)
    (hE : A.Exact r) (φ : ℝ) :
    A.fn.value (pre ++ (A.params pa ell m pitch ri σ γ).map fin ++ post) pre.length (fin x0) (fin y0)
        (fin (x0 + (planePoint ((pa + 90) * degree) (1 - ell) r φ).1)) (fin (y0 + (planePoint ((pa + 90) * degree) (1 - ell) r φ).2)) =
      .ok (fin (A.at r * ridge m σ r (φ - armAngle pitch ri γ r))) := by
  rw [spiral_value A hA hp.ell_lt hp.sin_ne hp.cos_ne hp.ri_pos hp.σ_pos.ne' x0 y0 pre post hr hE φ]
  obtain ⟨k, hk⟩ := arg_polar hr φ
  rw [hk, show φ + k * (2 * Real.pi) - armAngle pitch ri γ r = φ - armAngle pitch ri γ r + k * (2 * Real.pi) by ring, ridge_turns]

theorem amplitude_pos (A : Amplitude) (hA : A.Ok) {r : ℝ} (hr : 0 < r) : 0 < A.at r := by
  cases A with
  | plain i0 => exact hA
  | trunc i0 h rmax s =>
    obtain ⟨h1, h2, h3, h4⟩ := hA
    simp only [Amplitude.at, bell]
    split_ifs <;> positivity
  | broken i0 h1 h2 rb a rmax s =>
    obtain ⟨k1, k2, k3, k4, k5, k6⟩ := hA
    simp only [Amplitude.at, bell, brokenI]
    split_ifs
    · positivity
    · have := one_add_exp_pos (-(a * rb))
      have := one_add_exp_pos (a * (r - rb))
      positivity
  | expo imax h rmax s =>
    obtain ⟨h1, h2, h3, h4⟩ := hA
    simp only [Amplitude.at, bell]
    split_ifs <;> positivity
  | gauss imax rmax si so =>
    obtain ⟨h1, h2, h3, h4⟩ := hA
    simp only [Amplitude.at, bell]
    split_ifs <;> positivity

theorem ridge_le (m σ r δ : ℝ) : ridge m σ r δ ≤ 1 := by
  unfold ridge
  rw [Real.exp_le_one_iff]
  have h1 := Real.cos_le_one (m * δ)
  have h2 : 0 ≤ r ^ 2 / σ ^ 2 := by positivity
  nlinarith

theorem ridge_eq_one {m : ℤ} (hm : m ≠ 0) {σ r : ℝ} (hσ : 0 < σ) (hr : 0 < r) (δ : ℝ) : ridge m σ r δ = 1 ↔ ∃ k : ℤ, δ = k * (2 * Real.pi / m) := by
  have hm' : (m : ℝ) ≠ 0 := by exact_mod_cast hm
  have hs : r ^ 2 / σ ^ 2 ≠ 0 := by positivity
  unfold ridge
  rw [Real.exp_eq_one_iff, neg_eq_zero, mul_eq_zero, or_iff_right hs, sub_eq_zero, eq_comm, Real.cos_eq_one_iff]
  constructor
  · rintro ⟨k, hk⟩
    exact ⟨k, by rw [mul_div_assoc', eq_div_iff hm', mul_comm δ, hk]⟩
  · rintro ⟨k, hk⟩
    exact ⟨k, by rw [hk]; field_simp⟩

/-- The arms: at every radius the value is positive, at most the amplitude, and equal to it exactly on the `m` logarithmic spirals
`φ = γ + ln(r/R_i)/tan(pitch) + 2πk/m`. -/
theorem C81_arms (A : Amplitude) (hA : A.Ok) (m : ℤ) (hm : m ≠ 0) {pa ell pitch ri σ γ : ℝ} (hp : PatternOk ell pitch ri σ) (x0 y0 : ℝ) (pre post : List XR) {r : ℝ}
    (hr : 0 < r) (hE : A.Exact r) (φ : ℝ) :
    ∃ v, A.fn.value (pre ++ (A.params pa ell m pitch ri σ γ).map fin ++ post) pre.length (fin x0) (fin y0)
          (fin (x0 + (planePoint ((pa + 90) * degree) (1 - ell) r φ).1)) (fin (y0 + (planePoint ((pa + 90) * degree) (1 - ell) r φ).2)) = .ok (fin v) ∧
      0 < v ∧ v ≤ A.at r ∧ (v = A.at r ↔ ∃ k : ℤ, φ = armAngle pitch ri γ r + k * (2 * Real.pi / m)) := by
  have ha := amplitude_pos A hA hr
  refine ⟨_, C81_partial A hA m hp x0 y0 pre post hr hE φ, mul_pos ha (Real.exp_pos _), mul_le_of_le_one_right ha.le (ridge_le _ _ _ _), ?_⟩
  rw [mul_eq_left₀ ha.ne', ridge_eq_one hm hp.σ_pos hr]
  constructor
  · rintro ⟨k, hk⟩
    exact ⟨k, by linarith⟩
  · rintro ⟨k, hk⟩
    exact ⟨k, by linarith⟩

/-- The pattern repeats `m` times around the centre. -/
theorem C81_symmetry (A : Amplitude) (hA : A.Ok) (m : ℤ) (hm : m ≠ 0) {pa ell pitch ri σ γ : ℝ} (hp : PatternOk ell pitch ri σ) (x0 y0 : ℝ) (pre post : List XR) {r : ℝ}
    (hr : 0 < r) (hE : A.Exact r) (φ : ℝ) :
    A.fn.value (pre ++ (A.params pa ell m pitch ri σ γ).map fin ++ post) pre.length (fin x0) (fin y0)
        (fin (x0 + (planePoint ((pa + 90) * degree) (1 - ell) r (φ + 2 * Real.pi / m)).1))
        (fin (y0 + (planePoint ((pa + 90) * degree) (1 - ell) r (φ + 2 * Real.pi / m)).2)) =
      A.fn.value (pre ++ (A.params pa ell m pitch ri σ γ).map fin ++ post) pre.length (fin x0) (fin y0)
        (fin (x0 + (planePoint ((pa + 90) * degree) (1 - ell) r φ).1)) (fin (y0 + (planePoint ((pa + 90) * degree) (1 - ell) r φ).2)) := by
  have hm' : (m : ℝ) ≠ 0 := by exact_mod_cast hm
  rw [C81_partial A hA m hp x0 y0 pre post hr hE, C81_partial A hA m hp x0 y0 pre post hr hE]
  unfold ridge
  rw [show (m : ℝ) * (φ + 2 * Real.pi / m - armAngle pitch ri γ r) = m * (φ - armAngle pitch ri γ r) + 2 * Real.pi by field_simp; ring, Real.cos_add_two_pi]

/-- The amplitude is the largest at `R_max` for `LogSpiralExp` and `LogSpiralGauss`, and it is the intensity given by the user. -/
theorem C81_maximum (imax h rmax s so r : ℝ) (h0 : 0 < imax) (hh : 0 < h) :
    (Amplitude.expo imax h rmax s).at rmax = imax ∧ (Amplitude.expo imax h rmax s).at r ≤ imax ∧
    (Amplitude.gauss imax rmax s so).at rmax = imax ∧ (Amplitude.gauss imax rmax s so).at r ≤ imax := by
  have hb : ∀ s, bell rmax s r ≤ 1 := fun s => by
    unfold bell
    rw [Real.exp_le_one_iff, neg_nonpos]
    positivity
  refine ⟨by simp [Amplitude.at], mul_le_of_le_one_right h0.le ?_, by simp [Amplitude.at, bell], mul_le_of_le_one_right h0.le ?_⟩
  · split_ifs with hr
    · exact hb s
    · rw [Real.exp_le_one_iff, neg_nonpos]
      exact div_nonneg (by linarith) hh.le
  · split_ifs <;> exact hb _

theorem bell_continuous (m s : ℝ) : Continuous (bell m s) := by
  unfold bell
  fun_prop

/-- The amplitudes of `LogSpiral`, `LogSpiral2`, `LogSpiralExp` and `LogSpiralGauss` are continuous. -/
theorem C81_continuous (A : Amplitude) (hA : A.Ok) (hB : A.fn ≠ .broken) : Continuous A.at := by
  cases A with
  | plain i0 => exact continuous_const
  | trunc i0 h rmax s =>
    obtain ⟨h1, h2, h3, h4⟩ := hA
    show Continuous fun r => (if r < rmax then r / rmax * bell rmax s r else 1) * (i0 * Real.exp (-(r / h)))
    refine Continuous.mul ?_ (by fun_prop)
    have : (fun r => if r < rmax then r / rmax * bell rmax s r else 1) = fun r => if rmax ≤ r then 1 else r / rmax * bell rmax s r := by
      funext r
      by_cases hr : r < rmax
      · rw [if_pos hr, if_neg (not_le.2 hr)]
      · rw [if_neg hr, if_pos (not_lt.1 hr)]
    rw [this]
    refine Continuous.if_le continuous_const ((continuous_id.div_const _).mul (bell_continuous _ _)) continuous_const continuous_id ?_
    intro r hr
    subst hr
    simp [bell, h3.ne']
  | broken => exact absurd rfl hB
  | expo imax h rmax s =>
    show Continuous fun r => imax * if r < rmax then bell rmax s r else Real.exp (-((r - rmax) / h))
    refine continuous_const.mul ?_
    have : (fun r => if r < rmax then bell rmax s r else Real.exp (-((r - rmax) / h))) = fun r => if rmax ≤ r then Real.exp (-((r - rmax) / h)) else bell rmax s r := by
      funext r
      by_cases hr : r < rmax
      · rw [if_pos hr, if_neg (not_le.2 hr)]
      · rw [if_neg hr, if_pos (not_lt.1 hr)]
    rw [this]
    refine Continuous.if_le (by fun_prop) (bell_continuous _ _) continuous_const continuous_id ?_
    intro r hr
    subst hr
    simp [bell]
  | gauss imax rmax si so =>
    show Continuous fun r => imax * if r < rmax then bell rmax si r else bell rmax so r
    refine continuous_const.mul ?_
    have : (fun r => if r < rmax then bell rmax si r else bell rmax so r) = fun r => if rmax ≤ r then bell rmax so r else bell rmax si r := by
      funext r
      by_cases hr : r < rmax
      · rw [if_pos hr, if_neg (not_le.2 hr)]
      · rw [if_neg hr, if_pos (not_lt.1 hr)]
    rw [this]
    refine Continuous.if_le (bell_continuous _ _) (bell_continuous _ _) continuous_const continuous_id ?_
    intro r hr
    subst hr
    simp [bell]

/-- The amplitude of `LogSpiral3` just inside `R_max` tends to a value other than that at `R_max`. -/
theorem broken_limit (i0 h1 h2 rb a rmax s : ℝ) (hA : (Amplitude.broken i0 h1 h2 rb a rmax s).Ok) (hne : h1 ≠ h2) :
    ∃ L, L ≠ (Amplitude.broken i0 h1 h2 rb a rmax s).at rmax ∧
      Filter.Tendsto (Amplitude.broken i0 h1 h2 rb a rmax s).at (nhdsWithin rmax (Set.Iio rmax)) (nhds L) := by
  obtain ⟨k1, k2, k3, k4, k5, k6⟩ := hA
  set f := (Amplitude.broken i0 h1 h2 rb a rmax s).at with hf
  have hg : Continuous fun r : ℝ => r / rmax * bell rmax s r * (i0 * Real.exp (-(r / h1))) :=
    ((continuous_id.div_const _).mul (bell_continuous _ _)).mul (by fun_prop)
  have hl : Filter.Tendsto f (nhdsWithin rmax (Set.Iio rmax)) (nhds (rmax / rmax * bell rmax s rmax * (i0 * Real.exp (-(rmax / h1))))) := by
    refine (hg.continuousAt.tendsto.mono_left nhdsWithin_le_nhds).congr' ?_
    filter_upwards [self_mem_nhdsWithin] with r hr
    simp only [hf, Amplitude.at]
    rw [if_pos (show r < rmax from hr)]
  refine ⟨_, ?_, hl⟩
  intro e
  have hb : bell rmax s rmax = 1 := by simp [bell]
  simp only [hf, Amplitude.at, lt_irrefl, if_false, hb, div_self k5.ne', one_mul, brokenI] at e
  set S := 1 + Real.exp (-(a * rb)) with hS
  set T := 1 + Real.exp (a * (rmax - rb)) with hT
  set ex := 1 / a * (1 / h1 - 1 / h2) with hex
  have hSp : 0 < S := one_add_exp_pos _
  have hTp : 0 < T := one_add_exp_pos _
  have hne' : ex ≠ 0 := by
    rw [hex]
    refine mul_ne_zero (by positivity) (sub_ne_zero.2 fun h => hne ?_)
    rw [one_div, one_div] at h
    exact inv_injective h
  have h3 : S ^ (-ex) * T ^ ex = 1 := by
    have hE := (Real.exp_pos (-(rmax / h1))).ne'
    have : i0 * Real.exp (-(rmax / h1)) * (S ^ (-ex) * T ^ ex) = i0 * Real.exp (-(rmax / h1)) * 1 := by linear_combination -e
    exact mul_left_cancel₀ (mul_ne_zero k1.ne' hE) this
  rw [Real.rpow_neg hSp.le, inv_mul_eq_one₀ (Real.rpow_pos_of_pos hSp _).ne'] at h3
  have h4 : S = T := Real.rpow_left_injOn hne' hSp.le hTp.le h3
  have h5 : -(a * rb) = a * (rmax - rb) := Real.exp_injective (by rw [hS, hT] at h4; linarith)
  have : a * rmax = 0 := by linarith
  rcases mul_eq_zero.1 this with h | h <;> linarith

/-- `LogSpiral3` jumps at `R_max`, whatever the parameters (with two different scale lengths): there is a positive difference that separates the value on an arm at `R_max`
from the values on the same arm at all radii just inside, because the inner part is not multiplied with the bend of the broken exponential. -/
theorem C81_jump_false (i0 h1 h2 rb a rmax s : ℝ) (hA : (Amplitude.broken i0 h1 h2 rb a rmax s).Ok) (hne : h1 ≠ h2) (hx : a * (rmax - rb) ≤ 100) (m : ℤ)
    {pa ell pitch ri σ γ : ℝ} (hp : PatternOk ell pitch ri σ) (x0 y0 : ℝ) (pre post : List XR) :
    let value := fun r => SpiralFun.broken.value (pre ++ [pa, ell, m, pitch, ri, σ, γ, i0, h1, h2, rb, a, rmax, s].map fin ++ post) pre.length (fin x0) (fin y0)
      (fin (x0 + (planePoint ((pa + 90) * degree) (1 - ell) r (armAngle pitch ri γ r)).1)) (fin (y0 + (planePoint ((pa + 90) * degree) (1 - ell) r (armAngle pitch ri γ r)).2))
    ∃ d > 0, ∃ ρ < rmax, ∀ r, ρ < r → r < rmax → ∃ v w, value r = .ok (fin v) ∧ value rmax = .ok (fin w) ∧ d < |v - w| := by
  intro value
  set A := Amplitude.broken i0 h1 h2 rb a rmax s with hAdef
  have hval : ∀ r, 0 < r → r ≤ rmax → value r = .ok (fin (A.at r)) := by
    intro r h0 h1'
    have hE : A.Exact r := by
      have ha := hA.2.2.2.1
      show a * (r - rb) ≤ 100
      nlinarith
    have h := C81_partial A hA m (pa := pa) (γ := γ) hp x0 y0 pre post h0 hE (armAngle pitch ri γ r)
    rw [sub_self] at h
    have e : ridge m σ r 0 = 1 := by simp [ridge]
    rw [e, mul_one] at h
    exact h
  obtain ⟨L, hL, ht⟩ := broken_limit i0 h1 h2 rb a rmax s hA hne
  have hd : 0 < |L - A.at rmax| / 2 := by
    have := abs_pos.2 (sub_ne_zero.2 hL)
    linarith
  have hev := ht (Metric.ball_mem_nhds L hd)
  obtain ⟨ρ, hρ, hsub⟩ := (mem_nhdsLT_iff_exists_Ioo_subset).1 hev
  have hmax : 0 < rmax := hA.2.2.2.2.1
  refine ⟨|L - A.at rmax| / 2, hd, max ρ 0, max_lt hρ hmax, ?_⟩
  intro r h1' h2'
  refine ⟨_, _, hval r (lt_of_le_of_lt (le_max_right _ _) h1') h2'.le, hval rmax hmax le_rfl, ?_⟩
  have hb : |A.at r - L| < |L - A.at rmax| / 2 := hsub ⟨lt_of_le_of_lt (le_max_left _ _) h1', h2'⟩
  have := abs_sub_abs_le_abs_sub (L - A.at rmax) (L - A.at r)
  rw [show L - A.at rmax - (L - A.at r) = A.at r - A.at rmax by ring, abs_sub_comm L (A.at r)] at this
  linarith

/-- With a number of arms that is not an integer the arm is broken where the angle returned by `atan2` jumps: half an arm, one turn after its start, has less than
the amplitude. -/
theorem C81_fraction_false {pitch σ : ℝ} (hp : PatternOk 0 pitch 1 σ) :
    let r := Real.exp (2 * Real.pi * Real.tan (pitch * degree))
    armAngle pitch 1 0 r = 2 * Real.pi ∧
    ∃ v, SpiralFun.plain.value ([0, 0, 1 / 2, pitch, 1, 1, σ, 0].map fin) 0 (fin 0) (fin 0)
        (fin (0 + (planePoint ((0 + 90) * degree) (1 - 0) r (2 * Real.pi)).1)) (fin (0 + (planePoint ((0 + 90) * degree) (1 - 0) r (2 * Real.pi)).2)) = .ok (fin v) ∧ v < 1 := by
  intro r
  have hr : 0 < r := Real.exp_pos _
  have ht : Real.tan (pitch * degree) ≠ 0 := by
    rw [Real.tan_eq_sin_div_cos]
    exact div_ne_zero hp.sin_ne hp.cos_ne
  have ha : armAngle pitch 1 0 r = 2 * Real.pi := by
    simp only [armAngle, zero_mul, zero_add, div_one, r, Real.log_exp]
    field_simp
  refine ⟨ha, _, spiral_value (.plain 1) one_pos (pa := 0) (ell := 0) (m := 1 / 2) (γ := 0) hp.ell_lt hp.sin_ne hp.cos_ne one_pos hp.σ_pos.ne' 0 0 [] [] hr trivial
    (2 * Real.pi), ?_⟩
  have harg : Complex.arg ⟨r * Real.cos (2 * Real.pi), r * Real.sin (2 * Real.pi)⟩ = 0 := by
    simp only [Real.cos_two_pi, Real.sin_two_pi, mul_one, mul_zero]
    exact Complex.arg_ofReal_of_nonneg hr.le
  rw [harg, ha]
  simp only [Amplitude.at, ridge, one_mul]
  rw [Real.exp_lt_one_iff, show (1 / 2 : ℝ) * (0 - 2 * Real.pi) = -Real.pi by ring, Real.cos_neg, Real.cos_pi]
  have : 0 < r ^ 2 / σ ^ 2 := by have := hp.σ_pos; positivity
  linarith

/-- At the centre the code uses the radius 0.001 and the angle 0; the result is finite. -/
theorem C81_centre (A : Amplitude) (hA : A.Ok) (hE : A.Exact (1 / 1000)) (hG : A.fn ≠ .gauss) {pa ell m pitch ri σ γ : ℝ} (hp : PatternOk ell pitch ri σ) (x0 y0 : ℝ) (pre post : List XR) :
    A.fn.value (pre ++ (A.params pa ell m pitch ri σ γ).map fin ++ post) pre.length (fin x0) (fin y0) (fin x0) (fin y0) =
      .ok (fin (A.at (1 / 1000) * ridge m σ (1 / 1000) (0 - armAngle pitch ri γ (1 / 1000)))) := by
  have hq : 0 < 1 - ell := by linarith [hp.ell_lt]
  have hcode : A.code (fin 0) (fin (1 / 1000)) = A.code (fin (1 / 1000)) (fin (1 / 1000)) := by
    cases A <;> first | rfl | exact absurd rfl hG
  rw [spiral_reads]
  unfold planeValue spiralFn planeFn
  simp only [PlaneFn.at', PlaneFn.along, PlaneFn.across, lit_def, fin_add, fin_sub, fin_mul, fin_neg, fcos_fin, fsin_fin, one_def, pure_eq_ok, ok_bind, sub_self, zero_mul, neg_zero, add_zero]
  rw [if_neg (by norm_num), ellR_fin hq, ellDist_zero, spiralRadius_zero, fin_div_of_ne hq.ne', zero_div, fatan2_fin, hcode, amp_fin A hA hE,
    spiralTerm_fin hp.sin_ne hp.cos_ne hp.ri_pos hp.σ_pos.ne' m γ (by norm_num), fin_mul]
  have : Complex.arg (⟨0, 0⟩ : ℂ) = 0 := Complex.arg_zero
  rw [this]

/-- A pattern as a user would give it: a pitch angle of 20 degrees. -/
theorem pitch20 : PatternOk (1 / 4) 20 10 3 := by
  have h1 : (0 : ℝ) < 20 * degree := by unfold degree; norm_num
  have h2 : 20 * degree < Real.pi / 2 := by
    have := Real.two_le_pi
    unfold degree
    norm_num
    linarith
  exact ⟨by norm_num, (Real.sin_pos_of_pos_of_lt_pi h1 (by linarith)).ne', (Real.cos_pos_of_mem_Ioo ⟨by linarith, h2⟩).ne', by norm_num, by norm_num⟩

/-- A two-armed spiral with a peak at 20 pixels: the value on the second arm at 30 pixels is the amplitude there, 100·exp(-1/2). -/
example : ∃ v, SpiralFun.expo.value (([40, 1 / 4, (2 : ℤ), 20, 10, 3, 30, 100, 20, 20, 5] : List ℝ).map fin) 0 (fin 50) (fin 60)
    (fin (50 + (planePoint ((40 + 90) * degree) (1 - 1 / 4) 30 (armAngle 20 10 30 30 + 1 * (2 * Real.pi / (2 : ℤ)))).1))
    (fin (60 + (planePoint ((40 + 90) * degree) (1 - 1 / 4) 30 (armAngle 20 10 30 30 + 1 * (2 * Real.pi / (2 : ℤ)))).2)) = .ok (fin v) ∧ v = 100 * Real.exp (-(1 / 2)) := by
  have hA : (Amplitude.expo 100 20 20 5).Ok := by norm_num [Amplitude.Ok]
  obtain ⟨v, h1, -, -, h2⟩ := C81_arms (.expo 100 20 20 5) hA 2 (by norm_num) (pa := 40) (γ := 30) pitch20 50 60 [] [] (r := 30) (by norm_num) (by simp only [Amplitude.Exact])
    (armAngle 20 10 30 30 + 1 * (2 * Real.pi / (2 : ℤ)))
  simp only [Amplitude.params, Amplitude.fn, List.nil_append, List.append_nil, List.length_nil] at h1
  refine ⟨v, h1, ?_⟩
  rw [h2.2 ⟨1, by push_cast; ring⟩]
  simp only [Amplitude.at]
  norm_num

/-- `LogSpiral3` with a break at 30 pixels: the value on an arm jumps at 10 pixels. -/
example : ∃ d > 0, ∃ ρ < (10 : ℝ), ∀ r, ρ < r → r < 10 → ∃ v w,
    SpiralFun.broken.value ([] ++ ([40, 1 / 4, (2 : ℤ), 20, 10, 3, 30, 100, 30, 10, 30, 1, 10, 5] : List ℝ).map fin ++ []) 0 (fin 50) (fin 60)
      (fin (50 + (planePoint ((40 + 90) * degree) (1 - 1 / 4) r (armAngle 20 10 30 r)).1)) (fin (60 + (planePoint ((40 + 90) * degree) (1 - 1 / 4) r (armAngle 20 10 30 r)).2)) = .ok (fin v) ∧
    SpiralFun.broken.value ([] ++ ([40, 1 / 4, (2 : ℤ), 20, 10, 3, 30, 100, 30, 10, 30, 1, 10, 5] : List ℝ).map fin ++ []) 0 (fin 50) (fin 60)
      (fin (50 + (planePoint ((40 + 90) * degree) (1 - 1 / 4) 10 (armAngle 20 10 30 10)).1)) (fin (60 + (planePoint ((40 + 90) * degree) (1 - 1 / 4) 10 (armAngle 20 10 30 10)).2)) = .ok (fin w) ∧
    d < |v - w| :=
  C81_jump_false 100 30 10 30 1 10 5 (by norm_num [Amplitude.Ok]) (by norm_num) (by norm_num) 2 (pa := 40) (γ := 30) pitch20 50 60 [] []

/-- A width of three pixels and half an arm: the value on the arm after one turn is below the amplitude. -/
example : ∃ v, SpiralFun.plain.value ([0, 0, 1 / 2, 20, 1, 1, 3, 0].map fin) 0 (fin 0) (fin 0)
    (fin (0 + (planePoint ((0 + 90) * degree) (1 - 0) (Real.exp (2 * Real.pi * Real.tan (20 * degree))) (2 * Real.pi)).1))
    (fin (0 + (planePoint ((0 + 90) * degree) (1 - 0) (Real.exp (2 * Real.pi * Real.tan (20 * degree))) (2 * Real.pi)).2)) = .ok (fin v) ∧ v < 1 :=
  (C81_fraction_false (pitch := 20) (σ := 3) ⟨by norm_num, pitch20.sin_ne, pitch20.cos_ne, by norm_num, by norm_num⟩).2

end Imfit
