import Verif.Lemmas.LineSightInt

/-!
# C75 — a three-dimensional component shows the integral of its documented density along the line of sight
-/

namespace Imfit

open Spec XR MeasureTheory

/-- What is assumed of GSL: the integral of an integrable function, up to a relative error. -/
def Integrates (τ : ℝ) (integ : (XR → XR) → XR → XR → XR) : Prop :=
  ∀ (f : XR → XR) (g : ℝ → ℝ) (a b : ℝ), (∀ s, f (fin s) = fin (g s)) → IntervalIntegrable g volume a b →
    ∃ v, integ f (fin a) (fin b) = fin v ∧ |v - ∫ s in a..b, g s| ≤ τ * |∫ s in a..b, g s|

open Classical in
/-- The exact integral. -/
noncomputable def exactInteg (f : XR → XR) : XR → XR → XR
  | fin a, fin b => if h : ∃ g : ℝ → ℝ, ∀ s, f (fin s) = fin (g s) then fin (∫ s in a..b, h.choose s) else nan
  | _, _ => nan

open Classical in
/-- The assumption can be satisfied, even without an error. -/
theorem exactInteg_integrates : Integrates 0 exactInteg := by
  intro f g a b hg _
  refine ⟨_, ?_, by rw [sub_self, abs_zero, zero_mul]⟩
  have h : ∃ g : ℝ → ℝ, ∀ s, f (fin s) = fin (g s) := ⟨g, hg⟩
  have e : h.choose = g := by
    funext s
    have := h.choose_spec s
    rw [hg s] at this
    injection this with this
    exact this.symm
  show (if h : ∃ g : ℝ → ℝ, ∀ s, f (fin s) = fin (g s) then fin (∫ s in a..b, h.choose s) else nan) = _
  rw [dif_pos h, e]

/-- The names of the parameters that give the direction of the line of nodes and the inclination. -/
def LFun.orientation : LFun → String × String
  | .peanut => ("PA_lon", "inc")
  | .bpBar => ("PA", "inclination")
  | _ => ("PA", "inc")

/-- The documented densities (`docs/imfit_howto.tex`; major axes 90 degrees plus the given angle from the line of nodes), `v` giving the values of the parameters by name. -/
noncomputable def LFun.documented (v : String → ℝ) : LFun → Body → ℝ
  | .expDisk => expDiskJ (v "J_0") (v "h") (v "n") (v "z_0")
  | .brokenDisk => brokenDiskJ (v "J_0") (v "h1") (v "h2") (v "r_break") (v "alpha") (v "n") (v "z_0")
  | .ring => ringJ ((v "PA_ring" + 90) * degree) (1 - v "ell") (v "J_0") (v "a_ring") (v "sigma") (v "h_z")
  | .ferrers => ferrersJ ((v "barPA" + 90) * degree) (v "J_0") (v "R_bar") (v "q") (v "q_z") (v "n")
  | .peanut => peanutJ ((v "barPA" + 90) * degree) (v "J0_bar") (v "R_bar_x") (v "q") (v "q_z") (v "R_peanut") (v "A_peanut") (v "sigma_peanut") (v "c_bar_par")
      (v "c_bar_perp")
  | .triax => triaxJ ((v "barPA" + 90) * degree) (v "J_0") (v "sigma") (v "q") (v "q_z")
  | .bpBar => bpBarJ ((v "barPA" + 90) * degree) (v "z_0") (1 - v "ell_outer") (v "J_0_outer") (v "h1") (v "h2") (v "r_break") (v "alpha") (1 - v "ell_bp") (v "J_0_bp")
      (v "h_bp") (v "r_bp_max") (v "z_bp_max") (v "sigma_bp")

/-- The densities that are actually used: bars of `FerrersBar3D` and `DattathriPeanut3D` are turned, and three parameters of `BPBar3D` are interchanged. -/
noncomputable def LFun.actual (v : String → ℝ) : LFun → Body → ℝ
  | .ferrers => ferrersJ ((v "barPA" + 90) * degree + Real.pi / 2) (v "J_0") (v "R_bar") (v "q") (v "q_z") (v "n")
  | .peanut => peanutJ (v "barPA" * degree) (v "J0_bar") (v "R_bar_x") (v "q") (v "q_z") (v "R_peanut") (v "A_peanut") (v "sigma_peanut") (v "c_bar_par") (v "c_bar_perp")
  | .bpBar => bpBarJ ((v "barPA" + 90) * degree) (v "z_0") (1 - v "ell_outer") (v "J_0_outer") (v "h1") (v "h2") (v "r_break") (v "alpha") (1 - v "ell_bp") (v "J_0_bp")
      (v "z_bp_max") (v "h_bp") (v "r_bp_max") (v "sigma_bp")
  | F => F.documented v

/-- Half the length of the integration range. -/
noncomputable def LFun.depth (v : String → ℝ) : LFun → ℝ
  | .expDisk => 20 * v "h"
  | .brokenDisk => max (20 * v "r_break") (20 * v "h2")
  | .ring => 2 * v "a_ring"
  | .ferrers => 101 / 100 * max (v "q" * v "R_bar" * Real.sin (v "inc" * degree)) (v "R_bar")
  | .peanut => 10 * v "R_bar_x"
  | .triax => 4 * v "sigma" ^ 2
  | .bpBar => 5 * v "r_break"

/-- How far the guards against overflow can move a density, as a logarithm. -/
noncomputable def LFun.slack (v : String → ℝ) : LFun → ℝ
  | .expDisk => 2 / v "n" * Real.exp (-200)
  | .brokenDisk => |1 / v "h1" - 1 / v "h2"| / v "alpha" * Real.exp (-100) + 2 / v "n" * Real.exp (-200)
  | .bpBar => |1 / v "h1" - 1 / v "h2"| / v "alpha" * Real.exp (-100)
  | _ => 0

/-- The two parts of `BPBar3D` both shine. -/
def LFun.Shines (v : String → ℝ) : LFun → Prop
  | .bpBar => 0 ≤ v "J_0_outer" ∧ 0 ≤ v "J_0_bp"
  | _ => True

theorem geometry_named (F : LFun) (p : List ℝ) (hp : F.Physical p) :
    nodes p = (F.named p F.orientation.1 + 90) * degree ∧ tilt p = F.named p F.orientation.2 * degree ∧ F.range p = F.depth (F.named p) := by
  unfold LFun.Physical at hp
  split at hp <;> first
    | exact hp.elim
    | (refine ⟨rfl, rfl, rfl⟩)
    | skip
  · rename_i r q _ _
    refine ⟨rfl, rfl, ?_⟩
    show 101 / 100 * max (Real.sqrt (q * q * (r * r)) * _) r = 101 / 100 * max (q * r * _) r
    rw [show q * q * (r * r) = (q * r) ^ 2 by ring, Real.sqrt_sq (mul_pos hp.2.1 hp.1).le]
    rfl
  · rename_i σ _ _
    refine ⟨rfl, rfl, ?_⟩
    show 2 * (2 * σ * σ) = 4 * σ ^ 2
    ring

theorem slack_nonneg (F : LFun) (p : List ℝ) (hp : F.Physical p) : 0 ≤ F.slack (F.named p) := by
  unfold LFun.Physical at hp
  split at hp
  · rename_i h n z0
    obtain ⟨_, hn, _⟩ := hp
    show 0 ≤ 2 / n * Real.exp (-200)
    positivity
  · rename_i h1 h2 _ a n z0
    obtain ⟨_, _, ha, hn, _⟩ := hp
    show 0 ≤ |1 / h1 - 1 / h2| / a * Real.exp (-100) + 2 / n * Real.exp (-200)
    positivity
  · exact le_rfl
  · exact le_rfl
  · exact le_rfl
  · exact le_rfl
  · rename_i h1 h2 _ a _ _ _ _ _ _
    obtain ⟨_, _, _, _, ha, _⟩ := hp
    show 0 ≤ |1 / h1 - 1 / h2| / a * Real.exp (-100)
    positivity
  · exact hp.elim

/-- The guards move the density by at most the stated fraction. -/
theorem coded_dev (F : LFun) (p : List ℝ) (hp : F.Physical p) (hs : F.Shines (F.named p)) (P : Body) :
    |F.coded p P - F.actual (F.named p) P| ≤ (Real.exp (F.slack (F.named p)) - 1) * |F.actual (F.named p) P| := by
  unfold LFun.Physical at hp
  split at hp
  · rename_i j h n z0
    obtain ⟨_, hn, hz⟩ := hp
    obtain ⟨ε, he, hx⟩ := sech_code hn hz |P.z|
    refine dev_of_exp (ε := ε) ?_ he
    show expDiskJ j h n z0 P = _ * _ * _ * _
    unfold expDiskJ
    rw [hx]
    ring
  · rename_i j h1 h2 rb a n z0
    obtain ⟨_, _, ha, hn, hz⟩ := hp
    obtain ⟨ε, he, hx⟩ := sech_code hn hz |P.z|
    obtain ⟨δ, hd, hy⟩ := brokenI_code (h1 := h1) (h2 := h2) ha j rb (Real.sqrt (P.x ^ 2 + P.y ^ 2))
    refine dev_of_exp (ε := δ + ε) ?_ ((abs_add_le _ _).trans (add_le_add hd he))
    show brokenDiskJ j h1 h2 rb a n z0 P = _ * _ * _
    unfold brokenDiskJ
    rw [hx, hy, Real.exp_add]
    ring
  · exact dev_of_exp (ε := 0) (by rw [Real.exp_zero, mul_one]; rfl) (by rw [abs_zero]; exact le_rfl)
  · exact dev_of_exp (ε := 0) (by rw [Real.exp_zero, mul_one]; rfl) (by rw [abs_zero]; exact le_rfl)
  · exact dev_of_exp (ε := 0) (by rw [Real.exp_zero, mul_one]; rfl) (by rw [abs_zero]; exact le_rfl)
  · exact dev_of_exp (ε := 0) (by rw [Real.exp_zero, mul_one]; rfl) (by rw [abs_zero]; exact le_rfl)
  · rename_i pa inc bpa z0 ello jo h1 h2 rb a ellb jb p12 p13 p14 σ
    obtain ⟨hz, hqo, hh1, hh2, ha, hqb, hzm, hhb, hσ⟩ := hp
    obtain ⟨hjo, hjb⟩ := hs
    change 0 ≤ jo at hjo
    change 0 ≤ jb at hjb
    set u := along ((bpa + 90) * degree) P.x P.y with hu
    set v := across ((bpa + 90) * degree) P.x P.y with hv
    set w := p13 * bumps p12 σ u (v / (1 - ellb)) with hw
    have hw0 : 0 < w := mul_pos hzm (bumps_pos _ _ _ _)
    obtain ⟨δ, hd, hy⟩ := brokenI_code (h1 := h1) (h2 := h2) ha jo rb (ellDist (1 - ello) u v)
    have hdev := dev_of_exp hy hd
    set E := Real.exp (-(|P.z| / z0)) with hE
    set S := jb / w * Real.exp (-(ellDist (1 - ellb) u v / p14)) * Real.exp (-(|P.z| / (w * z0))) with hS
    have hE0 : 0 < E := Real.exp_pos _
    have hS0 : 0 ≤ S := by positivity
    have hB : 0 ≤ brokenI jo h1 h2 rb a (ellDist (1 - ello) u v) := by
      unfold brokenI
      have := one_add_exp_pos (-(a * rb))
      have := one_add_exp_pos (a * (ellDist (1 - ello) u v - rb))
      positivity
    show |brokenCode jo h1 h2 rb a (ellDist (1 - ello) u v) * E + S - (brokenI jo h1 h2 rb a (ellDist (1 - ello) u v) * E + S)| ≤
      (Real.exp (|1 / h1 - 1 / h2| / a * Real.exp (-100)) - 1) * |brokenI jo h1 h2 rb a (ellDist (1 - ello) u v) * E + S|
    set C := Real.exp (|1 / h1 - 1 / h2| / a * Real.exp (-100)) - 1 with hC
    have hC0 : 0 ≤ C := by
      have : 1 ≤ Real.exp (|1 / h1 - 1 / h2| / a * Real.exp (-100)) := Real.one_le_exp (by positivity)
      linarith
    rw [add_sub_add_right_eq_sub, ← sub_mul, abs_mul, abs_of_pos hE0, abs_of_nonneg (by positivity : 0 ≤ brokenI jo h1 h2 rb a (ellDist (1 - ello) u v) * E + S)]
    rw [abs_of_nonneg hB] at hdev
    calc _ ≤ C * brokenI jo h1 h2 rb a (ellDist (1 - ello) u v) * E := mul_le_mul_of_nonneg_right hdev hE0.le
      _ ≤ _ := by nlinarith
  · exact hp.elim

theorem coded_measurable (F : LFun) (p : List ℝ) (hp : F.Physical p) {B : ℝ → Body} (h : Moves B) : Measurable fun s => F.coded p (B s) := by
  unfold LFun.Physical at hp
  have hx := h.x
  have hy := h.y
  split at hp
  · exact Measurable.mul (Continuous.measurable (by fun_prop)) ((sechCode_measurable _ _).comp h.z.abs.measurable)
  · exact Measurable.mul ((brokenCode_measurable _ _ _ _ _).comp (Continuous.measurable (by fun_prop))) ((sechCode_measurable _ _).comp h.z.abs.measurable)
  · exact (ringJ_continuous h _ _ _ _ _ _).measurable
  · exact ferrersJ_measurable h _ _ _ _ _ _
  · obtain ⟨hr, hq, hqz, hap, hsp, h1, h2⟩ := hp
    exact (peanutJ_continuous h hr hqz hap h1 h2 _ _ _).measurable
  · exact (triaxJ_continuous h _ _ _ _ _).measurable
  · obtain ⟨hz, hqo, hh1, hh2, ha, hqb, hzm, hhb, hσ⟩ := hp
    refine Measurable.add (Measurable.mul ((brokenCode_measurable _ _ _ _ _).comp (ellDist_continuous (h.along _) (h.across _) _).measurable) ?_)
      (bpSecond_continuous h hzm hz _ _ _ _ _ _).measurable
    have := h.z
    exact Continuous.measurable (by fun_prop)
  · exact hp.elim

theorem actual_integrable (F : LFun) (p : List ℝ) (hp : F.Physical p) {B : ℝ → Body} (h : Moves B) (a b : ℝ) :
    IntervalIntegrable (fun s => F.actual (F.named p) (B s)) volume a b := by
  unfold LFun.Physical at hp
  split at hp
  · exact (expDiskJ_continuous h _ _ _ _).intervalIntegrable _ _
  · exact (brokenDiskJ_continuous h _ _ _ _ _ _ _).intervalIntegrable _ _
  · exact (ringJ_continuous h _ _ _ _ _ _).intervalIntegrable _ _
  · rename_i j r q qz n
    refine (intervalIntegrable_const (c := j)).mono_fun (ferrersJ_measurable h _ _ _ _ _ _).aestronglyMeasurable (Filter.Eventually.of_forall fun s => ?_)
    exact ferrersJ_bound hp.2.2.2 _ j _ _ _ (B s)
  · obtain ⟨hr, hq, hqz, hap, hsp, h1, h2⟩ := hp
    exact (peanutJ_continuous h hr hqz hap h1 h2 _ _ _).intervalIntegrable _ _
  · exact (triaxJ_continuous h _ _ _ _ _).intervalIntegrable _ _
  · obtain ⟨hz, hqo, hh1, hh2, ha, hqb, hzm, hhb, hσ⟩ := hp
    refine Continuous.intervalIntegrable (Continuous.add (Continuous.mul ((brokenI_continuous _ _ _ _ _).comp (ellDist_continuous (h.along _) (h.across _) _)) ?_)
      (bpSecond_continuous h hzm hz _ _ _ _ _ _)) _ _
    have := h.z
    fun_prop
  · exact hp.elim

/-- The points along a line of sight. -/
noncomputable def sightline (θ i dx dy s : ℝ) : Body :=
  ⟨along θ dx dy, across θ dx dy * Real.cos i + s * Real.sin i, across θ dx dy * Real.sin i - s * Real.cos i⟩

theorem sightline_moves (θ i dx dy : ℝ) : Moves (sightline θ i dx dy) := by
  unfold sightline
  exact ⟨by fun_prop, by fun_prop, by fun_prop⟩

theorem sightline_seen (θ i dx dy s : ℝ) : Seen θ i (sightline θ i dx dy s) dx dy s := by
  have e := Real.sin_sq_add_cos_sq i
  refine ⟨rfl, ?_, ?_⟩
  · unfold sightline; linear_combination (-across θ dx dy) * e
  · unfold sightline; linear_combination (-s) * e

theorem lineIntegral_ray {J : Body → ℝ} {θ i L dx dy : ℝ} (h : IntervalIntegrable (ray J θ i dx dy) volume (-L) L) :
    LineIntegral J θ i L dx dy (∫ s in (-L)..L, ray J θ i dx dy s) := ⟨_, fun s P hP => ray_seen J θ i dx dy s P hP, h, rfl⟩

/-- There is only one such integral. -/
theorem lineIntegral_unique {J : Body → ℝ} {θ i L dx dy v : ℝ} (h : LineIntegral J θ i L dx dy v) : v = ∫ s in (-L)..L, ray J θ i dx dy s := by
  obtain ⟨g, hg, _, rfl⟩ := h
  congr 1
  funext s
  rw [hg s _ (sightline_seen θ i dx dy s)]
  rfl

theorem coded_ray_integrable (F : LFun) (p : List ℝ) (hp : F.Physical p) (θ i dx dy L : ℝ) (hs : F.Shines (F.named p)) :
    IntervalIntegrable (ray (F.coded p) θ i dx dy) volume (-L) L :=
  intervalIntegrable_of_dev (coded_measurable F p hp (sightline_moves θ i dx dy)) (actual_integrable F p hp (sightline_moves θ i dx dy) _ _)
    fun s => coded_dev F p hp hs (sightline θ i dx dy s)

theorem adjust_one' (F : LFun) (p : List ℝ) : F.adjust 1 0 1 p = p := by
  unfold LFun.adjust
  split <;> simp

/-- The value of a pixel in the reference image. -/
theorem los_value {τ : ℝ} {integ : (XR → XR) → XR → XR → XR} (hi : Integrates τ integ) (F : LFun) (p : List ℝ) (hp : F.Physical p) (hs : F.Shines (F.named p))
    (pre post : List XR) (x0 y0 x y : ℝ) :
    ∃ v, F.value integ defaultDesc (pre ++ p.map fin ++ post) pre.length (fin x0) (fin y0) (fin x) (fin y) = .ok (fin v) ∧
      |v - ∫ s in (-F.range p)..F.range p, ray (F.coded p) (nodes p) (tilt p) (x - x0) (y - y0) s| ≤
        τ * |∫ s in (-F.range p)..F.range p, ray (F.coded p) (nodes p) (tilt p) (x - x0) (y - y0) s| := by
  obtain ⟨f, hf, hP⟩ := build_isLos F 1 0 1 one_pos p hp x0 y0
  rw [adjust_one'] at hP
  obtain ⟨v, hv, hb⟩ := hi (f.integrand (f.start (fin x) (fin y))) _ (-F.range p) (F.range p) (integrand_fin hP x y) (coded_ray_integrable F p hp _ _ _ _ _ hs)
  refine ⟨v, ?_, hb⟩
  unfold LFun.value
  rw [F.setup_reads _ pre (p.map fin) post (F.physical_length p hp), show (defaultDesc : ImgDesc XR) = ⟨fin 1, fin 0, fin 1⟩ from rfl, hf, ok_bind]
  unfold losValue
  rw [hP.hl, fin_neg, hv]
  rfl

/-- C75: for every three-dimensional function, all parameters of the physical range, every offset, and wherever the parameters are in the vector, the value of a pixel
is the integral of the density `LFun.actual` along the line of sight between `-L` and `L`, up to the relative error of the integrator and the effect of the guards
against overflow. Partial: `LFun.actual` is the documented density for four of the seven functions (`C75_documented`); see `C75_ferrers_false`, `C75_peanut_false` and `C75_bpBar_false`. -/
theorem C75_line_of_sight_partial {τ : ℝ} (hτ : 0 ≤ τ) {integ : (XR → XR) → XR → XR → XR} (hi : Integrates τ integ) (F : LFun) (p : List ℝ) (hp : F.Physical p)
    (hs : F.Shines (F.named p)) (hL : 0 ≤ F.depth (F.named p)) (pre post : List XR) (x0 y0 dx dy : ℝ) :
    ∃ v w u : ℝ, F.value integ defaultDesc (pre ++ p.map fin ++ post) pre.length (fin x0) (fin y0) (fin (x0 + dx)) (fin (y0 + dy)) = .ok (fin v) ∧
      LineIntegral (F.actual (F.named p)) ((F.named p F.orientation.1 + 90) * degree) (F.named p F.orientation.2 * degree) (F.depth (F.named p)) dx dy w ∧
      LineIntegral (fun P => |F.actual (F.named p) P|) ((F.named p F.orientation.1 + 90) * degree) (F.named p F.orientation.2 * degree) (F.depth (F.named p)) dx dy u ∧
      |v - w| ≤ (Real.exp (F.slack (F.named p)) * (1 + τ) - 1) * u := by
  obtain ⟨g1, g2, g3⟩ := geometry_named F p hp
  obtain ⟨v, hv, hb⟩ := los_value hi F p hp hs pre post x0 y0 (x0 + dx) (y0 + dy)
  rw [← g1, ← g2, ← g3]
  rw [← g3] at hL
  simp only [add_sub_cancel_left] at hb
  have hA := actual_integrable F p hp (sightline_moves (nodes p) (tilt p) dx dy) (-F.range p) (F.range p)
  have hdev := integral_dev hL (coded_measurable F p hp (sightline_moves (nodes p) (tilt p) dx dy)) hA fun s => coded_dev F p hp hs (sightline (nodes p) (tilt p) dx dy s)
  refine ⟨v, _, _, hv, lineIntegral_ray hA, lineIntegral_ray (J := fun P => |F.actual (F.named p) P|) hA.abs, ?_⟩
  have hle : |∫ s in (-F.range p)..F.range p, ray (F.actual (F.named p)) (nodes p) (tilt p) dx dy s| ≤
      ∫ s in (-F.range p)..F.range p, ray (fun P => |F.actual (F.named p) P|) (nodes p) (tilt p) dx dy s :=
    intervalIntegral.abs_integral_le_integral_abs (by linarith)
  change |(∫ s in (-F.range p)..F.range p, ray (F.coded p) (nodes p) (tilt p) dx dy s) - ∫ s in (-F.range p)..F.range p, ray (F.actual (F.named p)) (nodes p) (tilt p) dx dy s|
    ≤ (Real.exp (F.slack (F.named p)) - 1) * ∫ s in (-F.range p)..F.range p, ray (fun P => |F.actual (F.named p) P|) (nodes p) (tilt p) dx dy s at hdev
  set c := ∫ s in (-F.range p)..F.range p, ray (F.coded p) (nodes p) (tilt p) dx dy s
  set w := ∫ s in (-F.range p)..F.range p, ray (F.actual (F.named p)) (nodes p) (tilt p) dx dy s
  set u := ∫ s in (-F.range p)..F.range p, ray (fun P => |F.actual (F.named p) P|) (nodes p) (tilt p) dx dy s
  set E := Real.exp (F.slack (F.named p))
  have hc : |c| ≤ E * u := by
    have h1 := abs_add_le (c - w) w
    rw [sub_add_cancel] at h1
    linarith
  have h2 : |v - w| ≤ |v - c| + |c - w| := by
    have := abs_add_le (v - c) (c - w)
    rwa [sub_add_sub_cancel] at this
  have h3 : τ * |c| ≤ τ * (E * u) := mul_le_mul_of_nonneg_left hc hτ
  linarith

/-- The functions whose densities are the documented ones. -/
def LFun.faithful : LFun → Prop
  | .expDisk => True
  | .brokenDisk => True
  | .ring => True
  | .triax => True
  | _ => False

/-- C75: the disks, the ring and the Gaussian bar show the integral of the documented density, whose parameters are the ones with the documented names. -/
theorem C75_documented {τ : ℝ} (hτ : 0 ≤ τ) {integ : (XR → XR) → XR → XR → XR} (hi : Integrates τ integ) (F : LFun) (hF : F.faithful) (p : List ℝ) (hp : F.Physical p)
    (hL : 0 ≤ F.depth (F.named p)) (pre post : List XR) (x0 y0 dx dy : ℝ) :
    ∃ v w u : ℝ, F.value integ defaultDesc (pre ++ p.map fin ++ post) pre.length (fin x0) (fin y0) (fin (x0 + dx)) (fin (y0 + dy)) = .ok (fin v) ∧
      LineIntegral (F.documented (F.named p)) ((F.named p "PA" + 90) * degree) (F.named p "inc" * degree) (F.depth (F.named p)) dx dy w ∧
      LineIntegral (fun P => |F.documented (F.named p) P|) ((F.named p "PA" + 90) * degree) (F.named p "inc" * degree) (F.depth (F.named p)) dx dy u ∧
      |v - w| ≤ (Real.exp (F.slack (F.named p)) * (1 + τ) - 1) * u := by
  cases F <;> first | exact hF.elim | exact C75_line_of_sight_partial hτ hi _ p hp trivial hL pre post x0 y0 dx dy

/-- A tilted ring with its own orientation, integrated exactly. -/
example : ∃ v : ℝ, LFun.ring.value exactInteg defaultDesc ([] ++ [(30 : ℝ), 60, 20, 1 / 2, 100, 10, 2, 1].map fin ++ [fin 7]) 0 (fin 50) (fin 50) (fin (50 + 3)) (fin (50 + 4)) =
      .ok (fin v) ∧ LineIntegral (ringJ ((20 + 90) * degree) (1 - 1 / 2) 100 10 2 1) ((30 + 90) * degree) (60 * degree) (2 * 10) 3 4 v := by
  obtain ⟨v, w, u, h1, h2, _, h4⟩ := C75_documented le_rfl exactInteg_integrates .ring trivial [30, 60, 20, 1 / 2, 100, 10, 2, 1] ⟨by norm_num, by norm_num, by norm_num⟩
    (by show (0 : ℝ) ≤ 2 * 10; norm_num) [] [fin 7] 50 50 3 4
  have h5 : |v - w| ≤ (Real.exp 0 * (1 + 0) - 1) * u := h4
  rw [Real.exp_zero, add_zero, mul_one, sub_self, zero_mul] at h5
  have h6 : v = w := by linarith [abs_nonpos_iff.1 h5]
  exact ⟨v, h1, by rw [h6]; exact h2⟩

end Imfit
