import Verif.Lemmas.PlaneProfiles

/-!
# The prepared functions of `Model/Plane.lean`
-/

namespace Imfit

open Spec XR

/-- Parameter values in the physical range: sizes positive, ellipticity below 1, the Bessel function defined for positive arguments. -/
def PFun.Physical : PFun XR → List ℝ → Prop
  | .brokenExp, [_, ell, _, h1, h2, _, a] => ell < 1 ∧ 0 < h1 ∧ 0 < h2 ∧ 0 < a
  | .doubleBroken, [_, ell, _, h1, h2, h3, _, _, a1, a2] => ell < 1 ∧ 0 < h1 ∧ 0 < h2 ∧ 0 < h3 ∧ 0 < a1 ∧ 0 < a2
  | .flatExp, [_, ell, _, h, _, a] => ell < 1 ∧ 0 < h ∧ 0 < a
  | .king, [_, ell, _, rc, rt, a] => ell < 1 ∧ 0 < rc ∧ 0 < rt ∧ 0 < a
  | .king2, [_, ell, _, rc, c, a] => ell < 1 ∧ 0 < rc ∧ 0 < c ∧ 0 < a
  | .gaussRing, [_, ell, _, _, s] => ell < 1 ∧ 0 < s
  | .gaussRing2, [_, ell, _, _, si, so] => ell < 1 ∧ 0 < si ∧ 0 < so
  | .nuker, [_, ell, _, rb, a, _, _] => ell < 1 ∧ 0 < rb ∧ 0 < a
  | .coreSersic, [_, ell, n, _, re, rb, a, _] => ell < 1 ∧ 0 < n ∧ 0 < re ∧ 0 < rb ∧ 0 < a
  | .genExp, [_, ell, c0, _, h] => ell < 1 ∧ -2 < c0 ∧ 0 < h
  | .genSersic, [_, ell, c0, n, _, re] => ell < 1 ∧ -2 < c0 ∧ 0 < n ∧ 0 < re
  | .ferrers, [_, ell, c0, n, _, abar] => ell < 1 ∧ -2 < c0 ∧ 0 ≤ n ∧ 0 < abar
  | .edgeRing, [_, _, _, sr, sz] => 0 < sr ∧ 0 < sz
  | .edgeRing2, [_, _, _, si, so, sz] => 0 < si ∧ 0 < so ∧ 0 < sz
  | .brokenExp2d, [_, _, h1, h2, _, a, hz] => 0 < h1 ∧ 0 < h2 ∧ 0 < a ∧ 0 < hz
  | .brokenBar, [_, _, h1, h2, _, a, s] => 0 < h1 ∧ 0 < h2 ∧ 0 < a ∧ 0 < s
  | .edgeDisk k1, [_, _, h, n, z0] => 0 < h ∧ 0 < n ∧ 0 < z0 ∧ ∀ x, 0 < x → ∃ y, k1 (fin x) = fin y
  | .flatBar, [_, ell, dpa, _, h1, h2, _, a] => ell < 1 ∧ 0 < dpa ∧ 0 < h1 ∧ 0 < h2 ∧ 0 < a
  | _, _ => False

/-- The parameters that the function works with in an image with the factor `t` for sizes, the rotation `ρ` and the factor `k` for intensities. -/
noncomputable def PFun.adjust (t ρ k : ℝ) : PFun XR → List ℝ → List ℝ
  | .brokenExp, [pa, ell, i0, h1, h2, rb, a] => [pa - ρ, ell, i0 * k, h1 * t, h2 * t, rb * t, a / t]
  | .king, [pa, ell, i0, rc, rt, a] => [pa - ρ, ell, i0 * k, rc * t, rt * t, a]
  | .king2, [pa, ell, i0, rc, c, a] => [pa - ρ, ell, i0 * k, rc * t, c, a]
  | .gaussRing, [pa, ell, amp, rr, s] => [pa - ρ, ell, amp * k, rr * t, s * t]
  | .gaussRing2, [pa, ell, amp, rr, si, so] => [pa - ρ, ell, amp * k, rr * t, si * t, so * t]
  | .nuker, [pa, ell, ib, rb, a, b, g] => [pa - ρ, ell, ib * k, rb * t, a, b, g]
  | .coreSersic, [pa, ell, n, ib, re, rb, a, g] => [pa - ρ, ell, n, ib * k, re * t, rb * t, a, g]
  | .genExp, [pa, ell, c0, i0, h] => [pa - ρ, ell, c0, i0 * k, h * t]
  | .genSersic, [pa, ell, c0, n, ie, re] => [pa - ρ, ell, c0, n, ie * k, re * t]
  | .ferrers, [pa, ell, c0, n, i0, abar] => [pa - ρ, ell, c0, n, i0 * k, abar * t]
  | .edgeRing, [pa, amp, r, sr, sz] => [pa - ρ, amp * k, r * t, sr * t, sz * t]
  | .edgeRing2, [pa, amp, r, si, so, sz] => [pa - ρ, amp * k, r * t, si * t, so * t, sz * t]
  | .brokenExp2d, [pa, i0, h1, h2, rb, a, hz] => [pa - ρ, i0 * k, h1 * t, h2 * t, rb * t, a / t, hz * t]
  | .edgeDisk _, [pa, l0, h, n, z0] => [pa - ρ, l0 * k, h * t, n, z0 * t]
  | .flatBar, [pa, ell, dpa, i0, h1, h2, rb, a] => [pa - ρ, ell, dpa, i0 * t, h1 * t, h2 * t, rb * t, a / t]
  | _, p => p

open Classical in
/-- The Bessel function as a real function. -/
noncomputable def realK (k1 : XR → XR) (x : ℝ) : ℝ := if h : ∃ y, k1 (fin x) = fin y then h.choose else 0

theorem realK_spec {k1 : XR → XR} {x : ℝ} (h : ∃ y, k1 (fin x) = fin y) : k1 (fin x) = fin (realK k1 x) := by
  unfold realK
  rw [dif_pos h]
  exact h.choose_spec

/-- The intensity as a function of the coordinates along and across the major axis. -/
noncomputable def PFun.ref : PFun XR → List ℝ → ℝ → ℝ → ℝ
  | .brokenExp, [_, ell, i0, h1, h2, rb, a], u, v => brokenCode i0 h1 h2 rb a (ellDist (1 - ell) u v)
  | .doubleBroken, [_, ell, i0, h1, h2, h3, rb1, rb2, a1, a2], u, v => doubleBrokenCode i0 h1 h2 h3 rb1 rb2 a1 a2 (ellDist (1 - ell) u v)
  | .flatExp, [_, ell, i0, h, rb, a], u, v => flatExpCode i0 h rb a (ellDist (1 - ell) u v)
  | .king, [_, ell, i0, rc, rt, a], u, v => kingI i0 rc rt a (ellDist (1 - ell) u v)
  | .king2, [_, ell, i0, rc, c, a], u, v => kingI i0 rc (c * rc) a (ellDist (1 - ell) u v)
  | .gaussRing, [_, ell, amp, rr, s], u, v => amp * bell rr s (ellDist (1 - ell) u v)
  | .gaussRing2, [_, ell, amp, rr, si, so], u, v => amp * bell rr (if ellDist (1 - ell) u v < rr then si else so) (ellDist (1 - ell) u v)
  | .nuker, [_, ell, ib, rb, a, b, g], u, v => nukerI ib rb a b g (max (ellDist (1 - ell) u v) (1 / 1000))
  | .coreSersic, [_, ell, n, ib, re, rb, a, g], u, v => coreSersicI n ib re rb a g (max (ellDist (1 - ell) u v) (1 / 1000))
  | .genExp, [_, ell, c0, i0, h], u, v => i0 * Real.exp (-(genDist (1 - ell) c0 u v / h))
  | .genSersic, [_, ell, c0, n, ie, re], u, v => ie * Real.exp (-(bn n * ((genDist (1 - ell) c0 u v / re) ^ (1 / n) - 1)))
  | .ferrers, [_, ell, c0, n, i0, abar], u, v => ferrersI n i0 abar (genDist (1 - ell) c0 u v)
  | .edgeRing, [_, amp, r, sr, sz], u, v => amp * bell r sr u * bell 0 sz v + amp * bell (-r) sr u * bell 0 sz v
  | .edgeRing2, [_, amp, r, si, so, sz], u, v =>
    amp * bell (-r) (if u < -r then so else si) u * bell 0 sz v + amp * bell r (if u < -r then si else if u < r then si else so) u * bell 0 sz v
  | .brokenExp2d, [_, i0, h1, h2, rb, a, hz], u, v => brokenCode i0 h1 h2 rb a |u| * Real.exp (-(|v| / hz))
  | .brokenBar, [_, i0, h1, h2, rb, a, s], u, v => brokenCode i0 h1 h2 rb a |u| * bell 0 s v
  | .edgeDisk k1, [_, l0, h, n, z0], u, v => edgeDiskCode (realK k1) l0 h n z0 u v
  | .flatBar, [_, ell, dpa, i0, h1, h2, rb, a], u, v => flatBarCode (1 - ell) (dpa * degree) i0 h1 h2 rb a u v
  | _, _, _, _ => 0

/-- Angle of the major axis with the x axis. -/
noncomputable def majorAxis : List ℝ → ℝ
  | pa :: _ => (pa + 90) * degree
  | [] => 0

/-- A prepared function: geometry and intensity, the sub-sampling rule unchanged by reflections in the axes, and no sub-sampling when it is switched off. -/
structure Prepared (f : PlaneFn XR) (doSub : Bool) (x0 y0 θ : ℝ) (g : ℝ → ℝ → ℝ) : Prop where
  plane : IsPlane f x0 y0 θ g
  even_u : ∀ u v, f.nsub (fin (-u)) (fin v) = f.nsub (fin u) (fin v)
  even_v : ∀ u v, f.nsub (fin u) (fin (-v)) = f.nsub (fin u) (fin v)
  off : doSub = false → ∀ u v, f.nsub u v = .ok 1

theorem ellDist_neg_left (q u v : ℝ) : ellDist q (-u) v = ellDist q u v := by unfold ellDist; rw [neg_sq]
theorem ellDist_neg_right (q u v : ℝ) : ellDist q u (-v) = ellDist q u v := by unfold ellDist; rw [neg_div, neg_sq]
theorem genDist_neg_left (q c u v : ℝ) : genDist q c (-u) v = genDist q c u v := by unfold genDist; rw [abs_neg]
theorem genDist_neg_right (q c u v : ℝ) : genDist q c u (-v) = genDist q c u v := by unfold genDist; rw [neg_div, abs_neg]

theorem galfitSub_off (num thresh : ℚ) (s r : XR) : galfitSub false num thresh s r = .ok 1 := rfl

theorem prepared_of (doSub : Bool) (pa x0 y0 : ℝ) (ns : XR → XR → Res Int) (it : XR → XR → XR) (g : ℝ → ℝ → ℝ)
    (h : ∀ u v, it (fin u) (fin v) = fin (g u v)) (hu : ∀ u v, ns (fin (-u)) (fin v) = ns (fin u) (fin v)) (hv : ∀ u v, ns (fin u) (fin (-v)) = ns (fin u) (fin v))
    (ho : doSub = false → ∀ u v, ns u v = .ok 1) : Prepared (planeFn (fin pa) (fin x0) (fin y0) ns it) doSub x0 y0 ((pa + 90) * degree) g :=
  ⟨planeFn_isPlane pa x0 y0 ns it g h, hu, hv, ho⟩

theorem edgeDiskSub_even (doSub : Bool) (h z0 : XR) : (∀ u v : ℝ, edgeDiskSub doSub h z0 (fin (-u)) (fin v) = edgeDiskSub doSub h z0 (fin u) (fin v)) ∧
    (∀ u v : ℝ, edgeDiskSub doSub h z0 (fin u) (fin (-v)) = edgeDiskSub doSub h z0 (fin u) (fin v)) := by
  have e : ∀ w : ℝ, (fabs (fin (-w)) : XR) = fabs (fin w) := fun w => by rw [fabs_fin, fabs_fin, abs_neg]
  constructor <;> intro u v <;> unfold edgeDiskSub <;> rw [e]

/-- Every function with parameters of the physical range has the stated intensity, in every image. -/
theorem build_prepared (F : PFun XR) (doSub : Bool) (t ρ k : ℝ) (ht : 0 < t) (p : List ℝ) (hp : F.Physical p) (x0 y0 : ℝ) :
    ∃ f, F.build doSub ⟨fin t, fin ρ, fin k⟩ (fin x0) (fin y0) (p.map fin) = .ok f ∧
      Prepared f doSub x0 y0 (majorAxis (F.adjust t ρ k p)) (F.ref (F.adjust t ρ k p)) := by
  unfold PFun.Physical at hp
  split at hp
  case h_1 =>
    obtain ⟨hell, hh1, hh2, ha⟩ := hp
    have hq := sub_pos.2 hell
    refine ⟨_, rfl, ?_⟩
    simp only [fin_sub, one_def]
    refine prepared_of _ _ _ _ _ _ _ ?_ ?_ ?_ ?_
    · intro u v
      simp only [fin_mul, fin_div_of_ne ht.ne', ellR_fin hq]
      exact brokenProfile_fin (by positivity) (by positivity) (by positivity) _ _ _
    · intro u v; simp only [ellR_fin hq, ellDist_neg_left]
    · intro u v; simp only [ellR_fin hq, ellDist_neg_right]
    · intro h u v; subst h; rfl
  case h_2 =>
    obtain ⟨hell, hh1, hh2, hh3, ha1, ha2⟩ := hp
    have hq := sub_pos.2 hell
    refine ⟨_, rfl, ?_⟩
    simp only [fin_sub, one_def]
    refine prepared_of _ _ _ _ _ _ _ ?_ ?_ ?_ ?_
    · intro u v
      simp only [ellR_fin hq]
      exact doubleBroken_fin hh1.ne' hh2.ne' hh3.ne' ha1.ne' ha2.ne' _ _ _ _
    · intro u v; simp only [ellR_fin hq, ellDist_neg_left]
    · intro u v; simp only [ellR_fin hq, ellDist_neg_right]
    · intro h u v; subst h; rfl
  case h_3 =>
    obtain ⟨hell, hh, ha⟩ := hp
    have hq := sub_pos.2 hell
    refine ⟨_, rfl, ?_⟩
    simp only [fin_sub, one_def]
    refine prepared_of _ _ _ _ _ _ _ ?_ ?_ ?_ ?_
    · intro u v
      simp only [ellR_fin hq]
      exact flatExp_fin hh.ne' ha.ne' _ _ _
    · intro u v; simp only [ellR_fin hq, ellDist_neg_left]
    · intro u v; simp only [ellR_fin hq, ellDist_neg_right]
    · intro h u v; subst h; rfl
  case h_4 =>
    obtain ⟨hell, hrc, hrt, ha⟩ := hp
    have hq := sub_pos.2 hell
    refine ⟨_, rfl, ?_⟩
    simp only [fin_sub, one_def]
    refine prepared_of _ _ _ _ _ _ _ ?_ ?_ ?_ ?_
    · intro u v
      simp only [fin_mul, ellR_fin hq]
      exact kingProfile_fin (by positivity) ha (by positivity) _ _ (ellDist_nonneg _ _ _)
    · intro u v; simp only [ellR_fin hq, ellDist_neg_left]
    · intro u v; simp only [ellR_fin hq, ellDist_neg_right]
    · intro h u v; subst h; rfl
  case h_5 =>
    obtain ⟨hell, hrc, hrt, ha⟩ := hp
    have hq := sub_pos.2 hell
    refine ⟨_, rfl, ?_⟩
    simp only [fin_sub, one_def]
    refine prepared_of _ _ _ _ _ _ _ ?_ ?_ ?_ ?_
    · intro u v
      simp only [fin_mul, ellR_fin hq]
      exact kingProfile_fin (by positivity) ha (by positivity) _ _ (ellDist_nonneg _ _ _)
    · intro u v; simp only [ellR_fin hq, ellDist_neg_left]
    · intro u v; simp only [ellR_fin hq, ellDist_neg_right]
    · intro h u v; subst h; rfl
  case h_6 =>
    obtain ⟨hell, hs⟩ := hp
    have hq := sub_pos.2 hell
    refine ⟨_, rfl, ?_⟩
    simp only [fin_sub, one_def]
    refine prepared_of _ _ _ _ _ _ _ ?_ (fun _ _ => rfl) (fun _ _ => rfl) (fun _ _ _ => rfl)
    · intro u v
      simp only [fin_mul, ellR_fin hq]
      exact gaussRingProfile_fin (by positivity) _ _ _
  case h_7 =>
    obtain ⟨hell, hs, ho⟩ := hp
    have hq := sub_pos.2 hell
    refine ⟨_, rfl, ?_⟩
    simp only [fin_sub, one_def]
    refine prepared_of _ _ _ _ _ _ _ ?_ (fun _ _ => rfl) (fun _ _ => rfl) (fun _ _ _ => rfl)
    · intro u v
      simp only [fin_mul, ellR_fin hq]
      exact gaussRing2Profile_fin (by positivity) (by positivity) _ _ _
  case h_8 =>
    obtain ⟨hell, hrb, ha⟩ := hp
    have hq := sub_pos.2 hell
    refine ⟨_, rfl, ?_⟩
    simp only [fin_sub, one_def]
    refine prepared_of _ _ _ _ _ _ _ ?_ ?_ ?_ ?_
    · intro u v
      simp only [fin_mul, ellR_fin hq]
      exact nukerProfile_fin (by positivity) ha.ne' _ _ _ _
    · intro u v; simp only [ellR_fin hq, ellDist_neg_left]
    · intro u v; simp only [ellR_fin hq, ellDist_neg_right]
    · intro h u v; subst h; rfl
  case h_9 =>
    obtain ⟨hell, hn, hre, hrb, ha⟩ := hp
    have hq := sub_pos.2 hell
    refine ⟨_, rfl, ?_⟩
    simp only [fin_sub, one_def]
    refine prepared_of _ _ _ _ _ _ _ ?_ ?_ ?_ ?_
    · intro u v
      simp only [fin_mul, ellR_fin hq]
      exact coreSersicProfile_fin hn (by positivity) (by positivity) ha _ _ _
    · intro u v; simp only [ellR_fin hq, ellDist_neg_left]
    · intro u v; simp only [ellR_fin hq, ellDist_neg_right]
    · intro h u v; subst h; rfl
  case h_10 =>
    obtain ⟨hell, hc, hh⟩ := hp
    have hq := sub_pos.2 hell
    refine ⟨_, rfl, ?_⟩
    simp only [fin_sub, one_def]
    refine prepared_of _ _ _ _ _ _ _ ?_ ?_ ?_ ?_
    · intro u v
      simp only [fin_mul, genR_fin hq hc, fin_neg]
      rw [fin_div_of_ne (by positivity), fexp_fin, fin_mul, neg_div]
      rfl
    · intro u v; simp only [genR_fin hq hc, genDist_neg_left]
    · intro u v; simp only [genR_fin hq hc, genDist_neg_right]
    · intro h u v; subst h; rfl
  case h_11 =>
    obtain ⟨hell, hc, hn, hre⟩ := hp
    have hq := sub_pos.2 hell
    refine ⟨_, rfl, ?_⟩
    simp only [fin_sub, one_def]
    refine prepared_of _ _ _ _ _ _ _ ?_ ?_ ?_ ?_
    · intro u v
      simp only [fin_mul, genR_fin hq hc, fin_neg, bn_fin hn, fin_div_of_ne hn.ne']
      rw [fin_div_of_ne (by positivity), fpow_nonneg (div_nonneg (genDist_nonneg _ _ _ _) (by positivity)) (by positivity), fin_sub, fin_mul, fexp_fin, fin_mul,
        neg_mul]
      rfl
    · intro u v; simp only [genR_fin hq hc, genDist_neg_left]
    · intro u v; simp only [genR_fin hq hc, genDist_neg_right]
    · intro h u v; subst h; rfl
  case h_12 =>
    obtain ⟨hell, hc, hn, ha⟩ := hp
    have hq := sub_pos.2 hell
    refine ⟨_, rfl, ?_⟩
    simp only [fin_sub, one_def]
    refine prepared_of _ _ _ _ _ _ _ ?_ ?_ ?_ ?_
    · intro u v
      simp only [fin_mul, genR_fin hq hc]
      exact ferrersProfile_fin hn (by positivity) _ _
    · intro u v; simp only [genR_fin hq hc, genDist_neg_left]
    · intro u v; simp only [genR_fin hq hc, genDist_neg_right]
    · intro h u v; subst h; rfl
  case h_13 =>
    obtain ⟨hr, hz⟩ := hp
    refine ⟨_, rfl, ?_⟩
    simp only [fin_sub]
    refine prepared_of _ _ _ _ _ _ _ ?_ (fun _ _ => rfl) (fun _ _ => rfl) (fun _ _ _ => rfl)
    · intro u v
      simp only [fin_mul]
      exact edgeRing_fin (by positivity) (by positivity) _ _ _ _
  case h_14 =>
    obtain ⟨hi, ho, hz⟩ := hp
    refine ⟨_, rfl, ?_⟩
    simp only [fin_sub]
    refine prepared_of _ _ _ _ _ _ _ ?_ (fun _ _ => rfl) (fun _ _ => rfl) (fun _ _ _ => rfl)
    · intro u v
      simp only [fin_mul, fin_neg]
      rw [edgeRing2_fin (by positivity) (by positivity) (by positivity), neg_mul, neg_neg]
      rfl
  case h_15 =>
    obtain ⟨hh1, hh2, ha, hz⟩ := hp
    refine ⟨_, rfl, ?_⟩
    simp only [fin_sub]
    refine prepared_of _ _ _ _ _ _ _ ?_ ?_ ?_ ?_
    · intro u v
      simp only [fin_mul, fin_div_of_ne ht.ne', fabs_fin, fin_neg]
      rw [brokenProfile_fin (by positivity) (by positivity) (by positivity), fin_div_of_ne (by positivity), fexp_fin, fin_mul, neg_div]
      rfl
    · intro u v; simp only [circR_fin, ellDist_neg_left]
    · intro u v; simp only [circR_fin, ellDist_neg_right]
    · intro h u v; subst h; rfl
  case h_16 =>
    obtain ⟨hh1, hh2, ha, hs⟩ := hp
    refine ⟨_, rfl, ?_⟩
    refine prepared_of _ _ _ _ _ _ _ ?_ ?_ ?_ ?_
    · intro u v
      simp only [fin_mul, fabs_fin, fin_neg, lit2]
      rw [brokenProfile_fin hh1.ne' hh2.ne' ha.ne', fin_div_of_ne (by positivity), fexp_fin, fin_mul, neg_div]
      simp only [PFun.ref, PFun.adjust, bell]
      congr 4
      ring
    · intro u v; simp only [circR_fin, ellDist_neg_left]
    · intro u v; simp only [circR_fin, ellDist_neg_right]
    · intro h u v; subst h; rfl
  case h_17 =>
    obtain ⟨hh, hn, hz, hk⟩ := hp
    refine ⟨_, rfl, ?_⟩
    simp only [fin_sub]
    refine prepared_of _ _ _ _ _ _ _ ?_ (edgeDiskSub_even _ _ _).1 (edgeDiskSub_even _ _ _).2 ?_
    · intro u v
      simp only [fin_mul]
      exact edgeDisk_fin (fun x hx => realK_spec (hk x hx)) (by positivity) hn.ne' (by positivity) _ _ _
    · intro h u v; subst h; rfl
  case h_18 =>
    obtain ⟨hell, hd, hh1, hh2, ha⟩ := hp
    have hq := sub_pos.2 hell
    have hdeg : 0 < degree := by unfold degree; positivity
    have hl : (lit DEG2RAD : XR) = fin degree := by
      rw [lit_def]; congr 1; unfold degree DEG2RAD; push_cast; rfl
    refine ⟨_, rfl, ?_⟩
    simp only [fin_sub, one_def]
    refine prepared_of _ _ _ _ _ _ _ ?_ ?_ ?_ ?_
    · intro u v
      simp only [hl, fin_mul, fin_div_of_ne ht.ne']
      exact flatBar_fin hq (by positivity) (by positivity) (by positivity) (by positivity) _ _ _ _
    · intro u v; simp only [ellR_fin hq, ellDist_neg_left]
    · intro u v; simp only [ellR_fin hq, ellDist_neg_right]
    · intro h u v; subst h; rfl
  case h_19 => exact hp.elim

end Imfit
