import Verif.Lemmas.ProfileRun

/-!
# C101: magnitudes and the zero point in profile fits

Most profile functions have a surface brightness in magnitudes as a parameter; the zero point turns it into an intensity, and the sum of the intensities (after convolution
with the PSF) back into magnitudes. If all functions of a model are of this kind and the data are magnitudes, the zero point has no influence on the model and the deviates.
The parameter is the model's surface brightness at the place the documentation gives: the centre, `r_e` or `r_b`.

It fails in these cases. `LinearGaussian-1D`, `GaussHermite-1D` and `Delta-1D` have an intensity as a parameter, so the zero point matters. The centre of `vdKSech-1D` is
fainter than its `mu_0`, by `2.5 alpha log10(2)` magnitudes. `GaussHermite-1D` is not the Gauss-Hermite series: `h3` and `h4` only decide whether a term is there, so
different parameters give the same profile.
-/

namespace Imfit

open Spec XR

/-- The functions whose amplitudes are given in magnitudes. -/
def Spec.inMagnitudes : Fun1 → Bool
  | .linearGaussian | .gaussHermite | .delta => false
  | _ => true

theorem flux_shift (zp d mu : ℝ) : flux (zp + d) mu = (10 : ℝ) ^ (d * (2 / 5)) * flux zp mu := by
  unfold flux
  rw [← Real.rpow_add (by norm_num)]
  congr 1
  ring

theorem ref_shift (F : Fun1) (hF : inMagnitudes F = true) (zp d : ℝ) (p : List ℝ) (x0 x : ℝ) :
    F.ref (zp + d) p x0 x = (10 : ℝ) ^ (d * (2 / 5)) * F.ref zp p x0 x := by
  generalize hc : (10 : ℝ) ^ (d * (2 / 5)) = c
  have e : ∀ mu, flux (zp + d) mu = c * flux zp mu := fun mu => by rw [← hc, flux_shift]
  unfold Fun1.ref
  split <;> first
    | (simp only [e, sersicWith, coreSersicWith, brokenCode, brokenI, moffatI, nukerI]; split_ifs <;> ring)
    | (simp only [e, sersicWith, coreSersicWith, brokenCode, brokenI, moffatI, nukerI]; ring)
    | (rw [mul_zero])
    | (simp [inMagnitudes] at hF)

theorem intensity_shift {sets : List FnSet} (h : ∀ s ∈ sets, ∀ f ∈ s.fns, inMagnitudes f.1 = true) (zp d x : ℝ) :
    intensity (zp + d) sets x = (10 : ℝ) ^ (d * (2 / 5)) * intensity zp sets x := by
  unfold intensity terms
  generalize hc : (10 : ℝ) ^ (d * (2 / 5)) = c
  have e : ∀ l : List ℝ, c * l.sum = (l.map (c * ·)).sum := by
    intro l
    induction l with
    | nil => simp
    | cons a t ih => rw [List.sum_cons, List.map_cons, List.sum_cons, mul_add, ih]
  rw [e, List.map_flatten, List.map_map]
  congr 2
  refine List.map_congr_left fun s hs => ?_
  simp only [Function.comp_def, List.map_map]
  exact List.map_congr_left fun f hf => by rw [ref_shift f.1 (h s hs f hf) zp d f.2 s.x0 x, hc]

theorem seenAt_scale (n : Nat) (X : Nat → ℝ) (f g : ℝ → ℝ) (c : ℝ) (h : ∀ x, g x = c * f x) (z : Nat) (q : Option (Nat × (Nat → ℝ))) :
    seenAt n X g z q = c * seenAt n X f z q := by
  match q with
  | none => exact h _
  | some (p, P) =>
    simp only [seenAt, Finset.mul_sum]
    exact Finset.sum_congr rfl fun k _ => by rw [h]; ring

theorem flog_zero_fin : flog (fin 0 : XR) = ninf := by
  simp [flog_fin]

theorem flog_neg_fin {v : ℝ} (h : v < 0) : flog (fin v : XR) = nan := by
  simp [flog_fin, h]

/-- No light at all: the magnitude is `+inf`. -/
theorem toMag1_zero (zp : ℝ) : toMag1 (fin zp) (fin 0) = pinf := by
  have h1 : ¬ Real.log 10 < 0 := not_lt.2 (Real.log_pos (by norm_num)).le
  have h2 : (ninf : XR) / fin (Real.log 10) = ninf := if_neg h1
  have h3 : (fin (25 / 10) : XR) * ninf = ninf := by
    show infSign (-(25 / 10)) = ninf
    unfold infSign
    norm_num
  simp only [toMag1, flog10, flog_zero_fin, lit_def]
  rw [flog_fin_of_pos (by norm_num)]
  push_cast
  rw [h2, h3]
  rfl

/-- Intensities multiplied by `10^(0.4 d)` and a zero point larger by `d`: the same magnitudes, also for intensities that are zero or negative. -/
theorem toMag1_shift (zp d v : ℝ) : toMag1 (fin (zp + d)) (fin ((10 : ℝ) ^ (d * (2 / 5)) * v)) = toMag1 (fin zp) (fin v) := by
  have hc : (0 : ℝ) < (10 : ℝ) ^ (d * (2 / 5)) := Real.rpow_pos_of_pos (by norm_num) _
  have h10 : Real.log 10 ≠ 0 := (Real.log_pos (by norm_num)).ne'
  rcases lt_trichotomy v 0 with h | h | h
  · simp only [toMag1, flog10, flog_neg_fin h, flog_neg_fin (mul_neg_of_pos_of_neg hc h)]
    rfl
  · subst h
    rw [mul_zero]
    rw [toMag1_zero, toMag1_zero]
  · have e1 := asData_fin (mags := true) (zp := zp + d) (v := (10 : ℝ) ^ (d * (2 / 5)) * v) fun _ => mul_pos hc h
    have e2 := asData_fin (mags := true) (zp := zp) (v := v) fun _ => h
    simp only [asData, if_true] at e1 e2
    rw [e1, e2]
    congr 1
    unfold mag
    rw [Real.log_mul hc.ne' h.ne', Real.log_rpow (by norm_num)]
    field_simp
    ring

/-- With magnitudes as data and functions with magnitudes as parameters only, the zero point has no influence on the model or the deviates, with or without a PSF, whatever
the values, errors and mask. -/
theorem C101_zeroPoint (i : ProfIn) (X : Nat → ℝ) (y : Nat → XR) (σ : Nat → ℝ) (bad : Nat → Bool) (q : Option (Nat × (Nat → ℝ))) (h : ProfOK i X y σ bad)
    (hσ : ∀ z, z < i.n → 0 < σ z) (hq : PsfOK i q) (h2 : q.isSome → 2 ≤ i.n) (sets : List FnSet) (hok : SetsOK sets) (hf : i.fns = modelFns sets) (zp d : ℝ)
    (hz : i.zp = fin zp) (hm : i.mags = true) (hM : ∀ s ∈ sets, ∀ f ∈ s.fns, inMagnitudes f.1 = true) :
    ∃ s t, setupProfile i = .ok s ∧ setupProfile { i with zp := fin (zp + d) } = .ok t ∧
      deviates1 s ((modelPars sets).map fin) = deviates1 t ((modelPars sets).map fin) ∧
      (do let s' ← createModel1 s ((modelPars sets).map fin); getModelVector1 s') = (do let t' ← createModel1 t ((modelPars sets).map fin); getModelVector1 t') := by
  obtain ⟨s, h1, hb, h3, h4, h5, hs⟩ := setupProfile_eq h hσ hq h2
  have h' : ProfOK { i with zp := fin (zp + d) } X y σ bad := ⟨h.xs, h.ys, h.errs, h.mask⟩
  have hq' : PsfOK { i with zp := fin (zp + d) } q := by
    cases hq with
    | none a => exact .none a
    | some p P a b c => exact .some p P a b c
  obtain ⟨t, g1, gb, g3, g4, g5, gs⟩ := setupProfile_eq h' hσ hq' h2
  have e : ∀ z, asData s.mags zp (seenAt i.n X (intensity zp sets) z q) = asData t.mags (zp + d) (seenAt i.n X (intensity (zp + d) sets) z q) := by
    intro z
    rw [h5, g5, seenAt_scale i.n X _ _ _ (intensity_shift hM zp d) z q]
    simp only [asData, hm, if_true]
    exact (toMag1_shift zp d _).symm
  refine ⟨s, t, h1, g1, ?_, ?_⟩
  · rw [deviates1_at hb (h4.trans hz) (h3.trans hf) hok hs, deviates1_at gb g4 (g3.trans hf) hok gs]
    simp only [e]
  · rw [getModel1_at hb.nData (h4.trans hz) (h3.trans hf) hok hs, getModel1_at gb.nData g4 (g3.trans hf) hok gs]
    simp only [e]

/-- The surface brightness of a function at `x`, as `CreateModelImage` computes it for a model of this function. -/
noncomputable def magAt (F : Fun1) (zp : ℝ) (p : List ℝ) (x0 x : ℝ) : Res XR := do
  let v ← F.value (fin zp) (p.map fin) 0 (fin x0) (fin x)
  pure (toMag1 (fin zp) v)

theorem mag_flux (zp mu : ℝ) : mag zp (flux zp mu) = mu := by
  have h10 : Real.log 10 ≠ 0 := (Real.log_pos (by norm_num)).ne'
  unfold mag flux
  rw [Real.log_rpow (by norm_num)]
  field_simp
  ring

theorem magAt_eq (F : Fun1) (zp : ℝ) (p : List ℝ) (hp : F.Physical p) (x0 x : ℝ) (hv : 0 < F.ref zp p x0 x) :
    magAt F zp p x0 x = .ok (fin (mag zp (F.ref zp p x0 x))) := by
  have h := value1_fin F zp p hp [] [] x0 x
  simp only [List.nil_append, List.append_nil, List.length_nil] at h
  have e := asData_fin (mags := true) (zp := zp) fun _ => hv
  simp only [asData, if_true] at e
  unfold magAt
  rw [h, ok_bind, e]
  rfl

theorem magAt_mu (F : Fun1) (zp : ℝ) (p : List ℝ) (hp : F.Physical p) (x0 x mu : ℝ) (hv : F.ref zp p x0 x = flux zp mu) : magAt F zp p x0 x = .ok (fin mu) := by
  rw [magAt_eq F zp p hp x0 x (by rw [hv]; exact flux_pos zp mu), hv, mag_flux]

/-- `mu_0` is the surface brightness at the centre. -/
theorem C101_exponential (zp mu h x0 : ℝ) (hh : 0 < h) : magAt .exponential zp [mu, h] x0 x0 = .ok (fin mu) :=
  magAt_mu .exponential _ [mu, h] hh _ _ _ (by simp [Fun1.ref])

theorem C101_gaussian (zp mu s x0 : ℝ) (hs : 0 < s) : magAt .gaussian zp [mu, s] x0 x0 = .ok (fin mu) :=
  magAt_mu .gaussian _ [mu, s] hs _ _ _ (by simp [Fun1.ref, bell])

theorem C101_gaussian2Side (zp mu sl sr x0 : ℝ) (hl : 0 < sl) (hr : 0 < sr) : magAt .gaussian2Side zp [mu, sl, sr] x0 x0 = .ok (fin mu) :=
  magAt_mu .gaussian2Side _ [mu, sl, sr] ⟨hl, hr⟩ _ _ _ (by simp [Fun1.ref, bell])

theorem C101_sech (zp mu h x0 : ℝ) (hh : 0 < h) : magAt .sech zp [mu, h] x0 x0 = .ok (fin mu) :=
  magAt_mu .sech _ [mu, h] hh _ _ _ (by simp [Fun1.ref])

theorem C101_sech2 (zp mu h x0 : ℝ) (hh : 0 < h) : magAt .sech2 zp [mu, h] x0 x0 = .ok (fin mu) :=
  magAt_mu .sech2 _ [mu, h] hh _ _ _ (by simp [Fun1.ref])

theorem C101_moffat (zp mu fw b x0 : ℝ) (hf : 0 < fw) (hb : 0 < b) : magAt .moffat zp [mu, fw, b] x0 x0 = .ok (fin mu) :=
  magAt_mu .moffat _ [mu, fw, b] ⟨hf, hb⟩ _ _ _ (by simp [Fun1.ref, moffatI])

theorem C101_brokenExponential (zp mu h1 h2 rb a x0 : ℝ) (hh1 : 0 < h1) (hh2 : 0 < h2) (ha : 0 < a) (hrb : 0 ≤ rb) :
    magAt .brokenExponential zp [mu, h1, h2, rb, a] x0 x0 = .ok (fin mu) := by
  refine magAt_mu .brokenExponential _ [mu, h1, h2, rb, a] ⟨hh1, hh2, ha⟩ _ _ _ ?_
  have hp : 0 < 1 + Real.exp (-(a * rb)) := one_add_exp_pos _
  have hn : ¬ 100 < a * (0 - rb) := by
    have := mul_nonneg ha.le hrb
    nlinarith
  simp only [Fun1.ref, sub_self, abs_zero, brokenCode, hn, if_false, brokenI, zero_div, neg_zero, Real.exp_zero, mul_one]
  rw [show a * (0 - rb) = -(a * rb) by ring, mul_assoc, ← Real.rpow_add hp, neg_add_cancel, Real.rpow_zero, mul_one]

/-- `mu_e` is the surface brightness at `r_e` on both sides. -/
theorem C101_sersic (zp n mu re x0 x : ℝ) (hn : 0 < n) (hre : 0 < re) (hx : |x - x0| = re) : magAt .sersic zp [n, mu, re] x0 x = .ok (fin mu) :=
  magAt_mu .sersic _ [n, mu, re] ⟨hn, hre⟩ _ _ _ (by simp [Fun1.ref, hx, sersicWith, div_self hre.ne'])

/-- `mu_b` is the surface brightness at `r_b` on both sides; distances less than 0.001 count as 0.001. -/
theorem C101_nuker (zp a b g rb mu x0 x : ℝ) (ha : 0 < a) (hrb : 1 / 1000 ≤ rb) (hx : |x - x0| = rb) : magAt .nuker zp [a, b, g, rb, mu] x0 x = .ok (fin mu) := by
  have h0 : 0 < rb := lt_of_lt_of_le (by norm_num) hrb
  refine magAt_mu .nuker _ [a, b, g, rb, mu] ⟨ha, h0⟩ _ _ _ ?_
  simp only [Fun1.ref, hx, max_eq_left hrb, nukerI, div_self h0.ne', Real.one_rpow, mul_one]
  rw [show (1 : ℝ) + 1 = 2 by norm_num, mul_assoc, ← Real.rpow_add (by norm_num), add_neg_cancel, Real.rpow_zero, mul_one]

theorem C101_coreSersic (zp n mu re rb a g x0 x : ℝ) (hn : 0 < n) (hre : 0 < re) (ha : 0 < a) (hrb : 1 / 1000 ≤ rb) (hx : |x - x0| = rb) :
    magAt .coreSersic zp [n, mu, re, rb, a, g] x0 x = .ok (fin mu) := by
  have h0 : 0 < rb := lt_of_lt_of_le (by norm_num) hrb
  refine magAt_mu .coreSersic _ [n, mu, re, rb, a, g] ⟨hn, hre, h0, ha⟩ _ _ _ ?_
  have e : ((rb ^ a + rb ^ a) / re ^ a) ^ (1 / (a * n)) = (2 ^ (1 / a) * rb / re) ^ (1 / n) := by
    have h2 : (0 : ℝ) < 2 ^ (1 / a) := Real.rpow_pos_of_pos (by norm_num) _
    have : (rb ^ a + rb ^ a) / re ^ a = (2 ^ (1 / a) * rb / re) ^ a := by
      rw [Real.div_rpow (by positivity) hre.le, Real.mul_rpow h2.le h0.le, ← Real.rpow_mul (by norm_num), one_div_mul_cancel ha.ne', Real.rpow_one]
      ring
    rw [this, ← Real.rpow_mul (by positivity)]
    congr 1
    field_simp
  simp only [Fun1.ref, hx, max_eq_left hrb, coreSersicWith, div_self h0.ne', Real.one_rpow, e]
  rw [show (1 : ℝ) + 1 = 2 by norm_num, Real.exp_neg]
  have he := (Real.exp_pos (bnCB n * (2 ^ (1 / a) * rb / re) ^ (1 / n))).ne'
  have h2 : (2 : ℝ) ^ (-(g / a)) * 2 ^ (g / a) = 1 := by rw [← Real.rpow_add (by norm_num), neg_add_cancel, Real.rpow_zero]
  field_simp
  linear_combination flux zp mu * h2

/-- The centre of `vdKSech-1D`. -/
theorem C101_vdkSech_centre (zp mu z0 a x0 : ℝ) (hz : 0 < z0) (ha : 0 < a) :
    magAt .vdkSech zp [mu, z0, a] x0 x0 = .ok (fin (mu + 5 / 2 * a * (Real.log 2 / Real.log 10))) := by
  have hr : Fun1.vdkSech.ref zp [mu, z0, a] x0 x0 = 2 ^ (-a) * flux zp mu := by simp [Fun1.ref, sechI]
  have h2 : (0 : ℝ) < 2 ^ (-a) := Real.rpow_pos_of_pos (by norm_num) _
  rw [magAt_eq .vdkSech zp [mu, z0, a] ⟨hz, ha⟩ _ _ (by rw [hr]; exact mul_pos h2 (flux_pos _ _)), hr]
  congr 2
  have := mag_flux zp mu
  unfold mag at this ⊢
  rw [Real.log_mul h2.ne' (flux_pos _ _).ne', Real.log_rpow (by norm_num)]
  linear_combination this

/-- The parameter `mu_0` of `vdKSech-1D` is not the surface brightness at the centre. -/
theorem C101_vdkSech_false : magAt .vdkSech 25 [18, 3, 1] 0 0 ≠ .ok (fin 18) := by
  rw [C101_vdkSech_centre _ _ _ _ _ (by norm_num) (by norm_num)]
  have h2 : 0 < Real.log 2 := Real.log_pos (by norm_num)
  have h10 : 0 < Real.log 10 := Real.log_pos (by norm_num)
  have : 0 < Real.log 2 / Real.log 10 := div_pos h2 h10
  intro h
  simp only [Except.ok.injEq, fin.injEq] at h
  linarith

/-- It is the central surface brightness of the exponential that the profile approaches far from the plane. -/
theorem C101_vdkSech (zp mu z0 a x0 x : ℝ) (hz : 0 < z0) (ha : 0 < a) :
    Fun1.vdkSech.value (fin zp) ([mu, z0, a].map fin) 0 (fin x0) (fin x) =
      .ok (fin (flux zp mu * Real.exp (-(|x - x0| / z0)) * (1 + Real.exp (-(2 * |x - x0| / (a * z0)))) ^ (-a))) := by
  have h := value1_fin .vdkSech zp [mu, z0, a] ⟨hz, ha⟩ [] [] x0 x
  simp only [List.nil_append, List.append_nil, List.length_nil] at h
  rw [h]
  congr 2
  simp only [Fun1.ref, sechI]
  generalize |x - x0| = r
  have e1 : 2 / a * r / (2 * z0) = r / (a * z0) := by field_simp
  have e2 : 2 / (2 / a) = a := by field_simp
  have e3 : Real.cosh (r / (a * z0)) = Real.exp (r / (a * z0)) * (1 + Real.exp (-(2 * r / (a * z0)))) / 2 := by
    rw [Real.cosh_eq, mul_add, mul_one, ← Real.exp_add]
    congr 3
    ring
  have hp := one_add_exp_pos (-(2 * r / (a * z0)))
  have he := Real.exp_pos (r / (a * z0))
  rw [e1, e2, e3, one_div, Real.inv_rpow (by positivity), ← Real.rpow_neg (by positivity), Real.div_rpow (by positivity) (by norm_num), Real.mul_rpow he.le hp.le]
  have e4 : Real.exp (r / (a * z0)) ^ (-a) = Real.exp (-(r / z0)) := by
    rw [← Real.exp_mul]
    congr 1
    field_simp
  rw [e4]
  have h2 : (2 : ℝ) ^ (-a) ≠ 0 := (Real.rpow_pos_of_pos (by norm_num) _).ne'
  field_simp

/-- With a function that has an intensity as a parameter the zero point matters: a `LinearGaussian-1D` of intensity 1 has the magnitude `zp` at its centre. -/
theorem C101_intensity (zp : ℝ) : magAt .linearGaussian zp [1, 2] 0 0 = .ok (fin zp) := by
  have hr : Fun1.linearGaussian.ref zp [1, 2] 0 0 = 1 := by simp [Fun1.ref, bell]
  rw [magAt_eq .linearGaussian zp [1, 2] (show (0 : ℝ) < 2 by norm_num) _ _ (by rw [hr]; norm_num), hr]
  simp [mag]

theorem C101_zeroPoint_false : magAt .linearGaussian 25 [1, 2] 0 0 ≠ magAt .linearGaussian 26 [1, 2] 0 0 := by
  rw [C101_intensity, C101_intensity]
  intro h
  simp only [Except.ok.injEq, fin.injEq] at h
  norm_num at h

/-- `GaussHermite-1D` gives the same profile for all `h3` and `h4` that are not 0. -/
theorem C101_gaussHermite_same (zp a s h3 h4 k3 k4 x0 x : ℝ) (hs : 0 < s) (e3 : h3 ≠ 0) (e4 : h4 ≠ 0) (f3 : k3 ≠ 0) (f4 : k4 ≠ 0) :
    Fun1.gaussHermite.value (fin zp) ([a, s, h3, h4].map fin) 0 (fin x0) (fin x) = Fun1.gaussHermite.value (fin zp) ([a, s, k3, k4].map fin) 0 (fin x0) (fin x) := by
  have h := value1_fin .gaussHermite zp [a, s, h3, h4] hs [] [] x0 x
  have k := value1_fin .gaussHermite zp [a, s, k3, k4] hs [] [] x0 x
  simp only [List.nil_append, List.append_nil, List.length_nil] at h k
  rw [h, k]
  simp only [Fun1.ref, hermiteCode, e3, e4, f3, f4, if_false]

/-- It is not the Gauss-Hermite series. -/
theorem C101_gaussHermite_false : Fun1.gaussHermite.value (fin 0) ([1, 1, 1 / 10, 0].map fin) 0 (fin 0) (fin 1) ≠ .ok (fin (gaussHermiteI 1 1 (1 / 10) 0 1)) := by
  have h := value1_fin .gaussHermite 0 [1, 1, 1 / 10, 0] (show (0 : ℝ) < 1 by norm_num) [] [] 0 1
  simp only [List.nil_append, List.append_nil, List.length_nil] at h
  rw [h]
  intro e
  simp only [Except.ok.injEq, fin.injEq, Fun1.ref, hermiteCode, gaussHermiteI] at e
  have h2 : 0 < Real.sqrt 2 := Real.sqrt_pos.2 (by norm_num)
  have h6 : 0 < Real.sqrt 6 := Real.sqrt_pos.2 (by norm_num)
  have hh : hermite3 1 < 0 := by
    unfold hermite3
    refine div_neg_of_neg_of_pos ?_ h6
    linarith
  have he := Real.exp_pos (-((1 / 1 : ℝ) ^ 2 / 2))
  norm_num at e he
  nlinarith [mul_neg_of_neg_of_pos hh he]

/-- A Sersic bulge and an exponential disk at a common centre, and a second function set. -/
def c101Sets : List FnSet := [⟨5, [(.sersic, [2, 20, 3]), (.exponential, [18, 10])]⟩, ⟨40, [(.gaussian, [21, 2])]⟩]

/-- A model that meets the conditions of `C101_zeroPoint`, with masked points, a value that is not a number and a PSF. -/
example : ∃ s t, setupProfile ⟨modelFns c101Sets, fin 25, true, 3, [fin 0, fin 1, fin 2], [fin 18, nan, fin 19], none, some ([fin 0, fin 0, fin 1], MASK_ZERO_IS_GOOD),
      some [fin 1, fin 2, fin 1]⟩ = .ok s ∧
    setupProfile ⟨modelFns c101Sets, fin (25 + 3), true, 3, [fin 0, fin 1, fin 2], [fin 18, nan, fin 19], none, some ([fin 0, fin 0, fin 1], MASK_ZERO_IS_GOOD),
      some [fin 1, fin 2, fin 1]⟩ = .ok t ∧
    deviates1 s ((modelPars c101Sets).map fin) = deviates1 t ((modelPars c101Sets).map fin) := by
  obtain ⟨s, t, h1, h2, h3, -⟩ := C101_zeroPoint ⟨modelFns c101Sets, fin 25, true, 3, [fin 0, fin 1, fin 2], [fin 18, nan, fin 19], none,
      some ([fin 0, fin 0, fin 1], MASK_ZERO_IS_GOOD), some [fin 1, fin 2, fin 1]⟩ (fun z => z) (fun z => [fin 18, nan, fin 19].getD z nan) (fun _ => 1)
    (fun z => flt 0 ([fin 0, fin 0, fin 1].getD z nan)) (some (3, fun k => [1, 2, 1].getD k 0))
    ⟨by simp [tab, List.range_succ], by simp [tab, List.range_succ], .inl ⟨rfl, fun _ => rfl⟩,
      .inr (.inl ⟨fun z => [fin 0, fin 0, fin 1].getD z nan, by simp [tab, List.range_succ], fun _ => rfl⟩)⟩
    (fun _ _ => one_pos) (.some 3 _ (by simp [tab, List.range_succ]) (by norm_num) (by norm_num [Finset.sum_range_succ])) (fun _ => by norm_num) c101Sets
    (by
      intro s hs
      simp only [c101Sets, List.mem_cons, List.not_mem_nil, or_false] at hs
      rcases hs with rfl | rfl
      · refine ⟨by simp, ?_⟩
        intro f hf
        simp only [List.mem_cons, List.not_mem_nil, or_false] at hf
        rcases hf with rfl | rfl <;> norm_num [Fun1.Physical]
      · refine ⟨by simp, ?_⟩
        intro f hf
        simp only [List.mem_cons, List.not_mem_nil, or_false] at hf
        subst hf
        norm_num [Fun1.Physical])
    rfl 25 3 rfl rfl (by
      intro s hs f hf
      simp only [c101Sets, List.mem_cons, List.not_mem_nil, or_false] at hs
      rcases hs with rfl | rfl
      · simp only [List.mem_cons, List.not_mem_nil, or_false] at hf
        rcases hf with rfl | rfl <;> rfl
      · simp only [List.mem_cons, List.not_mem_nil, or_false] at hf
        subst hf
        rfl)
  exact ⟨s, t, h1, h2, h3⟩

example : magAt .sersic 25 [4, 19, 7] 3 (3 - 7) = .ok (fin 19) := C101_sersic _ _ _ _ _ _ (by norm_num) (by norm_num) (by norm_num)

end Imfit
