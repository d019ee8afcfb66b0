import Verif.Props.C42

/-!
# C41 — elliptical components: symmetry, linearity, maximum at the centre, amplitude
-/

namespace Imfit

open Spec XR Finset

theorem ellRadius_neg (q θ dx dy : ℝ) : ellRadius q θ (-dx) (-dy) = ellRadius q θ dx dy := by
  unfold ellRadius
  congr 1
  ring

theorem ellRadius_smul (q θ t dx dy : ℝ) (ht : 0 ≤ t) : ellRadius q θ (t * dx) (t * dy) = t * ellRadius q θ dx dy := by
  unfold ellRadius
  rw [← Real.sqrt_sq ht, ← Real.sqrt_mul (sq_nonneg t), Real.sqrt_sq ht]
  congr 1
  ring

theorem pixelMean_reflect (n : ℕ) (g : ℝ → ℝ → ℝ) (x0 y0 x y : ℝ) (hg : ∀ a b, g (2 * x0 - a) (2 * y0 - b) = g a b) :
    pixelMean n g (2 * x0 - x) (2 * y0 - y) = pixelMean n g x y := by
  unfold pixelMean
  congr 1
  rw [← Finset.sum_range_reflect]
  refine Finset.sum_congr rfl fun i hi => ?_
  rw [← Finset.sum_range_reflect]
  refine Finset.sum_congr rfl fun j hj => ?_
  rw [← gridPoint_reflect n i (mem_range.1 hi), ← gridPoint_reflect n j (mem_range.1 hj), hg]

theorem pixelMean_le (n : ℕ) (hn : 0 < n) (g : ℝ → ℝ → ℝ) (x y M : ℝ) (hg : ∀ a b, g a b ≤ M) : pixelMean n g x y ≤ M := by
  have hn' : (0 : ℝ) < n := by exact_mod_cast hn
  unfold pixelMean
  rw [div_le_iff₀ (by positivity)]
  calc _ ≤ ∑ i ∈ range n, ∑ j ∈ range n, M := Finset.sum_le_sum fun i _ => Finset.sum_le_sum fun j _ => hg _ _
    _ = M * (n * n) := by simp only [Finset.sum_const, Finset.card_range, nsmul_eq_mul]; ring

theorem pixelMean_smul (n : ℕ) (g : ℝ → ℝ → ℝ) (x y c : ℝ) : pixelMean n (fun a b => c * g a b) x y = c * pixelMean n g x y := by
  unfold pixelMean
  simp only [← Finset.mul_sum]
  rw [mul_div_assoc]

/-- C41, symmetry: reflection through the centre does not change the value of a pixel (nor whether it has one), with and without sub-sampling, for every
parameter vector of the physical range, in every image of a multi-image fit. -/
theorem C41_symmetric (F : EFun) (doSub : Bool) (ps rot is : ℝ) (hps : 0 < ps) (ph : Phys) (hell : ph.ell < 1) (hsize : 0 < ph.size) (hshape : 0 < ph.shape)
    (pre post : List XR) (x0 y0 dx dy : ℝ) :
    F.value doSub ⟨fin ps, fin rot, fin is⟩ (pre ++ F.params ph ++ post) pre.length (fin x0) (fin y0) (fin (x0 + dx)) (fin (y0 + dy)) =
    F.value doSub ⟨fin ps, fin rot, fin is⟩ (pre ++ F.params ph ++ post) pre.length (fin x0) (fin y0) (fin (x0 - dx)) (fin (y0 - dy)) := by
  obtain ⟨f, hf, he, hn⟩ := setup_isEll F doSub ps rot is hps ph hell hsize hshape pre post x0 y0
  have hsc : 0 < F.subScale (ph.inImage ps rot is) := F.subScale_pos (by simp only [Phys.inImage]; positivity) hshape
  unfold EFun.value
  rw [hf, ok_bind, ok_bind]
  set q := 1 - ph.ell
  set θ := (ph.inImage ps rot is).angle
  have hr : ellRadius q θ (x0 - dx - x0) (y0 - dy - y0) = ellRadius q θ (x0 + dx - x0) (y0 + dy - y0) := by
    rw [show x0 - dx - x0 = -(x0 + dx - x0) by ring, show y0 - dy - y0 = -(y0 + dy - y0) by ring, ellRadius_neg]
  cases hs : f.nsub (fin (ellRadius q θ (x0 + dx - x0) (y0 + dy - y0))) with
  | error e => rw [ellValue_error he _ _ e hs, ellValue_error he _ _ e (by rw [hr]; exact hs)]
  | ok m =>
    have hm : ∃ n : ℕ, m = n ∧ 1 ≤ n := by
      rw [hn] at hs
      by_cases hbig : (F.subNum : ℝ) / F.subScale (ph.inImage ps rot is) < 2147483648 ∨ 1 < F.subScale (ph.inImage ps rot is) ∨
          1 < ellRadius q θ (x0 + dx - x0) (y0 + dy - y0)
      · obtain ⟨n, h1, h2, -⟩ := galfitSub_fin doSub F.subNum F.subThresh (by cases F <;> norm_num [EFun.subNum])
          (by cases F <;> norm_num [EFun.subThresh]) _ _ hsc (fun _ => hbig)
        rw [h1] at hs
        exact ⟨n, (Except.ok.inj hs).symm, h2⟩
      · rw [not_or, not_or, not_lt, not_lt, not_lt] at hbig
        unfold galfitSub at hs
        simp only [lit_def, one_def, flt_fin, fle_fin, hbig.2.1, hbig.2.2, decide_true, Bool.and_self, if_true] at hs
        have h10 : decide (ellRadius q θ (x0 + dx - x0) (y0 + dy - y0) < ((10 : ℚ) : ℝ)) = true := by
          have := hbig.2.2
          simp only [decide_eq_true_eq]
          push_cast
          linarith
        rw [h10, fin_div_of_ne hsc.ne'] at hs
        cases doSub with
        | false => cases hs; exact ⟨1, rfl, le_rfl⟩
        | true =>
          simp only [Bool.and_self, if_true, capped] at hs
          rw [ftoi_big hbig.1] at hs
          cases hs
    obtain ⟨n, rfl, hn1⟩ := hm
    rw [ellValue_fin he _ _ n hn1 hs, ellValue_fin he _ _ n hn1 (by rw [hr]; exact hs)]
    congr 2
    rw [show x0 - dx = 2 * x0 - (x0 + dx) by ring, show y0 - dy = 2 * y0 - (y0 + dy) by ring]
    refine (pixelMean_reflect n _ x0 y0 _ _ fun a b => ?_).symm
    rw [show 2 * x0 - a - x0 = -(a - x0) by ring, show 2 * y0 - b - y0 = -(b - y0) by ring, ellRadius_neg]

theorem spec_linear (F : EFun) (ph : Phys) (c r : ℝ) : F.spec { ph with amp := c * ph.amp } r = c * F.spec ph r := by
  cases F <;> simp only [EFun.spec, expProfile, gaussProfile, sersicProfile, moffatProfile] <;> ring

/-- C41, linearity: multiplying the amplitude parameter multiplies the value of every pixel. -/
theorem C41_linear (F : EFun) (doSub : Bool) (ps rot is : ℝ) (hps : 0 < ps) (ph : Phys) (hell : ph.ell < 1) (hsize : 0 < ph.size) (hshape : 0 < ph.shape)
    (htiny : doSub = true → 1 / 10 ^ 7 ≤ F.subScale (ph.inImage ps rot is)) (pre post : List XR) (x0 y0 x y c : ℝ) :
    ∃ v : ℝ, F.value doSub ⟨fin ps, fin rot, fin is⟩ (pre ++ F.params ph ++ post) pre.length (fin x0) (fin y0) (fin x) (fin y) = .ok (fin v) ∧
      F.value doSub ⟨fin ps, fin rot, fin is⟩ (pre ++ F.params { ph with amp := c * ph.amp } ++ post) pre.length (fin x0) (fin y0) (fin x) (fin y) =
        .ok (fin (c * v)) := by
  obtain ⟨f, hf, he, hn⟩ := setup_isEll F doSub ps rot is hps ph hell hsize hshape pre post x0 y0
  obtain ⟨f2, hf2, he2, hn2⟩ := setup_isEll F doSub ps rot is hps { ph with amp := c * ph.amp } hell hsize hshape pre post x0 y0
  have hsc : 0 < F.subScale (ph.inImage ps rot is) := F.subScale_pos (by simp only [Phys.inImage]; positivity) hshape
  have hsame : F.subScale (Phys.inImage { ph with amp := c * ph.amp } ps rot is) = F.subScale (ph.inImage ps rot is) := by cases F <;> rfl
  have hang : (Phys.inImage { ph with amp := c * ph.amp } ps rot is).angle = (ph.inImage ps rot is).angle := rfl
  obtain ⟨n, h1, h2, -⟩ := galfitSub_fin doSub F.subNum F.subThresh (by cases F <;> norm_num [EFun.subNum]) (by cases F <;> norm_num [EFun.subThresh])
    (F.subScale (ph.inImage ps rot is)) (ellRadius (1 - ph.ell) (ph.inImage ps rot is).angle (x - x0) (y - y0)) hsc (fun hd => .inl (by
      rw [div_lt_iff₀ hsc]
      have h40 : (F.subNum : ℝ) ≤ 40 := by cases F <;> norm_num [EFun.subNum]
      have := htiny hd
      have : (2147483648 : ℝ) * (1 / 10 ^ 7) ≤ 2147483648 * F.subScale (ph.inImage ps rot is) := by linarith
      norm_num at this
      linarith))
  unfold EFun.value
  rw [hf, hf2, ok_bind, ok_bind, ellValue_fin he x y n h2 (by rw [hn]; exact h1), ellValue_fin he2 x y n h2 (by rw [hn2, hsame]; exact h1)]
  refine ⟨_, rfl, ?_⟩
  congr 2
  rw [← pixelMean_smul]
  congr 1
  funext a b
  rw [hang, ← spec_linear]
  congr 1
  simp only [Phys.inImage, mul_assoc]

/-- `b_n` is positive for Sersic indices from 0.06 on. -/
theorem bn_pos {n : ℝ} (hn : 0.06 ≤ n) : 0 < bn n := by
  unfold bn
  have h0 : 0 < n := by linarith
  split_ifs with h
  · have h1 : 0.000071510122958919723 / n ^ 4 ≤ 0.0001 / 0.36 ^ 4 := by gcongr; norm_num
    have h2 : 0 ≤ 0.009876543209876543 / n := by positivity
    have h3 : 0 ≤ 0.0018028610621203215 / n ^ 2 := by positivity
    have h4 : 0 ≤ 0.00011409410586365319 / n ^ 3 := by positivity
    norm_num at h1
    linarith
  · push Not at h
    nlinarith [sq_nonneg (n - 0.1), sq_nonneg (n * (n - 0.36)), mul_nonneg h0.le (sub_nonneg.2 h), mul_nonneg (sub_nonneg.2 hn) (sub_nonneg.2 h)]

/-- The documented profiles do not increase with radius (Sersic index at least 0.06). -/
theorem spec_antitone (F : EFun) (ph : Phys) (hamp : 0 ≤ ph.amp) (hsize : 0 < ph.size) (hshape : 0 < ph.shape) (hn : F = .sersic → 0.06 ≤ ph.shape)
    {r s : ℝ} (hr : 0 ≤ r) (hs : r ≤ s) : F.spec ph s ≤ F.spec ph r := by
  cases F with
  | exponential =>
    simp only [EFun.spec, expProfile]
    gcongr
  | gaussian =>
    simp only [EFun.spec, gaussProfile]
    gcongr
  | sersic =>
    have hb := bn_pos (hn rfl)
    simp only [EFun.spec, sersicProfile]
    gcongr
  | moffat =>
    have ha := moffatAlpha_pos hsize hshape
    simp only [EFun.spec, moffatProfile]
    gcongr

/-- C41, maximum at the centre, without sub-sampling: values do not increase outward along any ray. -/
theorem C41_decreasing (F : EFun) (ps rot is : ℝ) (hps : 0 < ps) (his : 0 ≤ is) (ph : Phys) (hell : ph.ell < 1) (hamp : 0 ≤ ph.amp) (hsize : 0 < ph.size)
    (hshape : 0 < ph.shape) (hn : F = .sersic → 0.06 ≤ ph.shape) (pre post : List XR) (x0 y0 dx dy s t : ℝ) (hs : 0 ≤ s) (hst : s ≤ t) :
    ∃ v w : ℝ, F.value false ⟨fin ps, fin rot, fin is⟩ (pre ++ F.params ph ++ post) pre.length (fin x0) (fin y0) (fin (x0 + s * dx)) (fin (y0 + s * dy)) = .ok (fin v) ∧
      F.value false ⟨fin ps, fin rot, fin is⟩ (pre ++ F.params ph ++ post) pre.length (fin x0) (fin y0) (fin (x0 + t * dx)) (fin (y0 + t * dy)) = .ok (fin w) ∧
      w ≤ v := by
  refine ⟨_, _, C42_central F false ps rot is hps ph hell hsize hshape pre post x0 y0 _ _ (.inl rfl),
    C42_central F false ps rot is hps ph hell hsize hshape pre post x0 y0 _ _ (.inl rfl), ?_⟩
  have hR := ellRadius_nonneg (1 - ph.ell) (ph.inImage ps rot is).angle dx dy
  refine spec_antitone F (ph.inImage ps rot is) (mul_nonneg hamp his) (mul_pos hsize hps) hshape hn (ellRadius_nonneg _ _ _ _) ?_
  rw [add_sub_cancel_left, add_sub_cancel_left, add_sub_cancel_left, add_sub_cancel_left, ellRadius_smul _ _ _ _ _ hs, ellRadius_smul _ _ _ _ _ (hs.trans hst)]
  gcongr

/-- C41 with sub-sampling: no pixel exceeds the central intensity of the profile. (Partial: the pixel at the centre need not be the brightest one, see
`C41_maximum_false`.) -/
theorem C41_bounded_partial (F : EFun) (doSub : Bool) (ps rot is : ℝ) (hps : 0 < ps) (his : 0 ≤ is) (ph : Phys) (hell : ph.ell < 1) (hamp : 0 ≤ ph.amp)
    (hsize : 0 < ph.size) (hshape : 0 < ph.shape) (hn : F = .sersic → 0.06 ≤ ph.shape)
    (htiny : doSub = true → 1 / 10 ^ 7 ≤ F.subScale (ph.inImage ps rot is)) (pre post : List XR) (x0 y0 x y : ℝ) :
    ∃ v : ℝ, F.value doSub ⟨fin ps, fin rot, fin is⟩ (pre ++ F.params ph ++ post) pre.length (fin x0) (fin y0) (fin x) (fin y) = .ok (fin v) ∧
      v ≤ F.spec (ph.inImage ps rot is) 0 := by
  obtain ⟨N, h1, h2⟩ := C42_mean_partial F doSub ps rot is hps ph hell hsize hshape htiny pre post x0 y0
  refine ⟨_, h2 x y, pixelMean_le _ (h1 _ (ellRadius_nonneg _ _ _ _)).1 _ _ _ _ fun a b => ?_⟩
  exact spec_antitone F (ph.inImage ps rot is) (mul_nonneg hamp his) (mul_pos hsize hps) hshape hn le_rfl (ellRadius_nonneg _ _ _ _)

/-- C41, amplitude of the exponential, Gaussian and Moffat functions: the value at the centre (without sub-sampling). -/
theorem C41_amplitude_centre (F : EFun) (hF : F ≠ .sersic) (ps rot is : ℝ) (hps : 0 < ps) (ph : Phys) (hell : ph.ell < 1) (hsize : 0 < ph.size)
    (hshape : 0 < ph.shape) (pre post : List XR) (x0 y0 : ℝ) :
    F.value false ⟨fin ps, fin rot, fin is⟩ (pre ++ F.params ph ++ post) pre.length (fin x0) (fin y0) (fin x0) (fin y0) = .ok (fin (ph.amp * is)) := by
  rw [C42_central F false ps rot is hps ph hell hsize hshape pre post x0 y0 _ _ (.inl rfl)]
  have : ∀ q θ : ℝ, ellRadius q θ (x0 - x0) (y0 - y0) = 0 := fun q θ => by simp [ellRadius]
  rw [this]
  cases F with
  | sersic => exact absurd rfl hF
  | _ => simp [EFun.spec, expProfile, gaussProfile, moffatProfile, Phys.inImage]

/-- C41, amplitude of the Sersic function: the value on the ellipse with the effective radius (as seen in the image). -/
theorem C41_amplitude_sersic (ps rot is : ℝ) (hps : 0 < ps) (ph : Phys) (hell : ph.ell < 1) (hsize : 0 < ph.size)
    (hshape : 0 < ph.shape) (pre post : List XR) (x0 y0 x y : ℝ)
    (h : ellRadius (1 - ph.ell) (ph.inImage ps rot is).angle (x - x0) (y - y0) = ph.size * ps) :
    EFun.sersic.value false ⟨fin ps, fin rot, fin is⟩ (pre ++ EFun.sersic.params ph ++ post) pre.length (fin x0) (fin y0) (fin x) (fin y) =
      .ok (fin (ph.amp * is)) := by
  rw [C42_central .sersic false ps rot is hps ph hell hsize hshape pre post x0 y0 _ _ (.inl rfl), h]
  have : ph.size * ps / (ph.size * ps) = 1 := div_self (by positivity)
  simp [EFun.spec, sersicProfile, Phys.inImage, this]

/-- C41, Moffat function: half the amplitude at half the full width at half maximum. -/
theorem C41_moffat_half (ps rot is : ℝ) (hps : 0 < ps) (ph : Phys) (hell : ph.ell < 1) (hsize : 0 < ph.size)
    (hshape : 0 < ph.shape) (pre post : List XR) (x0 y0 x y : ℝ)
    (h : ellRadius (1 - ph.ell) (ph.inImage ps rot is).angle (x - x0) (y - y0) = ph.size * ps / 2) :
    EFun.moffat.value false ⟨fin ps, fin rot, fin is⟩ (pre ++ EFun.moffat.params ph ++ post) pre.length (fin x0) (fin y0) (fin x) (fin y) =
      .ok (fin (ph.amp * is / 2)) := by
  rw [C42_central .moffat false ps rot is hps ph hell hsize hshape pre post x0 y0 _ _ (.inl rfl), h]
  have h2 : (1 : ℝ) < 2 ^ (1 / ph.shape) := Real.one_lt_rpow (by norm_num) (by positivity)
  have hsq : 0 < Real.sqrt (2 ^ (1 / ph.shape) - 1) := Real.sqrt_pos.2 (by linarith)
  have e : ph.size * ps / 2 / moffatAlpha (ph.size * ps) ph.shape = Real.sqrt (2 ^ (1 / ph.shape) - 1) := by
    unfold moffatAlpha
    field_simp
  simp only [EFun.spec, moffatProfile, Phys.inImage, e]
  rw [Real.sq_sqrt (by linarith), add_sub_cancel, ← Real.rpow_mul (by norm_num), one_div, inv_mul_cancel₀ hshape.ne', Real.rpow_one]

/-- C41, sky: the same value everywhere, proportional to its parameter. -/
theorem C41_flat_sky (ps rot is v : ℝ) (pre post : List XR) (x0 y0 x y : XR) :
    flatSkyValue ⟨fin ps, fin rot, fin is⟩ (pre ++ [fin v] ++ post) pre.length x0 y0 x y = .ok (fin (v * is)) := by
  unfold flatSkyValue
  rw [show rd (pre ++ [fin v] ++ post) pre.length = .ok (fin v) from rd_mid pre [fin v] post 0 _ rfl]
  rfl

/-! ## Where the claim fails -/

theorem ellRadius_circle (θ dx dy : ℝ) : ellRadius 1 θ dx dy = Real.sqrt (dx ^ 2 + dy ^ 2) := by
  unfold ellRadius
  congr 1
  have := Real.sin_sq_add_cos_sq θ
  rw [div_one]
  linear_combination (dx ^ 2 + dy ^ 2) * this

/-- C41 is false for small Sersic indices: with n = 0.045 the approximation to `b_n` is negative, and the profile *increases* outward: it is lower at the centre
than on the circle with the effective radius. -/
theorem C41_sersic_index_false : ∃ v w : ℝ,
    EFun.sersic.value false (defaultDesc : ImgDesc XR) [fin 0, fin 0, fin 0.045, fin 1, fin 10] 0 (fin 5) (fin 5) (fin 5) (fin 5) = .ok (fin v) ∧
    EFun.sersic.value false (defaultDesc : ImgDesc XR) [fin 0, fin 0, fin 0.045, fin 1, fin 10] 0 (fin 5) (fin 5) (fin 15) (fin 5) = .ok (fin w) ∧ v < w := by
  refine ⟨_, _, C42_central .sersic false 1 0 1 one_pos ⟨0, 0, 1, 10, 0.045⟩ (by norm_num) (by norm_num) (by norm_num) [] [] 5 5 5 5 (.inl rfl),
    C42_central .sersic false 1 0 1 one_pos ⟨0, 0, 1, 10, 0.045⟩ (by norm_num) (by norm_num) (by norm_num) [] [] 5 5 15 5 (.inl rfl), ?_⟩
  have h1 : ellRadius (1 - (⟨0, 0, 1, 10, 0.045⟩ : Phys).ell) ((⟨0, 0, 1, 10, 0.045⟩ : Phys).inImage 1 0 1).angle (5 - 5) (5 - 5) = 0 := by simp [ellRadius]
  have h2 : ellRadius (1 - (⟨0, 0, 1, 10, 0.045⟩ : Phys).ell) ((⟨0, 0, 1, 10, 0.045⟩ : Phys).inImage 1 0 1).angle (15 - 5) (5 - 5) = 10 := by
    simp only [sub_zero]
    rw [ellRadius_circle, show ((15 : ℝ) - 5) ^ 2 + (5 - 5) ^ 2 = 10 ^ 2 by norm_num, Real.sqrt_sq (by norm_num)]
  rw [h1, h2]
  have hb : bn 0.045 < 0 := by
    unfold bn
    rw [if_neg (by norm_num)]
    norm_num
  simp only [EFun.spec, sersicProfile, Phys.inImage, mul_one, zero_div, one_mul, div_self (show (10 : ℝ) ≠ 0 by norm_num), Real.one_rpow, sub_self, mul_zero, neg_zero,
    Real.exp_zero]
  rw [Real.zero_rpow (by norm_num), Real.exp_lt_one_iff]
  linarith

/-- An exponential function with scale length 10⁻⁴, centred at the origin. -/
noncomputable def exTiny : Phys := ⟨0, 0, 1, 1 / 10 ^ 4, 1⟩

theorem exTiny_value (x y : ℝ) (h : ellRadius 1 exTiny.angle x y ≤ 1) :
    EFun.exponential.value true (defaultDesc : ImgDesc XR) [fin 0, fin 0, fin 1, fin (1 / 10 ^ 4)] 0 (fin 0) (fin 0) (fin x) (fin y) =
      .ok (fin (pixelMean 100 (fun a b => Real.exp (-(Real.sqrt (a ^ 2 + b ^ 2) * 10 ^ 4))) x y)) := by
  obtain ⟨f, hf, he, hn⟩ := setup_isEll .exponential true 1 0 1 one_pos exTiny (by norm_num [exTiny]) (by norm_num [exTiny]) (by norm_num [exTiny]) [] [] 0 0
  have hi : exTiny.inImage 1 0 1 = exTiny := by simp [exTiny, Phys.inImage]
  rw [hi] at he hn
  have hq : 1 - exTiny.ell = 1 := by simp [exTiny]
  rw [hq] at he
  unfold EFun.value
  have hf' : EFun.exponential.setup true (defaultDesc : ImgDesc XR) [fin 0, fin 0, fin 1, fin (1 / 10 ^ 4)] 0 (fin 0) (fin 0) = .ok f := hf
  rw [hf', ok_bind, ellValue_fin he x y 100 (by norm_num)]
  · congr 3
    funext a b
    rw [ellRadius_circle]
    simp [EFun.spec, expProfile, exTiny]
  · rw [hn, sub_zero, sub_zero]
    unfold galfitSub
    have h10 : ellRadius 1 exTiny.angle x y < 10 := by linarith
    have hs : EFun.exponential.subScale exTiny = 1 / 10 ^ 4 := rfl
    have h1 : decide ((1 : ℝ) / 10 ^ 4 ≤ 1) = true := by norm_num
    simp only [lit_def, one_def, flt_fin, fle_fin, hs, h, h1, Rat.cast_ofNat, h10, decide_true, Bool.and_self, if_true, EFun.subNum]
    rw [fin_div_of_ne (by norm_num)]
    unfold capped
    rw [ftoi_fin (by norm_num) (by norm_num)]
    have : ⌊(20 : ℝ) / (1 / 10 ^ 4)⌋ = 200000 := by norm_num
    rw [this]
    rfl

/-- C41 is false with sub-sampling: a narrow exponential function is brighter in a pixel shifted by half a sub-pixel (one of whose 100 × 100 points is the centre
itself) than in the pixel centred on it. -/
theorem C41_maximum_false : ∃ v w : ℝ,
    EFun.exponential.value true (defaultDesc : ImgDesc XR) [fin 0, fin 0, fin 1, fin (1 / 10 ^ 4)] 0 (fin 0) (fin 0) (fin 0) (fin 0) = .ok (fin v) ∧
    EFun.exponential.value true (defaultDesc : ImgDesc XR) [fin 0, fin 0, fin 1, fin (1 / 10 ^ 4)] 0 (fin 0) (fin 0) (fin 0.005) (fin 0.005) = .ok (fin w) ∧
    v < w := by
  refine ⟨_, _, exTiny_value 0 0 ?_, exTiny_value 0.005 0.005 ?_, ?_⟩
  · rw [ellRadius_circle]; norm_num
  · rw [ellRadius_circle]; exact Real.sqrt_le_iff.2 ⟨by norm_num, by norm_num⟩
  · have hexp : Real.exp (-50) < 1 / 10 ^ 4 := by
      have h1 : (2 : ℝ) ≤ Real.exp 1 := by
        have := Real.add_one_le_exp (1 : ℝ)
        linarith
      have h2 : (2 : ℝ) ^ 50 ≤ Real.exp 50 := by
        calc (2 : ℝ) ^ 50 ≤ (Real.exp 1) ^ 50 := by gcongr
          _ = Real.exp 50 := by rw [← Real.exp_nat_mul]; norm_num
      rw [Real.exp_neg, inv_eq_one_div]
      refine one_div_lt_one_div_of_lt (by norm_num) (lt_of_lt_of_le ?_ h2)
      norm_num
    refine lt_of_le_of_lt (b := Real.exp (-50)) ?_ (lt_of_lt_of_le hexp ?_)
    · unfold pixelMean
      rw [div_le_iff₀ (by norm_num)]
      calc _ ≤ ∑ i ∈ range 100, ∑ j ∈ range 100, Real.exp (-50) := by
            refine Finset.sum_le_sum fun i _ => Finset.sum_le_sum fun j _ => ?_
            refine Real.exp_le_exp.2 ?_
            have hg : (0.005 : ℝ) ≤ |gridPoint 100 i 0| := by
              unfold gridPoint
              push_cast
              rcases Nat.lt_or_ge i 50 with h | h
              · have : (i : ℝ) ≤ 49 := by exact_mod_cast Nat.le_of_lt_succ h
                rw [le_abs]; right; linarith
              · have : (50 : ℝ) ≤ i := by exact_mod_cast h
                rw [le_abs]; left; linarith
            have : |gridPoint 100 i 0| ≤ Real.sqrt (gridPoint 100 i 0 ^ 2 + gridPoint 100 j 0 ^ 2) :=
              Real.abs_le_sqrt (by linarith [sq_nonneg (gridPoint 100 j 0)])
            linarith
        _ = Real.exp (-50) * (((100 : ℕ) : ℝ) * (100 : ℕ)) := by
            simp only [Finset.sum_const, Finset.card_range, nsmul_eq_mul]; ring
    · unfold pixelMean
      rw [le_div_iff₀ (by norm_num)]
      have h0 : gridPoint 100 49 0.005 = 0 := by norm_num [gridPoint]
      have h1 : Real.exp (-(Real.sqrt (gridPoint 100 49 0.005 ^ 2 + gridPoint 100 49 0.005 ^ 2) * 10 ^ 4)) = 1 := by
        rw [h0]; norm_num
      calc (1 / 10 ^ 4 * (((100 : ℕ) : ℝ) * (100 : ℕ)) : ℝ) = 1 := by norm_num
        _ = Real.exp (-(Real.sqrt (gridPoint 100 49 0.005 ^ 2 + gridPoint 100 49 0.005 ^ 2) * 10 ^ 4)) := h1.symm
        _ ≤ ∑ j ∈ range 100, Real.exp (-(Real.sqrt (gridPoint 100 49 0.005 ^ 2 + gridPoint 100 j 0.005 ^ 2) * 10 ^ 4)) :=
            Finset.single_le_sum (f := fun j => Real.exp (-(Real.sqrt (gridPoint 100 49 0.005 ^ 2 + gridPoint 100 j 0.005 ^ 2) * 10 ^ 4)))
              (fun j _ => (Real.exp_pos _).le) (by simp)
        _ ≤ _ :=
            Finset.single_le_sum (f := fun i => ∑ j ∈ range 100, Real.exp (-(Real.sqrt (gridPoint 100 i 0.005 ^ 2 + gridPoint 100 j 0.005 ^ 2) * 10 ^ 4)))
              (fun i _ => Finset.sum_nonneg fun j _ => (Real.exp_pos _).le) (by simp)

/-- A tilted Gaussian in an image with other scale, rotation and intensity: opposite pixels agree. -/
example : EFun.gaussian.value true ⟨fin 2, fin 30, fin 3⟩ [fin 40, fin (1 / 4), fin 100, fin 5] 0 (fin 10) (fin 20) (fin 13) (fin 21) =
    EFun.gaussian.value true ⟨fin 2, fin 30, fin 3⟩ [fin 40, fin (1 / 4), fin 100, fin 5] 0 (fin 10) (fin 20) (fin 7) (fin 19) := by
  have h := C41_symmetric .gaussian true 2 30 3 (by norm_num) ⟨40, 1 / 4, 100, 5, 1⟩ (by norm_num) (by norm_num) (by norm_num) [] [] 10 20 3 1
  norm_num at h
  simpa [EFun.params] using h

/-- Central value of a Moffat function. -/
example : EFun.moffat.value false ⟨fin 1, fin 0, fin 2⟩ ([fin 1] ++ EFun.moffat.params ⟨10, 1 / 2, 7, 4, 3⟩ ++ []) 1 (fin 5) (fin 6) (fin 5) (fin 6) = .ok (fin (7 * 2)) :=
  C41_amplitude_centre .moffat (by simp) 1 0 2 one_pos ⟨10, 1 / 2, 7, 4, 3⟩ (by norm_num) (by norm_num) (by norm_num) [fin 1] [] 5 6

end Imfit
