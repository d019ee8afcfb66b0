import Verif.Lemmas.Plane

/-!
# The profiles of the image functions as real functions

Each `…_fin` lemma evaluates a profile of the model in exact arithmetic; each `…_scale` lemma says what happens when the parameters are converted to another pixel size
(`t` new pixels per old pixel) and another intensity unit.
-/

namespace Imfit

open Spec XR

theorem fpow_nonneg' {a b : ℝ} (ha : 0 ≤ a) (hb : 0 ≤ b) : fpow (fin a) (fin b) = fin (a ^ b) := by
  rcases hb.lt_or_eq with h | h
  · exact fpow_nonneg ha h
  · subst h
    rcases ha.lt_or_eq with h | h
    · exact fpow_pos h 0
    · subst h
      show (if (0 : ℝ) < 0 then _ else if (0 : ℝ) = 0 then XR.powZero (fin 0) else _) = _
      rw [if_neg (lt_irrefl 0), if_pos rfl]
      simp [XR.powZero]

theorem lit100 : (lit 100 : XR) = fin 100 := by simp [lit_def]
theorem lit2 : (lit 2 : XR) = fin 2 := by simp [lit_def]

/-- What the code computes for the broken exponential. -/
noncomputable def brokenCode (amp h1 h2 rb a r : ℝ) : ℝ :=
  if 100 < a * (r - rb) then amp * (1 + Real.exp (-(a * rb))) ^ (-(1 / a * (1 / h1 - 1 / h2))) * Real.exp (rb / h2 - rb / h1 - r / h2)
  else brokenI amp h1 h2 rb a r

theorem one_add_exp_pos (x : ℝ) : 0 < 1 + Real.exp x := by positivity

theorem brokenProfile_fin {h1 h2 a : ℝ} (hh1 : h1 ≠ 0) (hh2 : h2 ≠ 0) (ha : a ≠ 0) (amp rb r : ℝ) :
    brokenProfile (fin amp) (fin h1) (fin h2) (fin rb) (fin a) (fin r) = fin (brokenCode amp h1 h2 rb a r) := by
  unfold brokenProfile brokenCode brokenI
  simp only [lit100, one_def, fin_div_of_ne hh1, fin_div_of_ne hh2, fin_div_of_ne ha, fin_sub, fin_mul, fin_neg, fexp_fin, fin_add, flt_fin,
    fpow_pos (one_add_exp_pos _)]
  by_cases h : 100 < a * (r - rb)
  · simp only [h, decide_true, if_true]
    rw [neg_mul]
  · simp only [h, decide_false, Bool.false_eq_true, if_false]
    rw [neg_mul, neg_div]

theorem brokenCode_scale {t : ℝ} (ht : 0 < t) (k amp h1 h2 rb a r : ℝ) :
    brokenCode (amp * k) (h1 * t) (h2 * t) (rb * t) (a / t) (t * r) = k * brokenCode amp h1 h2 rb a r := by
  have ht' := ht.ne'
  have e1 : a / t * (t * r - rb * t) = a * (r - rb) := by field_simp
  have e2 : a / t * (rb * t) = a * rb := by field_simp
  have e3 : 1 / (a / t) * (1 / (h1 * t) - 1 / (h2 * t)) = 1 / a * (1 / h1 - 1 / h2) := by
    rw [one_div_div, one_div, mul_inv, one_div, mul_inv, one_div, one_div, ← sub_mul]
    field_simp
    try ring
  have e4 : ∀ x h : ℝ, x * t / (h * t) = x / h := fun x h => mul_div_mul_right _ _ ht'
  have e5 : ∀ h : ℝ, t * r / (h * t) = r / h := fun h => by rw [mul_comm t r]; exact e4 r h
  unfold brokenCode brokenI
  rw [e1, e2, e3, e4, e4, e5, e5]
  by_cases h : 100 < a * (r - rb)
  · rw [if_pos h, if_pos h]; ring
  · rw [if_neg h, if_neg h]; ring

theorem kingProfile_fin {rc rt a : ℝ} (hrc : 0 < rc) (ha : 0 < a) (hrt : 0 < rt) (amp r : ℝ) (hr : 0 ≤ r) :
    kingProfile (fin amp) (fin rc) (fin rt) (fin a) (fin r) = fin (kingI amp rc rt a r) := by
  have hp : ∀ x : ℝ, 0 < 1 + x * x := fun x => by have := mul_self_nonneg x; linarith
  have hlt : ∀ x y : ℝ, 0 ≤ x → x < y → 1 / (1 + y * y) ^ (1 / a) < 1 / (1 + x * x) ^ (1 / a) := fun x y hx hxy => by
    apply one_div_lt_one_div_of_lt (Real.rpow_pos_of_pos (hp x) _)
    exact Real.rpow_lt_rpow (hp x).le (by nlinarith) (by positivity)
  have h0 : 1 / (1 + rt / rc * (rt / rc)) ^ (1 / a) < 1 := by
    have := hlt 0 (rt / rc) le_rfl (by positivity)
    simpa using this
  unfold kingProfile kingI
  simp only [one_def, fin_div_of_ne ha.ne', fin_div_of_ne hrc.ne', fin_mul, fin_add, fpow_pos (hp _), fin_div_of_ne (Real.rpow_pos_of_pos (hp _) _).ne',
    fin_sub, fin_neg, flt_fin, fpow_pos (sub_pos.2 h0)]
  by_cases h : r < rt
  · simp only [h, decide_true, if_true]
    have h1 := hlt (r / rc) (rt / rc) (by positivity) (by gcongr)
    rw [show r * (1 / rc) = r / rc by ring, fpow_pos (sub_pos.2 h1)]
    simp only [fin_mul, sq]
  · simp only [h, decide_false, Bool.false_eq_true, if_false]
    rfl

theorem kingI_scale {t : ℝ} (ht : 0 < t) (k amp rc rt a r : ℝ) : kingI (amp * k) (rc * t) (rt * t) a (t * r) = k * kingI amp rc rt a r := by
  have e1 : rt * t / (rc * t) = rt / rc := mul_div_mul_right _ _ ht.ne'
  have e2 : t * r / (rc * t) = r / rc := by rw [mul_comm t r]; exact mul_div_mul_right _ _ ht.ne'
  have e3 : (t * r < rt * t) ↔ r < rt := by rw [mul_comm t r]; exact mul_lt_mul_iff_left₀ ht
  unfold kingI
  rw [e1, e2]
  by_cases h : r < rt
  · rw [if_pos h, if_pos (e3.2 h)]; ring
  · rw [if_neg h, if_neg (fun x => h (e3.1 x)), mul_zero]

theorem gaussRingProfile_fin {s : ℝ} (hs : s ≠ 0) (amp rr r : ℝ) :
    gaussRingProfile (fin amp) (fin rr) (fin s) (fin r) = fin (amp * bell rr s r) := by
  unfold gaussRingProfile bell
  simp only [lit2, fin_sub, fabs_fin, fin_mul, fin_neg, fin_div_of_ne (show (2 * s * s : ℝ) ≠ 0 by positivity), fexp_fin]
  rw [neg_div, abs_mul_abs_self]
  congr 4
  ring

theorem gaussRing2Profile_fin {si so : ℝ} (hi : si ≠ 0) (ho : so ≠ 0) (amp rr r : ℝ) :
    gaussRing2Profile (fin amp) (fin rr) (fin si) (fin so) (fin r) = fin (amp * bell rr (if r < rr then si else so) r) := by
  unfold gaussRing2Profile bell
  simp only [lit2, fin_sub, fabs_fin, fin_mul, fin_neg, flt_fin]
  by_cases h : r < rr
  · simp only [h, decide_true, if_true, fin_div_of_ne (show (2 * si * si : ℝ) ≠ 0 by positivity), fexp_fin, fin_mul]
    rw [neg_div, abs_mul_abs_self]
    congr 4
    ring
  · simp only [h, decide_false, Bool.false_eq_true, if_false, fin_div_of_ne (show (2 * so * so : ℝ) ≠ 0 by positivity), fexp_fin, fin_mul]
    rw [neg_div, abs_mul_abs_self]
    congr 4
    ring

theorem bell_scale {t : ℝ} (ht : 0 < t) (m s r : ℝ) : bell (m * t) (s * t) (t * r) = bell m s r := by
  unfold bell
  congr 2
  rw [show (t * r - m * t) ^ 2 = (r - m) ^ 2 * t ^ 2 by ring, show 2 * (s * t) ^ 2 = 2 * s ^ 2 * t ^ 2 by ring, mul_div_mul_right _ _ (by positivity)]

theorem clampR_fin (r : ℝ) : clampR (fin r) = fin (max r (1 / 1000)) := by
  unfold clampR
  rw [lit_def, flt_fin, show (((1 / 1000 : ℚ)) : ℝ) = 1 / 1000 by push_cast; rfl]
  by_cases h : r < 1 / 1000
  · rw [decide_eq_true h, max_eq_right h.le]
    rfl
  · rw [decide_eq_false h, max_eq_left (not_lt.1 h)]
    rfl

theorem nukerProfile_fin {rb a : ℝ} (hrb : 0 < rb) (ha : a ≠ 0) (ib b g r' : ℝ) :
    nukerProfile (fin ib) (fin rb) (fin a) (fin b) (fin g) (fin r') = fin (nukerI ib rb a b g (max r' (1 / 1000))) := by
  set r := max r' (1 / 1000) with hrdef
  have hr0 : 0 < r := lt_of_lt_of_le (by norm_num) (le_max_right r' (1 / 1000))
  unfold nukerProfile nukerI
  simp only [clampR_fin, ← hrdef, lit2, one_def, fin_sub, fin_div_of_ne ha, fpow_pos (show (0 : ℝ) < 2 by norm_num), fin_mul, fin_div_of_ne hr0.ne',
    fpow_pos (show 0 < rb / r by positivity), fin_div_of_ne hrb.ne', fpow_pos (show 0 < r / rb by positivity), fin_add, fin_neg]
  rw [fpow_pos (by positivity)]
  simp only [fin_mul]

theorem nukerI_scale {t : ℝ} (ht : 0 < t) (k ib rb a b g r : ℝ) : nukerI (ib * k) (rb * t) a b g (t * r) = k * nukerI ib rb a b g r := by
  unfold nukerI
  rw [show rb * t / (t * r) = rb / r by rw [mul_comm t r]; exact mul_div_mul_right _ _ ht.ne',
    show t * r / (rb * t) = r / rb by rw [mul_comm t r]; exact mul_div_mul_right _ _ ht.ne']
  ring

theorem coreSersicProfile_fin {n re rb a : ℝ} (hn : 0 < n) (hre : 0 < re) (hrb : 0 < rb) (ha : 0 < a) (ib g r' : ℝ) :
    coreSersicProfile (fin n) (fin ib) (fin re) (fin rb) (fin a) (fin g) (fin r') = fin (coreSersicI n ib re rb a g (max r' (1 / 1000))) := by
  set r := max r' (1 / 1000) with hrdef
  have hr0 : 0 < r := lt_of_lt_of_le (by norm_num) (le_max_right r' (1 / 1000))
  have hp : 0 < rb / r := by positivity
  have h2 : 0 < (2 : ℝ) ^ (1 / a) * rb / re := by positivity
  have h3 : 0 < (r ^ a + rb ^ a) / re ^ a := by positivity
  unfold coreSersicProfile coreSersicI
  simp only [clampR_fin, ← hrdef, bn_fin hn, lit2, one_def, fin_neg, fin_div_of_ne ha.ne', fin_div_of_ne hn.ne', fin_div_of_ne hr0.ne',
    fpow_pos (show (0 : ℝ) < 2 by norm_num), fin_mul, fin_div_of_ne hre.ne', fpow_pos h2, fexp_fin, fpow_pos hp, fin_add,
    fpow_pos (show 0 < 1 + (rb / r) ^ a by positivity), fpow_pos hr0, fpow_pos hrb, fpow_pos hre, fin_div_of_ne (Real.rpow_pos_of_pos hre a).ne',
    fpow_pos h3, fin_div_of_ne (show a * n ≠ 0 by positivity)]
  rw [neg_div, neg_mul]

theorem coreSersicI_scale {t : ℝ} (ht : 0 < t) (k n ib : ℝ) {re rb r : ℝ} (hre : 0 < re) (hrb : 0 < rb) (hr : 0 < r) (a g : ℝ) :
    coreSersicI n (ib * k) (re * t) (rb * t) a g (t * r) = k * coreSersicI n ib re rb a g r := by
  have hta : (0 : ℝ) < t ^ a := Real.rpow_pos_of_pos ht a
  unfold coreSersicI
  rw [show 2 ^ (1 / a) * (rb * t) / (re * t) = 2 ^ (1 / a) * rb / re by rw [← mul_assoc]; exact mul_div_mul_right _ _ ht.ne',
    show rb * t / (t * r) = rb / r by rw [mul_comm t r]; exact mul_div_mul_right _ _ ht.ne',
    Real.mul_rpow ht.le hr.le, Real.mul_rpow hrb.le ht.le, Real.mul_rpow hre.le ht.le,
    show (t ^ a * r ^ a + rb ^ a * t ^ a) / (re ^ a * t ^ a) = (r ^ a + rb ^ a) / re ^ a by
      rw [mul_comm (t ^ a), ← add_mul]; exact mul_div_mul_right _ _ hta.ne']
  ring

theorem ferrersProfile_fin {n abar : ℝ} (hn : 0 ≤ n) (ha : 0 < abar) (amp r : ℝ) :
    ferrersProfile (fin n) (fin amp) (fin abar) (fin r) = fin (ferrersI n amp abar r) := by
  unfold ferrersProfile ferrersI
  rw [show (r / abar) ^ 2 = r * r / (abar * abar) by rw [div_pow, sq, sq]]
  simp only [fin_mul, fin_div_of_ne (show abar * abar ≠ 0 by positivity), one_def, zero_def, flt_fin, fin_sub]
  by_cases h : 1 < r * r / (abar * abar)
  · simp [h]
  · simp only [h, decide_false, Bool.false_eq_true, if_false]
    rw [fpow_nonneg' (by linarith) hn, fin_mul]

theorem ferrersI_scale {t : ℝ} (ht : 0 < t) (k n amp abar r : ℝ) : ferrersI n (amp * k) (abar * t) (t * r) = k * ferrersI n amp abar r := by
  unfold ferrersI
  rw [show t * r / (abar * t) = r / abar by rw [mul_comm t r]; exact mul_div_mul_right _ _ ht.ne']
  by_cases h : 1 < (r / abar) ^ 2
  · rw [if_pos h, if_pos h, mul_zero]
  · rw [if_neg h, if_neg h]; ring

theorem edgeRing_fin {sr sz : ℝ} (hr : sr ≠ 0) (hz : sz ≠ 0) (amp r1 u v : ℝ) :
    edgeRingIntensity (fin amp) (fin r1) (fin sr) (fin sz) (fin u) (fin v) =
      fin (amp * bell r1 sr u * bell 0 sz v + amp * bell (-r1) sr u * bell 0 sz v) := by
  unfold edgeRingIntensity bell
  simp only [lit2, fabs_fin, fin_mul, fin_neg, fin_sub, fin_div_of_ne (show (2 * sr * sr : ℝ) ≠ 0 by positivity),
    fin_div_of_ne (show (2 * sz * sz : ℝ) ≠ 0 by positivity), fexp_fin, fin_add]
  rw [abs_mul_abs_self, mul_assoc amp, mul_assoc amp, ← Real.exp_add, ← Real.exp_add]
  congr 3 <;> congr 1 <;> ring

theorem edgeRing2_fin {si so sz : ℝ} (hi : si ≠ 0) (ho : so ≠ 0) (hz : sz ≠ 0) (amp r1 u v : ℝ) :
    edgeRing2Intensity (fin amp) (fin r1) (fin si) (fin so) (fin sz) (fin u) (fin v) =
      fin (amp * bell r1 (if u < r1 then so else si) u * bell 0 sz v + amp * bell (-r1) (if u < r1 then si else if u < -r1 then si else so) u * bell 0 sz v) := by
  have hi2 : (2 * si * si : ℝ) ≠ 0 := by positivity
  have ho2 : (2 * so * so : ℝ) ≠ 0 := by positivity
  unfold edgeRing2Intensity bell
  simp only [lit2, fabs_fin, fin_mul, fin_neg, fin_sub, fin_div_of_ne (show (2 * sz * sz : ℝ) ≠ 0 by positivity), flt_fin]
  rw [mul_assoc amp, mul_assoc amp, ← Real.exp_add, ← Real.exp_add, abs_mul_abs_self]
  by_cases h1 : u < r1
  · simp only [h1, decide_true, if_true, fin_div_of_ne hi2, fin_div_of_ne ho2, fin_sub, fexp_fin, fin_mul, fin_add]
    congr 3 <;> congr 1 <;> ring
  · by_cases h2 : u < -r1
    · simp only [h1, h2, decide_true, decide_false, Bool.false_eq_true, if_false, if_true, fin_div_of_ne hi2, fin_sub, fexp_fin, fin_mul, fin_add]
      congr 3 <;> congr 1 <;> ring
    · simp only [h1, h2, decide_false, Bool.false_eq_true, if_false, fin_div_of_ne hi2, fin_div_of_ne ho2, fin_sub, fexp_fin, fin_mul, fin_add]
      congr 3 <;> congr 1 <;> ring

/-- What the code computes for the vertical profile of the edge-on disk. -/
noncomputable def sechCode (n z0 z : ℝ) : ℝ :=
  if 100 < z / (2 / n * z0) then 2 ^ (2 / n) * Real.exp (-(z / z0)) else (1 / Real.cosh (z / (2 / n * z0))) ^ (2 / n)

theorem fcosh_fin (a : ℝ) : (fcosh (fin a) : XR) = fin (Real.cosh a) := rfl
theorem fatan_fin (a : ℝ) : (fatan (fin a) : XR) = fin (Real.arctan a) := rfl

theorem verticalSech_fin {n z0 : ℝ} (hn : n ≠ 0) (hz : z0 ≠ 0) (z : ℝ) : verticalSech (fin n) (fin z0) (fin z) = fin (sechCode n z0 z) := by
  have h1 : 2 / n * z0 ≠ 0 := by positivity
  unfold verticalSech sechCode
  simp only [lit2, lit100, fin_div_of_ne hn, fin_mul, fin_div_of_ne h1, flt_fin, fin_neg, fin_div_of_ne hz, fexp_fin, fcosh_fin, one_def,
    fin_div_of_ne (Real.cosh_pos _).ne', fpow_pos (show (0 : ℝ) < 2 by norm_num), fpow_pos (one_div_pos.2 (Real.cosh_pos _))]
  by_cases h : 100 < z / (2 / n * z0)
  · simp only [h, decide_true, if_true]
    rw [neg_div]
  · simp [h]

theorem sechCode_scale {t : ℝ} (ht : 0 < t) (n z0 z : ℝ) : sechCode n (z0 * t) (t * z) = sechCode n z0 z := by
  unfold sechCode
  rw [show t * z / (2 / n * (z0 * t)) = z / (2 / n * z0) by rw [← mul_assoc, mul_comm t z]; exact mul_div_mul_right _ _ ht.ne',
    show t * z / (z0 * t) = z / z0 by rw [mul_comm t z]; exact mul_div_mul_right _ _ ht.ne']

/-- What the code computes for the edge-on disk, with `k` the Bessel function. -/
noncomputable def edgeDiskCode (k : ℝ → ℝ) (l0 h n z0 u v : ℝ) : ℝ :=
  (if |u| = 0 then 2 * h * l0 else 2 * h * l0 * (|u| / h) * k (|u| / h)) * sechCode n z0 |v|

theorem edgeDisk_fin {k1 : XR → XR} {k : ℝ → ℝ} (hk : ∀ x, 0 < x → k1 (fin x) = fin (k x)) {h n z0 : ℝ} (hh : 0 < h) (hn : n ≠ 0) (hz : z0 ≠ 0) (l0 u v : ℝ) :
    edgeDiskIntensity k1 (fin l0) (fin h) (fin n) (fin z0) (fin u) (fin v) = fin (edgeDiskCode k l0 h n z0 u v) := by
  unfold edgeDiskIntensity edgeDiskCode
  simp only [fabs_fin, lit2, verticalSech_fin hn hz, zero_def, fle_fin, fin_mul, fin_div_of_ne hh.ne']
  by_cases hu : |u| = 0
  · simp only [hu, le_refl, decide_true, Bool.and_self, if_true, fin_mul]
  · have h0 : 0 < |u| := lt_of_le_of_ne (abs_nonneg u) (Ne.symm hu)
    have h1 : ¬ |u| ≤ 0 := not_le.2 h0
    simp only [h1, hu, decide_false, Bool.false_and, Bool.false_eq_true, if_false, hk _ (show 0 < |u| / h by positivity), fin_mul]

theorem edgeDiskCode_scale {t : ℝ} (ht : 0 < t) (k : ℝ → ℝ) (c l0 h n z0 u v : ℝ) :
    edgeDiskCode k (l0 * c) (h * t) n (z0 * t) (t * u) (t * v) = c * t * edgeDiskCode k l0 h n z0 u v := by
  unfold edgeDiskCode
  rw [abs_mul, abs_of_pos ht, abs_mul, abs_of_pos ht, sechCode_scale ht,
    show t * |u| / (h * t) = |u| / h by rw [mul_comm t]; exact mul_div_mul_right _ _ ht.ne']
  by_cases hu : |u| = 0
  · rw [if_pos hu, if_pos (by rw [hu, mul_zero])]; ring
  · rw [if_neg hu, if_neg (mul_ne_zero ht.ne' hu)]; ring

/-- What the code computes for one bend of the double-broken exponential. -/
noncomputable def dbeCode (ha hb rb a r : ℝ) : ℝ :=
  if 100 < a * (r - rb) then Real.exp (r / ha - r / hb + (rb / hb - rb / ha)) else (1 + Real.exp (a * (r - rb))) ^ (1 / a * (1 / ha - 1 / hb))

theorem dbePiece_fin {ha hb a : ℝ} (h1 : ha ≠ 0) (h2 : hb ≠ 0) (h3 : a ≠ 0) (rb r : ℝ) :
    dbePiece (fin ha) (fin hb) (fin rb) (fin a) (fin r) = fin (dbeCode ha hb rb a r) := by
  unfold dbePiece dbeCode
  simp only [lit100, one_def, fin_div_of_ne h1, fin_div_of_ne h2, fin_div_of_ne h3, fin_sub, fin_mul, fexp_fin, fin_add, flt_fin, fpow_pos (one_add_exp_pos _)]
  by_cases h : 100 < a * (r - rb) <;> simp [h]

/-- What the code computes for the double-broken exponential. -/
noncomputable def doubleBrokenCode (amp h1 h2 h3 rb1 rb2 a1 a2 r : ℝ) : ℝ :=
  amp * (1 / ((1 + Real.exp (-(a1 * rb1))) ^ (1 / a1 * (1 / h1 - 1 / h2)) * (1 + Real.exp (-(a2 * rb2))) ^ (1 / a2 * (1 / h2 - 1 / h3)))) *
    Real.exp (-(r / h1)) * dbeCode h1 h2 rb1 a1 r * dbeCode h2 h3 rb2 a2 r

theorem doubleBroken_fin {h1 h2 h3 a1 a2 : ℝ} (hh1 : h1 ≠ 0) (hh2 : h2 ≠ 0) (hh3 : h3 ≠ 0) (ha1 : a1 ≠ 0) (ha2 : a2 ≠ 0) (amp rb1 rb2 r : ℝ) :
    doubleBrokenProfile (fin amp) (fin h1) (fin h2) (fin h3) (fin rb1) (fin rb2) (fin a1) (fin a2) (fin r) =
      fin (doubleBrokenCode amp h1 h2 h3 rb1 rb2 a1 a2 r) := by
  unfold doubleBrokenProfile doubleBrokenCode dbeScaling
  simp only [dbePiece_fin hh1 hh2 ha1, dbePiece_fin hh2 hh3 ha2, one_def, fin_div_of_ne hh1, fin_div_of_ne hh2, fin_div_of_ne hh3, fin_div_of_ne ha1,
    fin_div_of_ne ha2, fin_neg, fin_mul, fexp_fin, fin_add, fin_sub, fpow_pos (one_add_exp_pos _)]
  rw [fin_div_of_ne (mul_pos (Real.rpow_pos_of_pos (one_add_exp_pos _) _) (Real.rpow_pos_of_pos (one_add_exp_pos _) _)).ne']
  simp only [fin_mul]
  rw [neg_mul, neg_mul, neg_div]

/-- What the code computes for the exponential with a flat core. -/
noncomputable def flatExpCode (amp h rb a r : ℝ) : ℝ :=
  if 100 < a * (r - rb) then amp * (1 + Real.exp (-(a * rb))) ^ (1 / (a * h)) * Real.exp (-(r / h)) else flatExpI amp h rb a r

theorem flatExp_fin {h a : ℝ} (hh : h ≠ 0) (ha : a ≠ 0) (amp rb r : ℝ) :
    flatExpProfile (fin amp) (fin h) (fin rb) (fin a) (fin r) = fin (flatExpCode amp h rb a r) := by
  unfold flatExpProfile flatExpCode flatExpI
  simp only [lit100, one_def, fin_mul, fin_div_of_ne (mul_ne_zero ha hh), fin_neg, fexp_fin, fin_add, fin_sub, flt_fin, fpow_pos (one_add_exp_pos _), fin_div_of_ne hh]
  by_cases hc : 100 < a * (r - rb)
  · simp only [hc, decide_true, if_true]
    rw [neg_mul, neg_div]
  · simp only [hc, decide_false, Bool.false_eq_true, if_false]
    rw [neg_mul]

/-- Angle from the major axis. -/
noncomputable def axisAngle (u v : ℝ) : ℝ := if u = 0 then Real.pi / 2 else |Real.arctan (v / u)|

/-- The outer scale length of the flat bar at the given angle from the major axis. -/
noncomputable def flatH2 (dpa h1 h2 w : ℝ) : ℝ := if dpa < w then h1 else h2 + (h1 - h2) / (dpa * dpa) * w * w

/-- What the code computes for the flat bar. -/
noncomputable def flatBarCode (q dpa amp h1 h2 rb a u v : ℝ) : ℝ :=
  if u = 0 ∧ v = 0 then brokenCode amp h1 h2 rb a 0
  else brokenCode amp h1 (flatH2 dpa h1 h2 (axisAngle u v)) (ellDist q u v / ellDist 1 u v * rb) a (ellDist q u v)

theorem axisAngle_nonneg (u v : ℝ) : 0 ≤ axisAngle u v := by
  unfold axisAngle
  split_ifs
  · exact (div_pos Real.pi_pos (by norm_num)).le
  · exact abs_nonneg _

theorem axisAngle_fin (u v : ℝ) (h : ¬ (u = 0 ∧ v = 0)) : (fabs (fatan (fin v / fin u)) : XR) = fin (axisAngle u v) := by
  unfold axisAngle
  by_cases hu : u = 0
  · have hv : v ≠ 0 := fun hv => h ⟨hu, hv⟩
    rw [hu, fin_div_zero, if_pos rfl]
    rcases lt_or_gt_of_ne hv with hn | hp
    · have : XR.infSign v = ninf := by simp [XR.infSign, hn, not_lt.2 hn.le]
      rw [this]
      show fin |-(Real.pi / 2)| = _
      rw [abs_neg, abs_of_pos (div_pos Real.pi_pos (by norm_num))]
    · rw [XR.infSign_pos hp]
      show fin |Real.pi / 2| = _
      rw [abs_of_pos (div_pos Real.pi_pos (by norm_num))]
  · rw [if_neg hu, fin_div_of_ne hu]
    rfl

theorem ellDist_pos {q : ℝ} (hq : 0 < q) {u v : ℝ} (h : ¬ (u = 0 ∧ v = 0)) : 0 < ellDist q u v := by
  unfold ellDist
  apply Real.sqrt_pos.2
  by_cases hu : u = 0
  · have hv : v ≠ 0 := fun hv => h ⟨hu, hv⟩
    have : 0 < (v / q) ^ 2 := by positivity
    positivity
  · positivity

theorem ellDist_zero (q : ℝ) : ellDist q 0 0 = 0 := by simp [ellDist]

theorem flatH2_pos {dpa h1 h2 w : ℝ} (hd : 0 < dpa) (hh1 : 0 < h1) (hh2 : 0 < h2) (hw : 0 ≤ w) : 0 < flatH2 dpa h1 h2 w := by
  unfold flatH2
  split_ifs with h
  · exact hh1
  · have hs : w * w ≤ dpa * dpa := mul_self_le_mul_self hw (not_lt.1 h)
    have e : h2 + (h1 - h2) / (dpa * dpa) * w * w = h1 * (w * w / (dpa * dpa)) + h2 * (1 - w * w / (dpa * dpa)) := by field_simp; ring
    have hle : w * w / (dpa * dpa) ≤ 1 := (div_le_one (by positivity)).2 hs
    have hge : 0 ≤ w * w / (dpa * dpa) := by positivity
    rw [e]
    rcases hle.lt_or_eq with hl | hl
    · have := mul_pos hh2 (sub_pos.2 hl)
      have := mul_nonneg hh1.le hge
      linarith
    · rw [hl]; linarith

theorem flatBar_fin {q dpa h1 h2 a : ℝ} (hq : 0 < q) (hd : 0 < dpa) (hh1 : 0 < h1) (hh2 : 0 < h2) (ha : 0 < a) (amp rb u v : ℝ) :
    flatBarIntensity (fin q) (fin dpa) (fin amp) (fin h1) (fin h2) (fin rb) (fin a) (fin u) (fin v) = fin (flatBarCode q dpa amp h1 h2 rb a u v) := by
  unfold flatBarIntensity flatBarCode
  simp only [ellR_fin hq, circR_fin]
  by_cases h : u = 0 ∧ v = 0
  · obtain ⟨rfl, rfl⟩ := h
    have e : (fabs (fatan (fin 0 / fin 0)) : XR) = nan := by
      rw [fin_div_zero, XR.infSign_zero]
      rfl
    have e2 : flt (fin dpa) (nan : XR) = false := rfl
    rw [e, e2, if_neg Bool.false_ne_true, if_pos (⟨rfl, rfl⟩ : (0 : ℝ) = 0 ∧ (0 : ℝ) = 0)]
    simp only [adjustedRbh2, ellDist_zero, zero_def, flt_fin, lt_irrefl, decide_false, Bool.and_self, Bool.false_eq_true, if_false]
    exact brokenProfile_fin hh1.ne' hh2.ne' ha.ne' _ _ _
  · have hr := ellDist_pos hq h
    have hc := ellDist_pos one_pos h
    have hw := axisAngle_nonneg u v
    rw [if_neg h]
    simp only [adjustedRbh2, axisAngle_fin u v h, zero_def, flt_fin, hr, hc, decide_true, Bool.and_self, if_true, fin_div_of_ne hc.ne', fin_mul, parabolic,
      not_lt.2 hw, decide_false, Bool.false_eq_true, if_false, fin_sub, fin_add, sub_zero, fin_div_of_ne (mul_pos hd hd).ne']
    rw [← brokenProfile_fin hh1.ne' (flatH2_pos hd hh1 hh2 hw).ne' ha.ne']
    unfold flatH2
    by_cases hlt : dpa < axisAngle u v <;> simp [hlt]

theorem axisAngle_smul {t : ℝ} (ht : t ≠ 0) (u v : ℝ) : axisAngle (t * u) (t * v) = axisAngle u v := by
  unfold axisAngle
  by_cases hu : u = 0
  · rw [if_pos hu, if_pos (by rw [hu, mul_zero])]
  · rw [if_neg hu, if_neg (mul_ne_zero ht hu), mul_div_mul_left _ _ ht]

theorem flatBarCode_scale {t : ℝ} (ht : 0 < t) (k q dpa amp h1 h2 rb a u v : ℝ) :
    flatBarCode q dpa (amp * k) (h1 * t) (h2 * t) (rb * t) (a / t) (t * u) (t * v) = k * flatBarCode q dpa amp h1 h2 rb a u v := by
  unfold flatBarCode
  rw [axisAngle_smul ht.ne', ellDist_smul _ _ _ _ ht.le, ellDist_smul _ _ _ _ ht.le, mul_div_mul_left _ _ ht.ne']
  have e : flatH2 dpa (h1 * t) (h2 * t) (axisAngle u v) = flatH2 dpa h1 h2 (axisAngle u v) * t := by
    unfold flatH2
    split_ifs
    · rfl
    · ring
  by_cases h : u = 0 ∧ v = 0
  · rw [if_pos h, if_pos (by rw [h.1, h.2, mul_zero]; exact ⟨rfl, rfl⟩), ← brokenCode_scale ht, mul_zero]
  · rw [if_neg h, if_neg (fun hc => h ⟨(mul_eq_zero.1 hc.1).resolve_left ht.ne', (mul_eq_zero.1 hc.2).resolve_left ht.ne'⟩), e, ← brokenCode_scale ht,
      mul_assoc]

end Imfit
