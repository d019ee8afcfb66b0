import Verif.Lemmas.PlaneSetup

/-!
# C53 — a component describes the same object in every image of a multi-image fit
-/

namespace Imfit

open Spec XR

/-- The functions that convert all their parameters to the image. -/
def PFun.honours : PFun XR → Prop
  | .brokenExp => True
  | .king => True
  | .king2 => True
  | .gaussRing => True
  | .gaussRing2 => True
  | .genExp => True
  | .genSersic => True
  | .ferrers => True
  | .edgeRing => True
  | .edgeRing2 => True
  | .brokenExp2d => True
  | _ => False

/-- The functions that clamp the radius. -/
def PFun.clamps : PFun XR → Prop
  | .nuker => True
  | .coreSersic => True
  | _ => False

/-- The functions that do not look at the image description. -/
def PFun.ignores : PFun XR → Prop
  | .doubleBroken => True
  | .flatExp => True
  | .brokenBar => True
  | _ => False

theorem along_toImage (s ρ pa dx dy : ℝ) :
    along ((pa - ρ + 90) * degree) (toImage s ρ dx dy).1 (toImage s ρ dx dy).2 = 1 / s * along ((pa + 90) * degree) dx dy := by
  have e : (pa + 90) * degree = (pa - ρ + 90) * degree + ρ * degree := by ring
  unfold along toImage
  rw [e, Real.cos_add, Real.sin_add]
  simp only
  ring

theorem across_toImage (s ρ pa dx dy : ℝ) :
    across ((pa - ρ + 90) * degree) (toImage s ρ dx dy).1 (toImage s ρ dx dy).2 = 1 / s * across ((pa + 90) * degree) dx dy := by
  have e : (pa + 90) * degree = (pa - ρ + 90) * degree + ρ * degree := by ring
  unfold across toImage
  rw [e, Real.cos_add, Real.sin_add]
  simp only
  ring

theorem ref_scale (F : PFun XR) (hF : F.honours) (p : List ℝ) (hp : F.Physical p) (t ρ k : ℝ) (ht : 0 < t) (u v : ℝ) :
    F.ref (F.adjust t ρ k p) (t * u) (t * v) = k * F.ref p u v := by
  have hel : ∀ q, ellDist q (t * u) (t * v) = t * ellDist q u v := fun q => ellDist_smul q t u v ht.le
  have hlt : ∀ a b : ℝ, (t * a < b * t) ↔ a < b := fun a b => by rw [mul_comm t a]; exact mul_lt_mul_iff_left₀ ht
  have hdiv : ∀ a b : ℝ, t * a / (b * t) = a / b := fun a b => by rw [mul_comm t a]; exact mul_div_mul_right _ _ ht.ne'
  unfold PFun.Physical at hp
  split at hp <;> first | exact False.elim hF | exact False.elim hp | skip
  · simp only [PFun.ref, PFun.adjust, hel, brokenCode_scale ht]
  · simp only [PFun.ref, PFun.adjust, hel, kingI_scale ht]
  · simp only [PFun.ref, PFun.adjust, hel, ← mul_assoc, kingI_scale ht]
  · simp only [PFun.ref, PFun.adjust, hel, bell_scale ht]; ring
  · simp only [PFun.ref, PFun.adjust, hel, hlt, ← ite_mul, bell_scale ht]; ring
  · simp only [PFun.ref, PFun.adjust, genDist_smul _ _ _ _ _ hp.2.1 ht, hdiv]; ring
  · simp only [PFun.ref, PFun.adjust, genDist_smul _ _ _ _ _ hp.2.1 ht, hdiv]; ring
  · simp only [PFun.ref, PFun.adjust, genDist_smul _ _ _ _ _ hp.2.1 ht, ferrersI_scale ht]
  · have h0 : ∀ s w, bell 0 (s * t) (t * w) = bell 0 s w := fun s w => by rw [← bell_scale ht 0 s w, zero_mul]
    simp only [PFun.ref, PFun.adjust, ← neg_mul, bell_scale ht, h0]; ring
  · have h0 : ∀ s w, bell 0 (s * t) (t * w) = bell 0 s w := fun s w => by rw [← bell_scale ht 0 s w, zero_mul]
    simp only [PFun.ref, PFun.adjust, ← neg_mul, hlt, ← ite_mul, bell_scale ht, h0]; ring
  · simp only [PFun.ref, PFun.adjust, abs_mul, abs_of_pos ht, brokenCode_scale ht, hdiv]; ring

theorem defaultDesc_fin : (defaultDesc : ImgDesc XR) = ⟨fin 1, fin 0, fin 1⟩ := rfl

theorem setImage_fin {s : ℝ} (hs : 0 < s) (ρ k : ℝ) : setImageParameters (fin s) (fin ρ) (fin k) = ⟨fin (1 / s), fin ρ, fin k⟩ := by
  unfold setImageParameters
  rw [one_def, fin_div_of_ne hs.ne']

theorem adjust_one (F : PFun XR) (p : List ℝ) : F.adjust 1 0 1 p = p := by
  unfold PFun.adjust
  split <;> simp

theorem adjust_axis (F : PFun XR) (hF : ¬ F.ignores) (p : List ℝ) (hp : F.Physical p) (t ρ k : ℝ) :
    ∃ pa, majorAxis p = (pa + 90) * degree ∧ majorAxis (F.adjust t ρ k p) = (pa - ρ + 90) * degree := by
  unfold PFun.Physical at hp
  split at hp <;> first | exact (hF trivial).elim | exact hp.elim | exact ⟨_, rfl, rfl⟩

theorem physical_length (F : PFun XR) (p : List ℝ) (hp : F.Physical p) : (p.map fin).length = F.nPars := by
  unfold PFun.Physical at hp
  split at hp <;> first | rfl | exact hp.elim

/-- The value of a pixel without sub-sampling. -/
theorem value_off (F : PFun XR) (t ρ k : ℝ) (ht : 0 < t) (p : List ℝ) (hp : F.Physical p) (pre post : List XR) (x0 y0 x y : ℝ) :
    F.value false ⟨fin t, fin ρ, fin k⟩ (pre ++ p.map fin ++ post) pre.length (fin x0) (fin y0) (fin x) (fin y) =
      .ok (fin (F.ref (F.adjust t ρ k p) (along (majorAxis (F.adjust t ρ k p)) (x - x0) (y - y0)) (across (majorAxis (F.adjust t ρ k p)) (x - x0) (y - y0)))) := by
  obtain ⟨f, hf, hP⟩ := build_prepared F false t ρ k ht p hp x0 y0
  unfold PFun.value
  rw [setup_reads F _ _ pre (p.map fin) post (physical_length F p hp), hf, ok_bind, planeValue_fin hP.plane x y 1 (hP.off rfl _ _), if_neg (by norm_num)]

/-- How the value in an image follows from the value in the reference image, if the intensity scales by `c` where the sizes scale. -/
theorem value_transfer (F : PFun XR) (hI : ¬ F.ignores) (p : List ℝ) (hp : F.Physical p) (s ρ k c : ℝ) (hs : 0 < s) (dx dy : ℝ)
    (hscale : ∀ u v, u = along (majorAxis p) dx dy → v = across (majorAxis p) dx dy → F.ref (F.adjust (1 / s) ρ k p) (1 / s * u) (1 / s * v) = c * F.ref p u v)
    (pre post pre' post' : List XR) (x0 y0 X0 Y0 : ℝ) :
    ∃ v : ℝ, F.value false defaultDesc (pre ++ p.map fin ++ post) pre.length (fin x0) (fin y0) (fin (x0 + dx)) (fin (y0 + dy)) = .ok (fin v) ∧
      F.value false (setImageParameters (fin s) (fin ρ) (fin k)) (pre' ++ p.map fin ++ post') pre'.length (fin X0) (fin Y0)
        (fin (X0 + (toImage s ρ dx dy).1)) (fin (Y0 + (toImage s ρ dx dy).2)) = .ok (fin (c * v)) := by
  obtain ⟨pa, h1, h2⟩ := adjust_axis F hI p hp (1 / s) ρ k
  refine ⟨_, by rw [defaultDesc_fin, value_off F 1 0 1 one_pos p hp], ?_⟩
  rw [setImage_fin hs, value_off F (1 / s) ρ k (by positivity) p hp, h2, adjust_one]
  simp only [add_sub_cancel_left, along_toImage, across_toImage]
  rw [hscale _ _ (by rw [h1]) (by rw [h1]), h1]

/-- C53: without sub-sampling, the functions that convert all their parameters show the same object in every image: at the place of an offset from the centre, turned
by the rotation of the image and measured in its pixels, the value is the value in the reference image times the intensity factor. For all parameters of the
physical range, all pixel sizes, rotations, intensity factors, centres and offsets, and wherever the parameters are in the parameter vector. -/
theorem C53_same_object (F : PFun XR) (hF : F.honours) (p : List ℝ) (hp : F.Physical p) (s ρ κ : ℝ) (hs : 0 < s) (dx dy : ℝ)
    (pre post pre' post' : List XR) (x0 y0 X0 Y0 : ℝ) :
    ∃ v : ℝ, F.value false defaultDesc (pre ++ p.map fin ++ post) pre.length (fin x0) (fin y0) (fin (x0 + dx)) (fin (y0 + dy)) = .ok (fin v) ∧
      F.value false (setImageParameters (fin s) (fin ρ) (fin κ)) (pre' ++ p.map fin ++ post') pre'.length (fin X0) (fin Y0)
        (fin (X0 + (toImage s ρ dx dy).1)) (fin (Y0 + (toImage s ρ dx dy).2)) = .ok (fin (κ * v)) :=
  value_transfer F (by cases F <;> first | exact hF.elim | exact not_false) p hp s ρ κ κ hs dx dy
    (fun u v _ _ => ref_scale F hF p hp (1 / s) ρ κ (by positivity) u v) pre post pre' post' x0 y0 X0 Y0

/-- A King profile seen in an image with pixels of half the size, rotated by 30 degrees, in units where intensities are three times as large. -/
example : ∃ v : ℝ, (PFun.king : PFun XR).value false defaultDesc ([] ++ [(20 : ℝ), 1 / 2, 100, 5, 50, 2].map fin ++ []) 0 (fin 10) (fin 10) (fin (10 + 3)) (fin (10 + 4))
      = .ok (fin v) ∧
    (PFun.king : PFun XR).value false (setImageParameters (fin (1 / 2)) (fin 30) (fin 3)) ([fin 1, fin 2] ++ [(20 : ℝ), 1 / 2, 100, 5, 50, 2].map fin ++ []) 2
      (fin 0) (fin 0) (fin (0 + (toImage (1 / 2) 30 3 4).1)) (fin (0 + (toImage (1 / 2) 30 3 4).2)) = .ok (fin (3 * v)) :=
  C53_same_object .king trivial [20, 1 / 2, 100, 5, 50, 2] ⟨by norm_num, by norm_num, by norm_num, by norm_num⟩ (1 / 2) 30 3 (by norm_num) 3 4 [] [] [fin 1, fin 2] []
    10 10 0 0

/-- The ellipticity, the second parameter of the functions that clamp the radius. -/
def secondPar : List ℝ → ℝ
  | _ :: ell :: _ => ell
  | _ => 0

/-- C53 for the Nuker law and the core-Sersic function, where the clamp of the radius at 0.001 pixels does not act in either image. Missing: nearer to the centre
the clamp makes the value depend on the pixel size. -/
theorem C53_cusps_partial (F : PFun XR) (hF : F.clamps) (p : List ℝ) (hp : F.Physical p) (s ρ κ : ℝ) (hs : 0 < s) (dx dy : ℝ)
    (hr1 : 1 / 1000 ≤ ellDist (1 - secondPar p) (along (majorAxis p) dx dy) (across (majorAxis p) dx dy))
    (hr2 : 1 / 1000 ≤ ellDist (1 - secondPar p) (along (majorAxis p) dx dy) (across (majorAxis p) dx dy) / s)
    (pre post pre' post' : List XR) (x0 y0 X0 Y0 : ℝ) :
    ∃ v : ℝ, F.value false defaultDesc (pre ++ p.map fin ++ post) pre.length (fin x0) (fin y0) (fin (x0 + dx)) (fin (y0 + dy)) = .ok (fin v) ∧
      F.value false (setImageParameters (fin s) (fin ρ) (fin κ)) (pre' ++ p.map fin ++ post') pre'.length (fin X0) (fin Y0)
        (fin (X0 + (toImage s ρ dx dy).1)) (fin (Y0 + (toImage s ρ dx dy).2)) = .ok (fin (κ * v)) := by
  have ht : 0 < 1 / s := by positivity
  refine value_transfer F (by cases F <;> first | exact hF.elim | exact not_false) p hp s ρ κ κ hs dx dy ?_ pre post pre' post' x0 y0 X0 Y0
  intro u v hu hv
  subst hu hv
  unfold PFun.Physical at hp
  split at hp <;> first | exact False.elim hF | exact False.elim hp | skip
  · simp only [secondPar] at hr1 hr2
    rw [div_eq_inv_mul _ s, ← one_div s] at hr2
    simp only [PFun.ref, PFun.adjust, ellDist_smul _ _ _ _ ht.le, max_eq_left hr1, max_eq_left hr2, nukerI_scale ht]
  · simp only [secondPar] at hr1 hr2
    rw [div_eq_inv_mul _ s, ← one_div s] at hr2
    simp only [PFun.ref, PFun.adjust, ellDist_smul _ _ _ _ ht.le, max_eq_left hr1, max_eq_left hr2]
    exact coreSersicI_scale ht _ _ _ hp.2.2.1 hp.2.2.2.1 (by linarith) _ _

/-- A Nuker law seen in an image with pixels of half the size. -/
example : ∃ v : ℝ, (PFun.nuker : PFun XR).value false defaultDesc ([] ++ [(0 : ℝ), 0, 100, 5, 1, 2, 1].map fin ++ []) 0 (fin 10) (fin 10) (fin (10 + 3)) (fin (10 + 4))
      = .ok (fin v) ∧
    (PFun.nuker : PFun XR).value false (setImageParameters (fin (1 / 2)) (fin 0) (fin 1)) ([] ++ [(0 : ℝ), 0, 100, 5, 1, 2, 1].map fin ++ []) 0
      (fin 0) (fin 0) (fin (0 + (toImage (1 / 2) 0 3 4).1)) (fin (0 + (toImage (1 / 2) 0 3 4).2)) = .ok (fin (1 * v)) := by
  have hd : ∀ θ, ellDist (1 - secondPar [(0 : ℝ), 0, 100, 5, 1, 2, 1]) (along θ 3 4) (across θ 3 4) = 5 := by
    intro θ
    unfold ellDist along across secondPar
    have h := Real.sin_sq_add_cos_sq θ
    rw [show (3 * Real.cos θ + 4 * Real.sin θ) ^ 2 + ((4 * Real.cos θ - 3 * Real.sin θ) / (1 - 0)) ^ 2 = 25 * (Real.sin θ ^ 2 + Real.cos θ ^ 2) by ring, h,
      show (25 * 1 : ℝ) = 5 ^ 2 by norm_num, Real.sqrt_sq (by norm_num)]
  exact C53_cusps_partial .nuker trivial [0, 0, 100, 5, 1, 2, 1] ⟨by norm_num, by norm_num, by norm_num⟩ (1 / 2) 0 1 (by norm_num) 3 4
    (by rw [hd]; norm_num) (by rw [hd]; norm_num) [] [] [] [] 10 10 0 0

/-- The claim C53 for one function, one parameter vector, one image and one offset. -/
def SameObject (F : PFun XR) (p : List ℝ) (s ρ κ dx dy : ℝ) : Prop :=
  ∃ v : ℝ, F.value false defaultDesc (p.map fin) 0 (fin 0) (fin 0) (fin dx) (fin dy) = .ok (fin v) ∧
    F.value false (setImageParameters (fin s) (fin ρ) (fin κ)) (p.map fin) 0 (fin 0) (fin 0) (fin (toImage s ρ dx dy).1) (fin (toImage s ρ dx dy).2) =
      .ok (fin (κ * v))

theorem along_zero (θ : ℝ) : along θ 0 0 = 0 := by simp [along]
theorem across_zero (θ : ℝ) : across θ 0 0 = 0 := by simp [across]

/-- The value at the centre of a component. -/
theorem value_centre (F : PFun XR) (t ρ k : ℝ) (ht : 0 < t) (p : List ℝ) (hp : F.Physical p) :
    F.value false ⟨fin t, fin ρ, fin k⟩ (p.map fin) 0 (fin 0) (fin 0) (fin 0) (fin 0) = .ok (fin (F.ref (F.adjust t ρ k p) 0 0)) := by
  have h := value_off F t ρ k ht p hp [] [] 0 0 0 0
  simp only [List.nil_append, List.append_nil, List.length_nil, sub_zero, along_zero, across_zero] at h
  exact h

theorem not_sameObject (F : PFun XR) (p : List ℝ) (hp : F.Physical p) (s ρ κ : ℝ) (hs : 0 < s)
    (h : F.ref (F.adjust (1 / s) ρ κ p) 0 0 ≠ κ * F.ref p 0 0) : ¬ SameObject F p s ρ κ 0 0 := by
  rintro ⟨v, h1, h2⟩
  rw [defaultDesc_fin, value_centre F 1 0 1 one_pos p hp, adjust_one] at h1
  rw [setImage_fin hs] at h2
  have e : toImage s ρ 0 0 = (0, 0) := by simp [toImage]
  rw [e, value_centre F (1 / s) ρ κ (by positivity) p hp] at h2
  have hv : F.ref p 0 0 = v := by injection h1 with h1; injection h1
  have hw : F.ref (F.adjust (1 / s) ρ κ p) 0 0 = κ * v := by injection h2 with h2; injection h2
  exact h (by rw [hw, hv])

theorem brokenCode_centre (amp h1 h2 rb a : ℝ) (h : 0 ≤ a * rb) : brokenCode amp h1 h2 rb a 0 = amp := by
  unfold brokenCode
  rw [if_neg (by rw [zero_sub, mul_neg]; linarith)]
  unfold brokenI
  rw [zero_sub, mul_neg, zero_div, neg_zero, Real.exp_zero, mul_one, mul_assoc, ← Real.rpow_add (one_add_exp_pos _), neg_add_cancel, Real.rpow_zero, mul_one]

theorem flatExpCode_centre (amp h rb a : ℝ) (h0 : 0 ≤ a * rb) : flatExpCode amp h rb a 0 = amp := by
  unfold flatExpCode
  rw [if_neg (by rw [zero_sub, mul_neg]; linarith)]
  unfold flatExpI
  rw [zero_sub, mul_neg, mul_assoc, ← Real.rpow_add (one_add_exp_pos _), add_neg_cancel, Real.rpow_zero, mul_one]

theorem doubleBrokenCode_centre (amp h1 h2 h3 rb1 rb2 a1 a2 : ℝ) (hb1 : 0 ≤ a1 * rb1) (hb2 : 0 ≤ a2 * rb2) :
    doubleBrokenCode amp h1 h2 h3 rb1 rb2 a1 a2 0 = amp := by
  unfold doubleBrokenCode dbeCode
  rw [if_neg (by rw [zero_sub, mul_neg]; linarith), if_neg (by rw [zero_sub, mul_neg]; linarith), zero_sub, zero_sub, mul_neg, mul_neg, zero_div, neg_zero,
    Real.exp_zero, mul_one, mul_assoc, mul_assoc, one_div, inv_mul_cancel₀, mul_one]
  exact (mul_pos (Real.rpow_pos_of_pos (one_add_exp_pos _) _) (Real.rpow_pos_of_pos (one_add_exp_pos _) _)).ne'

/-- C53 fails for `FlatExponential`, `DoubleBrokenExponential` and `BrokenExponentialBar`: their values do not depend on the image description at all. -/
theorem C53_ignored_false (F : PFun XR) (hF : F.ignores) :
    (∀ (doSub : Bool) (d d' : ImgDesc XR) (params : List XR) (offset : Nat) (x0 y0 x y : XR),
      F.value doSub d params offset x0 y0 x y = F.value doSub d' params offset x0 y0 x y) ∧
    ∃ p, F.Physical p ∧ ¬ SameObject F p 1 0 2 0 0 := by
  cases F <;> first | exact False.elim hF | skip
  · refine ⟨?_, [0, 0, 100, 5, 10, 5, 20, 40, 1, 1], ⟨by norm_num, by norm_num, by norm_num, by norm_num, by norm_num, by norm_num⟩,
      not_sameObject .doubleBroken [0, 0, 100, 5, 10, 5, 20, 40, 1, 1] ⟨by norm_num, by norm_num, by norm_num, by norm_num, by norm_num, by norm_num⟩ _ _ _ one_pos ?_⟩
    · intro doSub d d' params offset x0 y0 x y
      unfold PFun.value PFun.setup
      cases loopMap (PFun.nPars .doubleBroken) fun i => rd params (offset + i) with
      | error e => rfl
      | ok p => simp only [ok_bind]; congr 1; unfold PFun.build; split <;> first | rfl | (rename_i h; cases h)
    · simp only [PFun.ref, PFun.adjust, ellDist_zero]
      rw [doubleBrokenCode_centre _ _ _ _ _ _ _ _ (by norm_num) (by norm_num)]
      norm_num
  · refine ⟨?_, [0, 0, 100, 5, 20, 1], ⟨by norm_num, by norm_num, by norm_num⟩,
      not_sameObject .flatExp [0, 0, 100, 5, 20, 1] ⟨by norm_num, by norm_num, by norm_num⟩ _ _ _ one_pos ?_⟩
    · intro doSub d d' params offset x0 y0 x y
      unfold PFun.value PFun.setup
      cases loopMap (PFun.nPars .flatExp) fun i => rd params (offset + i) with
      | error e => rfl
      | ok p => simp only [ok_bind]; congr 1; unfold PFun.build; split <;> first | rfl | (rename_i h; cases h)
    · simp only [PFun.ref, PFun.adjust, ellDist_zero]
      rw [flatExpCode_centre _ _ _ _ (by norm_num)]
      norm_num
  · refine ⟨?_, [0, 100, 5, 10, 20, 1, 3], ⟨by norm_num, by norm_num, by norm_num, by norm_num⟩,
      not_sameObject .brokenBar [0, 100, 5, 10, 20, 1, 3] ⟨by norm_num, by norm_num, by norm_num, by norm_num⟩ _ _ _ one_pos ?_⟩
    · intro doSub d d' params offset x0 y0 x y
      unfold PFun.value PFun.setup
      cases loopMap (PFun.nPars .brokenBar) fun i => rd params (offset + i) with
      | error e => rfl
      | ok p => simp only [ok_bind]; congr 1; unfold PFun.build; split <;> first | rfl | (rename_i h; cases h)
    · simp only [PFun.ref, PFun.adjust, abs_zero]
      rw [brokenCode_centre _ _ _ _ _ (by norm_num)]
      norm_num [bell]

/-- C53 fails for `FlatBar`: the intensity is multiplied by the inverse pixel size and the intensity factor has no effect. -/
theorem C53_flatBar_false :
    (∀ (p : List ℝ), (PFun.flatBar : PFun XR).Physical p → ∀ (s ρ κ : ℝ), 0 < s → ∀ (dx dy : ℝ) (pre post pre' post' : List XR) (x0 y0 X0 Y0 : ℝ),
      ∃ v : ℝ, (PFun.flatBar : PFun XR).value false defaultDesc (pre ++ p.map fin ++ post) pre.length (fin x0) (fin y0) (fin (x0 + dx)) (fin (y0 + dy)) = .ok (fin v) ∧
        (PFun.flatBar : PFun XR).value false (setImageParameters (fin s) (fin ρ) (fin κ)) (pre' ++ p.map fin ++ post') pre'.length (fin X0) (fin Y0)
          (fin (X0 + (toImage s ρ dx dy).1)) (fin (Y0 + (toImage s ρ dx dy).2)) = .ok (fin (1 / s * v))) ∧
    ∃ p, (PFun.flatBar : PFun XR).Physical p ∧ ¬ SameObject .flatBar p 1 0 2 0 0 ∧ ¬ SameObject .flatBar p 2 0 1 0 0 := by
  refine ⟨fun p hp s ρ κ hs dx dy pre post pre' post' x0 y0 X0 Y0 => ?_, [0, 0, 10, 100, 5, 10, 20, 1],
    ⟨by norm_num, by norm_num, by norm_num, by norm_num, by norm_num⟩, ?_, ?_⟩
  · refine value_transfer .flatBar not_false p hp s ρ κ (1 / s) hs dx dy ?_ pre post pre' post' x0 y0 X0 Y0
    intro u v _ _
    unfold PFun.Physical at hp
    split at hp <;> first | contradiction | exact False.elim hp | skip
    simp only [PFun.ref, PFun.adjust]
    rw [← flatBarCode_scale (show 0 < 1 / s by positivity)]
  · refine not_sameObject .flatBar [0, 0, 10, 100, 5, 10, 20, 1] ⟨by norm_num, by norm_num, by norm_num, by norm_num, by norm_num⟩ _ _ _ one_pos ?_
    simp only [PFun.ref, PFun.adjust, flatBarCode, and_self, if_true]
    rw [brokenCode_centre _ _ _ _ _ (by norm_num), brokenCode_centre _ _ _ _ _ (by norm_num)]
    norm_num
  · refine not_sameObject .flatBar [0, 0, 10, 100, 5, 10, 20, 1] ⟨by norm_num, by norm_num, by norm_num, by norm_num, by norm_num⟩ _ _ _ two_pos ?_
    simp only [PFun.ref, PFun.adjust, flatBarCode, and_self, if_true]
    rw [brokenCode_centre _ _ _ _ _ (by norm_num), brokenCode_centre _ _ _ _ _ (by norm_num)]
    norm_num

/-- C53 fails for `EdgeOnDisk`: since its central luminosity density is converted like a surface brightness, the value is additionally divided by the pixel size. -/
theorem C53_edgeDisk_false (k1 : XR → XR) :
    (∀ (p : List ℝ), (PFun.edgeDisk k1).Physical p → ∀ (s ρ κ : ℝ), 0 < s → ∀ (dx dy : ℝ) (pre post pre' post' : List XR) (x0 y0 X0 Y0 : ℝ),
      ∃ v : ℝ, (PFun.edgeDisk k1).value false defaultDesc (pre ++ p.map fin ++ post) pre.length (fin x0) (fin y0) (fin (x0 + dx)) (fin (y0 + dy)) = .ok (fin v) ∧
        (PFun.edgeDisk k1).value false (setImageParameters (fin s) (fin ρ) (fin κ)) (pre' ++ p.map fin ++ post') pre'.length (fin X0) (fin Y0)
          (fin (X0 + (toImage s ρ dx dy).1)) (fin (Y0 + (toImage s ρ dx dy).2)) = .ok (fin (κ * (1 / s) * v))) ∧
    ((∀ x, 0 < x → ∃ y, k1 (fin x) = fin y) → ¬ SameObject (.edgeDisk k1) [0, 10, 5, 1, 2] 2 0 1 0 0) := by
  refine ⟨fun p hp s ρ κ hs dx dy pre post pre' post' x0 y0 X0 Y0 => ?_, fun hk => ?_⟩
  · refine value_transfer (.edgeDisk k1) not_false p hp s ρ κ (κ * (1 / s)) hs dx dy ?_ pre post pre' post' x0 y0 X0 Y0
    intro u v _ _
    unfold PFun.Physical at hp
    split at hp <;> first | contradiction | exact False.elim hp | skip
    rename_i heq _ _
    cases heq
    simp only [PFun.ref, PFun.adjust]
    rw [← edgeDiskCode_scale (show 0 < 1 / s by positivity)]
  · refine not_sameObject (.edgeDisk k1) [0, 10, 5, 1, 2] ⟨by norm_num, by norm_num, by norm_num, hk⟩ _ _ _ two_pos ?_
    simp only [PFun.ref, PFun.adjust, edgeDiskCode, abs_zero, if_true, sechCode, zero_div, Real.cosh_zero]
    norm_num

/-- C53 fails for the Nuker law at the centre: the clamp of the radius is in pixels. -/
theorem C53_nuker_false : ∃ p, (PFun.nuker : PFun XR).Physical p ∧ ¬ SameObject .nuker p (1 / 2) 0 1 0 0 := by
  refine ⟨[0, 0, 100, 5, 1, 1, 1], ⟨by norm_num, by norm_num, by norm_num⟩,
    not_sameObject .nuker [0, 0, 100, 5, 1, 1, 1] ⟨by norm_num, by norm_num, by norm_num⟩ _ _ _ (by norm_num) ?_⟩
  simp only [PFun.ref, PFun.adjust, ellDist_zero]
  rw [max_eq_right (by norm_num)]
  unfold nukerI
  norm_num

/-- C53 fails for `TiltedSkyPlane`: the slopes are neither converted to the pixels nor to the intensity units of the image. The sky at an offset of 10 pixels in an image
with the same pixels and doubled intensity units is not doubled. -/
theorem C53_tiltedSky_false : ∃ v : ℝ, tiltedSkyValue defaultDesc [fin 100, fin 1, fin 0] 0 (fin 0) (fin 0) (fin 10) (fin 0) = .ok (fin v) ∧
    tiltedSkyValue (setImageParameters (fin 1) (fin 0) (fin 2)) [fin 100, fin 1, fin 0] 0 (fin 0) (fin 0) (fin (toImage 1 0 10 0).1) (fin (toImage 1 0 10 0).2) ≠
      .ok (fin (2 * v)) := by
  have e : toImage 1 0 10 0 = (10, 0) := by simp [toImage]
  refine ⟨110, ?_, ?_⟩
  · rw [defaultDesc_fin]
    simp only [tiltedSkyValue, rd, List.getElem?_cons_zero, List.getElem?_cons_succ, ok_bind, pure_eq_ok, fin_mul, fin_sub, fin_add]
    norm_num
  · rw [setImage_fin one_pos, e]
    simp only [tiltedSkyValue, rd, List.getElem?_cons_zero, List.getElem?_cons_succ, ok_bind, pure_eq_ok, fin_mul, fin_sub, fin_add]
    intro h
    injection h with h
    injection h with h
    norm_num at h

/-- Specification: the same elliptical object. -/
theorem spec_scale (F : EFun) (ph : Phys) (s ρ κ r : ℝ) (hs : 0 < s) :
    F.spec (ph.inImage (1 / s) ρ κ) (1 / s * r) = κ * F.spec ph r := by
  have ht : (1 / s) ≠ 0 := by positivity
  have hdiv : ∀ a b : ℝ, 1 / s * a / (b * (1 / s)) = a / b := fun a b => by rw [mul_comm (1 / s) a]; exact mul_div_mul_right _ _ ht
  cases F with
  | exponential => simp only [EFun.spec, expProfile, Phys.inImage, hdiv]; ring
  | gaussian =>
    simp only [EFun.spec, gaussProfile, Phys.inImage]
    rw [show (1 / s * r) ^ 2 / (2 * (ph.size * (1 / s)) ^ 2) = r ^ 2 * (1 / s) ^ 2 / (2 * ph.size ^ 2 * (1 / s) ^ 2) by ring, mul_div_mul_right _ _ (pow_ne_zero 2 ht)]
    ring
  | sersic => simp only [EFun.spec, sersicProfile, Phys.inImage, hdiv]; ring
  | moffat =>
    simp only [EFun.spec, moffatProfile, Phys.inImage]
    rw [show moffatAlpha (ph.size * (1 / s)) ph.shape = moffatAlpha ph.size ph.shape * (1 / s) by unfold moffatAlpha; ring, hdiv]
    ring

theorem ellRadius_toImage (q pa s ρ dx dy : ℝ) (hs : 0 < s) :
    ellRadius q ((pa - ρ + 90) * degree) (toImage s ρ dx dy).1 (toImage s ρ dx dy).2 = 1 / s * ellRadius q ((pa + 90) * degree) dx dy := by
  have h1 := along_toImage s ρ pa dx dy
  have h2 := across_toImage s ρ pa dx dy
  unfold along at h1
  unfold across at h2
  unfold ellRadius
  rw [h1, h2]
  exact ellDist_smul q (1 / s) _ _ (by positivity)

/-- C53 for the exponential, Gaussian, Sersic and Moffat functions. -/
theorem C53_elliptical (F : EFun) (ph : Phys) (hell : ph.ell < 1) (hsize : 0 < ph.size) (hshape : 0 < ph.shape) (s ρ κ : ℝ) (hs : 0 < s) (dx dy : ℝ)
    (pre post pre' post' : List XR) (x0 y0 X0 Y0 : ℝ) :
    ∃ v : ℝ, F.value false defaultDesc (pre ++ F.params ph ++ post) pre.length (fin x0) (fin y0) (fin (x0 + dx)) (fin (y0 + dy)) = .ok (fin v) ∧
      F.value false (setImageParameters (fin s) (fin ρ) (fin κ)) (pre' ++ F.params ph ++ post') pre'.length (fin X0) (fin Y0)
        (fin (X0 + (toImage s ρ dx dy).1)) (fin (Y0 + (toImage s ρ dx dy).2)) = .ok (fin (κ * v)) := by
  obtain ⟨f, hf, he, hn⟩ := setup_isEll F false 1 0 1 one_pos ph hell hsize hshape pre post x0 y0
  obtain ⟨f', hf', he', hn'⟩ := setup_isEll F false (1 / s) ρ κ (by positivity) ph hell hsize hshape pre' post' X0 Y0
  have e1 : ph.inImage 1 0 1 = ph := by simp [Phys.inImage]
  rw [e1] at he
  refine ⟨F.spec ph (ellRadius (1 - ph.ell) ph.angle dx dy), ?_, ?_⟩
  · unfold EFun.value
    rw [defaultDesc_fin, hf, ok_bind, ellValue_fin he _ _ 1 le_rfl (by rw [hn]; rfl), pixelMean_one, add_sub_cancel_left, add_sub_cancel_left]
  · unfold EFun.value
    rw [setImage_fin hs, hf', ok_bind, ellValue_fin he' _ _ 1 le_rfl (by rw [hn']; rfl), pixelMean_one, add_sub_cancel_left, add_sub_cancel_left]
    have e2 : (ph.inImage (1 / s) ρ κ).angle = (ph.pa - ρ + 90) * degree := rfl
    rw [e2, ellRadius_toImage _ _ _ _ _ _ hs, spec_scale F ph s ρ κ _ hs]
    rfl

/-- A Sersic function in a rotated image with larger pixels. -/
example : ∃ v : ℝ, EFun.sersic.value false defaultDesc ([] ++ EFun.sersic.params ⟨30, 1 / 2, 10, 5, 4⟩ ++ []) 0 (fin 0) (fin 0) (fin (0 + 3)) (fin (0 + 1)) = .ok (fin v) ∧
    EFun.sersic.value false (setImageParameters (fin 2) (fin 90) (fin 7)) ([] ++ EFun.sersic.params ⟨30, 1 / 2, 10, 5, 4⟩ ++ []) 0 (fin 5) (fin 5)
      (fin (5 + (toImage 2 90 3 1).1)) (fin (5 + (toImage 2 90 3 1).2)) = .ok (fin (7 * v)) :=
  C53_elliptical .sersic ⟨30, 1 / 2, 10, 5, 4⟩ (by norm_num) (by norm_num) (by norm_num) 2 90 7 (by norm_num) 3 1 [] [] [] [] 0 0 5 5

end Imfit
