import Verif.Props.C09
import Verif.Props.C04

/-!
# C07 — error-image conventions are interchangeable
-/

namespace Imfit

open Spec XR

/-- The same noise information in the three conventions: 100 = sigma, 110 = variance, 120 = inverse variance. -/
noncomputable def encodeNoise (code : Int) (σ : ℝ) : ℝ :=
  if code = 100 then σ else if code = 110 then σ ^ 2 else 1 / σ ^ 2

/-- The input with a user noise image for `σ` in the given convention. -/
noncomputable def withNoise (i : FitInput XR) (σ : Nat → ℝ) (code : Int) : FitInput XR :=
  { i with stat := .chi2User code, errors := (List.range (i.nCols * i.nRows)).map fun z => fin (encodeNoise code (σ z)) }

theorem count_congr {n : Nat} {P Q : Nat → Prop} (h : ∀ z, z < n → (P z ↔ Q z)) : count n P = count n Q := by
  unfold count
  congr 1
  ext z
  simp only [Finset.mem_filter, Finset.mem_range]
  exact ⟨fun ⟨a, b⟩ => ⟨a, (h z a).1 b⟩, fun ⟨a, b⟩ => ⟨a, (h z a).2 b⟩⟩

theorem count_zero {n : Nat} {P : Nat → Prop} (h : ∀ z, z < n → ¬ P z) : count n P = 0 := by
  unfold count
  rw [Finset.card_eq_zero]
  ext z
  simp only [Finset.mem_filter, Finset.mem_range, Finset.notMem_empty, iff_false]
  exact fun ⟨a, b⟩ => h z a b

section
variable {i : FitInput XR} {σ : Nat → ℝ} {code : Int}

theorem withNoise_shapes (sh : Shapes i) (hc : code = 100 ∨ code = 110 ∨ code = 120) : Shapes (withNoise i σ code) where
  cols := sh.cols
  rows := sh.rows
  data := sh.data
  mask := sh.mask
  errs := by
    intro k h
    have : code = k := by simpa [withNoise] using h
    subst this
    exact ⟨by simp [withNoise], hc⟩

/-- The image characteristics of the input with a noise image. -/
noncomputable def withNoise_chars (c : Chars i) : Chars (withNoise i σ code) where
  gain := c.gain
  readNoise := c.readNoise
  expTime := c.expTime
  sky := c.sky
  hgain := c.hgain
  hrn := c.hrn
  hexp := c.hexp
  hsky := c.hsky
  pgain := c.pgain
  prn := c.prn
  pexp := c.pexp
  psky := c.psky
  pn := c.pn

theorem withNoise_pix {z : Nat} (hz : z < i.n) :
    pix (withNoise i σ code).errors z = fin (encodeNoise code (σ z)) := by
  have hz : z < i.nCols * i.nRows := hz
  unfold pix withNoise
  simp [List.getD_eq_getElem?_getD, hz]

theorem withNoise_used (hc : code = 100 ∨ code = 110 ∨ code = 120) {z : Nat} (hz : z < i.n) (hσ : 0 < σ z) :
    Used (withNoise i σ code) z ↔ Good i z ∧ ∃ r : ℝ, pix i.data z = fin r := by
  have : ErrUsable code (pix (withNoise i σ code).errors z) := by
    rw [withNoise_pix hz]
    have h2 : 0 < σ z ^ 2 := by positivity
    rcases hc with rfl | rfl | rfl
    · simp [ErrUsable, encodeNoise, hσ.ne']
    · simp [ErrUsable, encodeNoise, h2]
    · simp [ErrUsable, encodeNoise, h2.le]
  constructor
  · intro h; exact ⟨h.1, h.2.1⟩
  · intro h; exact ⟨h.1, h.2, this⟩

theorem withNoise_weight (c : Chars i) (hc : code = 100 ∨ code = 110 ∨ code = 120) {z : Nat} (hz : z < i.n) (hσ : 0 < σ z) :
    WeightIs (withNoise_chars (σ := σ) (code := code) c) z (1 / σ z) := by
  have hp := withNoise_pix (i := i) (σ := σ) (code := code) hz
  have h2 : 0 < σ z ^ 2 := by positivity
  show if code = 100 then _ else _
  rcases hc with rfl | rfl | rfl
  · rw [if_pos rfl]
    exact Or.inl ⟨σ z, by rw [hp]; simp [encodeNoise], hσ, rfl⟩
  · rw [if_neg (by decide), if_pos rfl]
    exact Or.inl ⟨σ z ^ 2, by rw [hp]; simp [encodeNoise], h2, by rw [Real.sqrt_sq hσ.le]⟩
  · rw [if_neg (by decide), if_neg (by decide)]
    refine ⟨1 / σ z ^ 2, by rw [hp]; simp [encodeNoise], by positivity, ?_⟩
    rw [Real.sqrt_div zero_le_one, Real.sqrt_one, Real.sqrt_sq hσ.le]

open Classical in
theorem withNoise_fWeight (sh : Shapes i) (c : Chars i) (hc : code = 100 ∨ code = 110 ∨ code = 120) {z : Nat} (hz : z < i.n)
    (hσ : 0 < σ z) :
    fWeight (withNoise i σ code) (withNoise_chars c) z =
      if Good i z ∧ ∃ r : ℝ, pix i.data z = fin r then fin (1 / σ z) else fin 0 := by
  by_cases hu : Used (withNoise i σ code) z
  · rw [fWeight_pix (withNoise_shapes sh hc) hu (by positivity) (withNoise_weight c hc hz hσ),
      if_pos ((withNoise_used hc hz hσ).1 hu)]
  · have := mt (withNoise_used hc hz hσ).2 hu
    rw [if_neg this]
    unfold fWeight; rw [if_neg hu]

end

/-- Sigmas, variances and inverse variances are interchangeable: for every positive sigma image and any two conventions the setups
end with the same status; the valid pixels are the good pixels with finite data; every valid pixel has internal weight 1/sigma, every
other pixel 0; and for every model image, in normal and bootstrap mode, deviates and chi-squared are the same. -/
theorem C07_conventions (i : FitInput XR) (c : Chars i) (sh : Shapes i) (σ : Nat → ℝ) (hσ : ∀ z, z < i.n → 0 < σ z)
    (a b : Int) (ha : a = 100 ∨ a = 110 ∨ a = 120) (hb : b = 100 ∨ b = 110 ∨ b = 120) :
    ∃ s t st w, runSetup (withNoise i σ a) = .ok (s, st) ∧ runSetup (withNoise i σ b) = .ok (t, st) ∧
      (st = 0 ↔ ∃ z, z < i.n ∧ Good i z ∧ ∃ r : ℝ, pix i.data z = fin r) ∧
      s.weightVec = some w ∧ t.weightVec = some w ∧
      (∀ z, z < i.n → (Good i z ∧ (∃ r : ℝ, pix i.data z = fin r) → pix w z = fin (1 / σ z)) ∧
        (¬ (Good i z ∧ ∃ r : ℝ, pix i.data z = fin r) → pix w z = fin 0)) ∧
      ∀ (img : List XR), img.length = padLen i → ∀ (T : List Nat) (s' t' : MO XR),
        Mode i.n (count i.n fun z => Good i z ∧ ∃ r : ℝ, pix i.data z = fin r) s s' T →
        Mode i.n (count i.n fun z => Good i z ∧ ∃ r : ℝ, pix i.data z = fin r) t t' T →
        (∃ u u' y, computeDeviates (withModel s' img) = .ok (u, y) ∧ computeDeviates (withModel t' img) = .ok (u', y)) ∧
        (∃ u u' v, getFitStatistic (withModel s' img) = .ok (u, v) ∧ getFitStatistic (withModel t' img) = .ok (u', v)) := by
  classical
  have sa := withNoise_shapes (σ := σ) sh ha
  have sb := withNoise_shapes (σ := σ) sh hb
  have hfw : ∀ z, z < i.n → fWeight (withNoise i σ a) (withNoise_chars c) z = fWeight (withNoise i σ b) (withNoise_chars c) z := by
    intro z hz
    rw [withNoise_fWeight sh c ha hz (hσ z hz), withNoise_fWeight sh c hb hz (hσ z hz)]
  have hst : ∀ code, (code = 100 ∨ code = 110 ∨ code = 120) → (runStatus (withNoise i σ code) (withNoise_chars c) = 0 ↔
      ∃ z, z < i.n ∧ Good i z ∧ ∃ r : ℝ, pix i.data z = fin r) := by
    intro code hc
    rw [run_status (withNoise_shapes sh hc)]
    constructor
    · rintro ⟨⟨z, hz, hu⟩, -⟩
      exact ⟨z, hz, (withNoise_used hc hz (hσ z hz)).1 hu⟩
    · rintro ⟨z, hz, hu⟩
      refine ⟨⟨z, hz, (withNoise_used hc hz (hσ z hz)).2 hu⟩, ?_⟩
      intro z hz _
      have := hσ z hz
      exact ⟨1 / σ z, by positivity, withNoise_weight c hc hz this⟩
  have hcount : ∀ code, (code = 100 ∨ code = 110 ∨ code = 120) → count i.n (Used (withNoise i σ code)) =
      count i.n fun z => Good i z ∧ ∃ r : ℝ, pix i.data z = fin r := by
    intro code hc
    exact count_congr fun z hz => withNoise_used hc hz (hσ z hz)
  have hst' : runStatus (withNoise i σ a) (withNoise_chars c) = runStatus (withNoise i σ b) (withNoise_chars c) := by
    -- a non-zero status can only be -3 here
    have key : ∀ code, (code = 100 ∨ code = 110 ∨ code = 120) → runStatus (withNoise i σ code) (withNoise_chars c) ≠ 0 →
        runStatus (withNoise i σ code) (withNoise_chars c) = -3 := by
      intro code hc h
      have h1 := mt (hst code hc).2 h
      have h2 : count i.n (Used (withNoise i σ code)) = 0 := by
        rw [hcount code hc]
        exact count_zero fun z hz hh => h1 ⟨z, hz, hh⟩
      have h3 := run_nValid (c := withNoise_chars c) (withNoise_shapes (σ := σ) sh hc)
      have h4 : (withNoise i σ code).n = i.n := rfl
      rw [h4, h2] at h3
      unfold runStatus finalStatus
      have h5 : subValid (postSetup (withNoise i σ code) (withNoise_chars c)).nValid
          (nRemoved (withNoise i σ code).n (postSetup (withNoise i σ code) (withNoise_chars c)) (pix (withNoise i σ code).data)
            (goodVal (withNoise i σ code)) (inW (withNoise i σ code))) = some ((0 : Nat) : Int) := h3
      rw [h5]
      simp [tooFewValid]
    by_cases h : runStatus (withNoise i σ a) (withNoise_chars c) = 0
    · rw [h, eq_comm, hst b hb]
      exact (hst a ha).1 h
    · have hb' : runStatus (withNoise i σ b) (withNoise_chars c) ≠ 0 := by
        rw [Ne, hst b hb]
        exact mt (hst a ha).2 h
      rw [key a ha h, key b hb hb']
  refine ⟨runState (withNoise i σ a) (withNoise_chars c), runState (withNoise i σ b) (withNoise_chars c),
    runStatus (withNoise i σ a) (withNoise_chars c), tab i.n (fWeight (withNoise i σ a) (withNoise_chars c)),
    runSetup_eq sa, ?_, hst a ha, run_weight sa, ?_, ?_, ?_⟩
  · rw [hst']; exact runSetup_eq sb
  · rw [run_weight sb]
    exact congrArg some (tab_congr fun z hz => (hfw z hz).symm)
  · intro z hz
    rw [pix_tab _ hz, withNoise_fWeight sh c ha hz (hσ z hz)]
    constructor
    · intro h; rw [if_pos h]
    · intro h; rw [if_neg h]
  · intro img hl T s' t' hm hm'
    rw [← hcount a ha] at hm
    rw [← hcount b hb] at hm'
    obtain ⟨T0, IT⟩ := run_tabs0 (c := withNoise_chars c) sa hm img hl
    obtain ⟨T0', IT'⟩ := run_tabs0 (c := withNoise_chars c) sb hm' img hl
    obtain ⟨hme, -, -, -, -, hmlr, hcash, hex⟩ := mode_fields sa hm
    obtain ⟨hme', -, -, -, -, hmlr', hcash', hex'⟩ := mode_fields sb hm'
    have hm1 : (withModel s' img).modelErrors = false := by show s'.modelErrors = false; rw [hme]; simp [withNoise]
    have hm2 : (withModel t' img).modelErrors = false := by show t'.modelErrors = false; rw [hme']; simp [withNoise]
    have hp1 : (withModel s' img).poissonMLR = false := by show s'.poissonMLR = false; rw [hmlr]; simp [withNoise]
    have hp2 : (withModel t' img).poissonMLR = false := by show t'.poissonMLR = false; rw [hmlr']; simp [withNoise]
    have hu1 : (withModel s' img).useCash = false := by show s'.useCash = false; rw [hcash]; rfl
    have hu2 : (withModel t' img).useCash = false := by show t'.useCash = false; rw [hcash']; rfl
    have hy : (T.map fun z => upW (withModel s' img) (fMask (withNoise i σ a)) (fWeight (withNoise i σ a) (withNoise_chars c))
          (imgAt (runState (withNoise i σ a) (withNoise_chars c)) img) z *
          (fData (withNoise i σ a) z - imgAt (runState (withNoise i σ a) (withNoise_chars c)) img z)) =
        (T.map fun z => upW (withModel t' img) (fMask (withNoise i σ b)) (fWeight (withNoise i σ b) (withNoise_chars c))
          (imgAt (runState (withNoise i σ b) (withNoise_chars c)) img) z *
          (fData (withNoise i σ b) z - imgAt (runState (withNoise i σ b) (withNoise_chars c)) img z)) := by
      apply List.map_congr_left
      intro z hz
      have hz := IT.lt z hz
      unfold upW imgAt
      rw [hm1, hm2, modelIndex_pad sa, modelIndex_pad sb]
      simp only [Bool.false_and, Bool.false_eq_true, if_false]
      rw [hfw z hz]
      rfl
    constructor
    · rw [computeDeviates_terms T0 IT hp1, computeDeviates_terms T0' IT' hp2]
      exact ⟨_, _, _, rfl, congrArg Except.ok (Prod.ext rfl hy.symm)⟩
    · unfold getFitStatistic
      rw [hu1, hu2]
      simp only [Bool.false_eq_true, if_false]
      rw [chiSquared_terms T0 IT, chiSquared_terms T0' IT', hy]
      exact ⟨_, _, _, rfl, rfl⟩

/-- The exported weight image is 1/sigma² at every valid pixel and 0 elsewhere, in every convention. -/
theorem C07_exported_weights (i : FitInput XR) (c : Chars i) (sh : Shapes i) (σ : Nat → ℝ) (hσ : ∀ z, z < i.n → 0 < σ z)
    (a : Int) (ha : a = 100 ∨ a = 110 ∨ a = 120) (img : List XR) (hl : img.length = padLen i) :
    ∃ s st o b l, runSetup (withNoise i σ a) = .ok (s, st) ∧
      serve ⟨withModel s img, none, none, []⟩ .weight = .ok (o, some b) ∧ o.read b = some l ∧ l.length = i.n ∧
      ∀ z, z < i.n → (Good i z ∧ (∃ r : ℝ, pix i.data z = fin r) → pix l z = fin (1 / σ z ^ 2)) ∧
        (¬ (Good i z ∧ ∃ r : ℝ, pix i.data z = fin r) → pix l z = fin 0) := by
  obtain ⟨s, t, st, w, h1, -, -, hw, -, hpix, -⟩ := C07_conventions i c sh σ hσ a a ha ha
  obtain ⟨d, w', -, hw', o, ans, h2, -, h3, h4⟩ := C09_outputs (withNoise i σ a) (withNoise_chars c) (withNoise_shapes sh ha) s st h1
    img hl s _ Mode.plain [.weight]
  have : w' = w := by rw [hw] at hw'; exact (Option.some.inj hw').symm
  subst this
  simp only [serveAll] at h2
  cases hs : serve (⟨withModel s img, none, none, []⟩ : Out XR) .weight with
  | error e => rw [hs] at h2; cases h2
  | ok p =>
    rw [hs] at h2
    cases h2
    obtain ⟨b, l, hb, hr, hS⟩ := h4 .weight p.2 (by simp)
    refine ⟨s, st, p.1, b, l, h1, ?_, hr, hS.1, ?_⟩
    · rw [hs, ← hb]
    · intro z hz
      have hv : pix l z = pix w' z * pix w' z := hS.2 z hz
      obtain ⟨g1, g2⟩ := hpix z hz
      constructor
      · intro h
        rw [hv, g1 h, fin_mul]
        congr 1
        rw [div_mul_div_comm, one_mul, pow_two]
      · intro h
        rw [hv, g2 h, fin_mul, mul_zero]

/-- Generated errors: with data-based errors the internal weight of a valid pixel of value `d` is one over the square root of
`max(d + sky, 0)/gain_eff + N rn²/gain_eff²`, where `gain_eff` = gain · exposure time · N. -/
theorem C07_generated (i : FitInput XR) (c : Chars i) (sh : Shapes i) (hs : i.stat = .chi2Data) (s : MO XR)
    (hrun : runSetup i = .ok (s, 0)) :
    ∃ w, s.weightVec = some w ∧ ∀ z (d : ℝ), z < i.n → Good i z → pix i.data z = fin d →
      pix w z = fin (1 / Real.sqrt (max (d + c.sky) 0 / (c.gain * c.expTime * i.nCombined) +
        i.nCombined * c.readNoise ^ 2 / (c.gain * c.expTime * i.nCombined) ^ 2)) := by
  obtain ⟨-, dv, w, -, hw, -, -, hz⟩ := C04_success_usable i c sh s hrun
  refine ⟨w, hw, ?_⟩
  intro z d hz' hg hd
  have hu : Used i z := ⟨hg, ⟨d, hd⟩, by rw [hs]; trivial⟩
  obtain ⟨-, r, -, hr, hwi⟩ := (hz z hz').1 hu
  unfold WeightIs at hwi
  rw [hs] at hwi
  obtain ⟨d', hd', -, rfl⟩ := hwi
  rw [hd] at hd'
  cases hd'
  rw [hr]
  have : c.variance d = max (d + c.sky) 0 / (c.gain * c.expTime * i.nCombined) +
      i.nCombined * c.readNoise ^ 2 / (c.gain * c.expTime * i.nCombined) ^ 2 := by
    unfold Chars.variance Chars.effGain
    rw [div_pow, mul_div_assoc]
  rw [this]

/-- Example: sigmas 1, 1, 3, 2 for the 2 x 2 example image. -/
example : ∃ s t w, runSetup (withNoise exInput (fun z => [1, 1, 3, 2].getD z 1) 100) = .ok (s, 0) ∧
    runSetup (withNoise exInput (fun z => [1, 1, 3, 2].getD z 1) 120) = .ok (t, 0) ∧
    s.weightVec = some w ∧ t.weightVec = some w ∧ pix w 3 = fin (1 / 2) := by
  have hσ : ∀ z, z < exInput.n → 0 < (fun z => ([1, 1, 3, 2] : List ℝ).getD z 1) z := by
    intro z hz
    have hz : z < 4 := hz
    match z, hz with
    | 0, _ => norm_num
    | 1, _ => norm_num
    | 2, _ => norm_num
    | 3, _ => norm_num
  obtain ⟨s, t, st, w, h1, h2, h3, h4, h5, h6, -⟩ := C07_conventions exInput exChars exShapes _ hσ 100 120 (by simp) (by simp)
  have hg0 : Good exInput 0 := exUsed0.1
  have h0 : st = 0 := h3.2 ⟨0, by decide, hg0, 1, rfl⟩
  subst h0
  refine ⟨s, t, w, h1, h2, h4, h5, ?_⟩
  have := (h6 3 (by decide)).1 ⟨by simp [Good, exInput, MaskGood, pix], 4, rfl⟩
  rw [this]
  norm_num

end Imfit
