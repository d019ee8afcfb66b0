import Verif.Lemmas.FitSetup

/-!
# Per-pixel result of fit setup in exact arithmetic
-/

namespace Imfit

open Spec XR

theorem one_mul_xr (x : XR) : fin 1 * x = x := by
  cases x with
  | fin r => simp
  | pinf => show infSign 1 = pinf; simp [infSign]
  | ninf =>
    show infSign (-1) = ninf
    unfold infSign
    norm_num
  | nan => rfl

theorem maskedWeight_one (x : XR) : maskedWeight (fin 1) x = x := by
  unfold maskedWeight
  rw [one_mul_xr]
  simp

theorem maskedWeight_zero (x : XR) : maskedWeight (fin 0) x = fin 0 := by
  unfold maskedWeight
  cases x with
  | fin r => simp
  | pinf =>
    have : fin 0 * pinf = nan := by show infSign 0 = nan; exact infSign_zero
    rw [this]; simp
  | ninf =>
    have : fin 0 * ninf = nan := by show infSign (-0) = nan; rw [neg_zero]; exact infSign_zero
    rw [this]; simp
  | nan => simp

/-- Data value with non-finite values replaced by 0. -/
noncomputable def clean (x : XR) : XR := if isfin x then x else fin 0

theorem isfin_inv_sigma (v : XR) : isfin (fin 1 / v) = true ↔ ErrUsable 100 v := by
  cases v with
  | fin r =>
    by_cases h : r = 0
    · subst h; simp [fin_div_zero, infSign, ErrUsable]
    · simp [h, ErrUsable]
  | pinf => simp [ErrUsable]; rfl
  | ninf => simp [ErrUsable]; rfl
  | nan => simp [ErrUsable]; rfl

theorem isfin_inv_sqrt (v : XR) : isfin (fin 1 / fsqrt v) = true ↔ ErrUsable 110 v := by
  cases v with
  | fin r =>
    rcases lt_trichotomy r 0 with h | h | h
    · have : (fsqrt (fin r) : XR) = nan := by rw [fsqrt_fin, if_pos h]
      rw [this]
      have h2 : fin 1 / nan = nan := rfl
      rw [h2]; simp [ErrUsable, not_lt.mpr h.le]
    · subst h
      simp [fin_div_zero, infSign, ErrUsable]
    · have h2 : Real.sqrt r ≠ 0 := (Real.sqrt_pos.mpr h).ne'
      rw [fsqrt_fin_of_nonneg h.le, fin_div_of_ne h2]
      simp [ErrUsable, h]
  | pinf => simp [ErrUsable]; rfl
  | ninf => simp [ErrUsable]; rfl
  | nan => simp [ErrUsable]; rfl

theorem isfin_sqrt (v : XR) : isfin (fsqrt v) = true ↔ ErrUsable 120 v := by
  cases v with
  | fin r =>
    rcases lt_or_ge r 0 with h | h
    · have : (fsqrt (fin r) : XR) = nan := by rw [fsqrt_fin, if_pos h]
      rw [this]; simp [ErrUsable, not_le.mpr h]
    · rw [fsqrt_fin_of_nonneg h]; simp [ErrUsable, h]
  | pinf => simp [ErrUsable]; rfl
  | ninf => simp [ErrUsable]; rfl
  | nan => simp [ErrUsable]

variable {i : FitInput XR} {c : Chars i}

theorem isfin_inW {code : Int} (hs : i.stat = .chi2User code)
    (hc : code = 100 ∨ code = 110 ∨ code = 120) (z : Nat) :
    isfin (inW i z) = true ↔ ErrUsable code (pix i.errors z) := by
  unfold inW
  rw [hs]
  rcases hc with rfl | rfl | rfl
  · simp only [if_true]; exact isfin_inv_sigma _
  · simp only [show ¬ ((110 : Int) = 100) by decide, if_true, if_false]; exact isfin_inv_sqrt _
  · simp only [show ¬ ((120 : Int) = 100) by decide, show ¬ ((120 : Int) = 110) by decide, if_false]
    exact isfin_sqrt _

section
variable (sh : Shapes i) (f : SetupFacts i c (postSetup i c))
include f

open Classical

theorem pm1_val (z : Nat) (hz : z < i.n) :
    pm1 (postSetup i c) (pix i.data) (goodVal i) z =
      if Good i z ∧ isfin (pix i.data z) = true then fin 1 else fin 0 := by
  unfold pm1
  rw [f.pm z hz]
  unfold goodVal
  by_cases h1 : Good i z <;> cases h2 : isfin (pix i.data z) <;> simp [h1]

theorem badW_iff (sh : Shapes i) (z : Nat) (hz : z < i.n) :
    badW (postSetup i c) (pix i.data) (goodVal i) (inW i) z = true ↔
      (Good i z ∧ isfin (pix i.data z) = true ∧ ¬ Used i z) := by
  unfold badW
  rw [pm1_val f z hz, f.ext]
  have hfin := isfin_iff (pix i.data z)
  unfold Used
  cases hs : i.stat with
  | chi2User code =>
    have hg : genW (postSetup i c) = false := by rw [f.gen, hs]; simp
    have hw : pw0 (postSetup i c) (pix i.data) (inW i) z = inW i z := by simp [pw0, hg]
    rw [hw]
    have := isfin_inW hs (sh.errs code hs).2 z
    by_cases h1 : Good i z
    · by_cases h2 : isfin (pix i.data z) = true
      · have h3 := hfin.1 h2
        by_cases h4 : ErrUsable code (pix i.errors z)
        · have := this.2 h4
          simp [h1, h2, h3, h4, this]
        · have h5 : isfin (inW i z) = false := by
            cases h : isfin (inW i z)
            · rfl
            · exact absurd (this.1 h) h4
          simp [h1, h2, h4, h5]
      · simp [h1, h2]
    · simp [h1]
  | cash => simp; intro h1 h2; exact ⟨h1, hfin.1 h2⟩
  | poissonMLR => simp; intro h1 h2; exact ⟨h1, hfin.1 h2⟩
  | chi2Model => simp; intro h1 h2; exact ⟨h1, hfin.1 h2⟩
  | chi2Data => simp; intro h1 h2; exact ⟨h1, hfin.1 h2⟩

omit f in
theorem used_imp {z : Nat} (h : Used i z) : Good i z ∧ isfin (pix i.data z) = true :=
  ⟨h.1, (isfin_iff _).2 h.2.1⟩

theorem pm2_val (sh : Shapes i) (z : Nat) (hz : z < i.n) :
    pm2 (postSetup i c) (pix i.data) (goodVal i) (inW i) z = if Used i z then fin 1 else fin 0 := by
  unfold pm2
  rw [pm1_val f z hz]
  by_cases hb : badW (postSetup i c) (pix i.data) (goodVal i) (inW i) z = true
  · have := (badW_iff f sh z hz).1 hb
    simp [hb, this.2.2]
  · have hb' := fun hh => hb ((badW_iff f sh z hz).2 hh)
    simp only [hb]
    by_cases hu : Used i z
    · have := used_imp hu
      simp [hu, this.1, this.2]
    · have : ¬ (Good i z ∧ isfin (pix i.data z) = true) := fun h => hb' ⟨h.1, h.2, hu⟩
      simp [hu, this]

theorem pw3_val (sh : Shapes i) (z : Nat) (hz : z < i.n) :
    pw3 (postSetup i c) (pix i.data) (goodVal i) (inW i) z =
      if Used i z then pw0 (postSetup i c) (pix i.data) (inW i) z else fin 0 := by
  unfold pw3
  have hset : (genW (postSetup i c) || (postSetup i c).weightValsSet) = true := by
    rw [f.gen, f.set]
    cases h : decide (i.stat = StatChoice.chi2Data) <;> simp
  rw [hset, pm2_val f sh z hz]
  simp only [if_true]
  by_cases hu : Used i z
  · have hb : ¬ badW (postSetup i c) (pix i.data) (goodVal i) (inW i) z = true := by
      intro hb; exact ((badW_iff f sh z hz).1 hb).2.2 hu
    simp only [hu, if_true, maskedWeight_one, pw2, hb]
    simp
  · simp only [hu, if_false, maskedWeight_zero]

theorem pd_val (sh : Shapes i) (z : Nat) (hz : z < i.n) :
    pd (postSetup i c) (pix i.data) (goodVal i) (inW i) z = clean (pix i.data z) := by
  unfold pd clean
  rw [pm2_val f sh z hz]
  cases h : isfin (pix i.data z)
  · have hu : ¬ Used i z := by
      intro hu; have := (used_imp hu).2; rw [h] at this; cases this
    simp [hu]
  · simp

theorem dOK_true (sh : Shapes i) :
    dOK i.n (postSetup i c) (pix i.data) (goodVal i) (inW i) = true := by
  unfold dOK
  rw [List.all_eq_true]
  intro z hz
  rw [pm2_val f sh z (List.mem_range.mp hz)]
  cases h : isfin (pix i.data z)
  · have hu : ¬ Used i z := by
      intro hu; have := (used_imp hu).2; rw [h] at this; cases this
    simp [hu]
  · simp

theorem wOK_iff (sh : Shapes i) :
    wOK i.n (postSetup i c) (pix i.data) (goodVal i) (inW i) = true ↔
      ∀ z, z < i.n → Used i z → ∃ w : ℝ, 0 ≤ w ∧ pw0 (postSetup i c) (pix i.data) (inW i) z = fin w := by
  unfold wOK
  rw [List.all_eq_true]
  constructor
  · intro h z hz hu
    have := h z (List.mem_range.mpr hz)
    rw [pm2_val f sh z hz, pw3_val f sh z hz] at this
    simp only [hu, if_true] at this
    cases hw : pw0 (postSetup i c) (pix i.data) (inW i) z with
    | fin r =>
      rw [hw] at this
      simp only [zero_def, flt_fin, isfin_fin, Bool.true_and] at this
      refine ⟨r, ?_, rfl⟩
      simpa using this
    | pinf => rw [hw] at this; simp at this
    | ninf => rw [hw] at this; simp at this
    | nan => rw [hw] at this; simp at this
  · intro h z hz
    have hz := List.mem_range.mp hz
    rw [pm2_val f sh z hz, pw3_val f sh z hz]
    by_cases hu : Used i z
    · obtain ⟨w, hw, he⟩ := h z hz hu
      simp [hu, he, hw]
    · simp [hu]

theorem count_used (sh : Shapes i) :
    (subValid (postSetup i c).nValid
      (nRemoved i.n (postSetup i c) (pix i.data) (goodVal i) (inW i))) =
      some ((count i.n (Used i) : Nat) : Int) := by
  rw [f.nv]
  unfold nRemoved subValid
  have h1 : cnt i.n (fun z => flt 0 (pm0 (postSetup i c) (goodVal i) z) && !(isfin (pix i.data z))) =
      count i.n (fun z => Good i z ∧ ¬ isfin (pix i.data z) = true) := by
    apply cnt_eq_count
    intro z hz
    rw [f.pm z hz]
    unfold goodVal
    by_cases hg : Good i z <;> simp [hg]
  have h2 : cnt i.n (badW (postSetup i c) (pix i.data) (goodVal i) (inW i)) =
      count i.n (fun z => Good i z ∧ isfin (pix i.data z) = true ∧ ¬ Used i z) :=
    cnt_eq_count _ _ _ (fun z hz => badW_iff f sh z hz)
  rw [h1, h2]
  have h3 : ∀ n, count n (Good i) =
      count n (Used i) + (count n (fun z => Good i z ∧ ¬ isfin (pix i.data z) = true) +
        count n (fun z => Good i z ∧ isfin (pix i.data z) = true ∧ ¬ Used i z)) := by
    intro n
    unfold count
    rw [← Finset.card_union_of_disjoint, ← Finset.card_union_of_disjoint]
    · congr 1
      ext z
      simp only [Finset.mem_filter, Finset.mem_union, Finset.mem_range]
      constructor
      · rintro ⟨hz, hg⟩
        by_cases hu : Used i z
        · exact Or.inl ⟨hz, hu⟩
        · by_cases hf : isfin (pix i.data z) = true
          · exact Or.inr (Or.inr ⟨hz, hg, hf, hu⟩)
          · exact Or.inr (Or.inl ⟨hz, hg, hf⟩)
      · rintro (⟨hz, hu⟩ | ⟨hz, hg, _⟩ | ⟨hz, hg, _⟩)
        · exact ⟨hz, hu.1⟩
        · exact ⟨hz, hg⟩
        · exact ⟨hz, hg⟩
    · rw [Finset.disjoint_left]
      intro z h1 h2
      simp only [Finset.mem_filter, Finset.mem_union, Finset.mem_range] at h1 h2
      have hu := h1.2
      rcases h2 with h2 | h2
      · exact h2.2.2 (used_imp hu).2
      · exact h2.2.2.2 hu
    · rw [Finset.disjoint_left]
      intro z h1 h2
      simp only [Finset.mem_filter, Finset.mem_range] at h1 h2
      exact h1.2.2 h2.2.2.1
  have := h3 i.n
  simp only [Option.map_some, Option.some.injEq]
  omega

end

/-- What weight does the input prescribe? -/
theorem weightIs_iff (sh : Shapes i) (f : SetupFacts i c (postSetup i c)) (z : Nat) (hu : Used i z) (w : ℝ) :
    (0 ≤ w ∧ pw0 (postSetup i c) (pix i.data) (inW i) z = fin w) ↔ (0 ≤ w ∧ WeightIs c z w) := by
  apply and_congr_right
  intro hw0
  unfold pw0 WeightIs
  rw [f.gen]
  cases hs : i.stat with
  | cash => simp [inW, hs, eq_comm]
  | poissonMLR => simp [inW, hs, eq_comm]
  | chi2Model => simp [inW, hs, eq_comm]
  | chi2Data =>
    simp only [decide_true, if_true]
    obtain ⟨d, hd⟩ := hu.2.1
    rw [hd, f.eg, f.nc, f.rn, f.sky]
    have hg := effGain_pos c
    have hvar : dataWeight (fin c.effGain) (fin (i.nCombined : ℝ))
        (fin (c.readNoise * c.readNoise / (c.effGain * c.effGain))) (fin c.sky) (fin d) =
        fin 1 / fsqrt (fin (c.variance d)) := by
      unfold dataWeight
      have hmax : (if flt (fin (d + c.sky)) (0 : XR) then (0 : XR) else fin (d + c.sky)) =
          fin (max (d + c.sky) 0) := by
        simp only [zero_def, flt_fin, decide_eq_true_eq]
        split
        · rw [max_eq_right (by linarith)]
        · rw [max_eq_left (by linarith)]
      have hv : c.variance d = max (d + c.sky) 0 / c.effGain +
          (i.nCombined : ℝ) * (c.readNoise * c.readNoise / (c.effGain * c.effGain)) := by
        unfold Chars.variance
        field_simp
      show fin 1 / fsqrt ((if flt (fin d + fin c.sky) (0 : XR) then (0 : XR) else fin d + fin c.sky) /
        fin c.effGain + fin (i.nCombined : ℝ) * fin (c.readNoise * c.readNoise / (c.effGain * c.effGain))) = _
      rw [fin_add, hmax, fin_div_of_ne hg.ne', fin_mul, fin_add, hv]
    rw [hvar]
    have hnn : 0 ≤ c.variance d := by
      unfold Chars.variance
      have := c.prn
      positivity
    rw [fsqrt_fin_of_nonneg hnn]
    by_cases h0 : c.variance d = 0
    · rw [h0, Real.sqrt_zero, fin_div_zero, infSign_pos one_pos]
      simp [h0]
    · have hpos : 0 < c.variance d := lt_of_le_of_ne hnn (Ne.symm h0)
      have : Real.sqrt (c.variance d) ≠ 0 := (Real.sqrt_pos.mpr hpos).ne'
      rw [fin_div_of_ne this]
      simp [hpos, eq_comm]
  | chi2User code =>
    have hdec : decide (StatChoice.chi2User code = StatChoice.chi2Data) = false := by simp
    rw [hdec]
    simp only [Bool.false_eq_true, if_false]
    have hcode := (sh.errs code hs).2
    unfold inW
    rw [hs]
    rcases hcode with rfl | rfl | rfl
    · simp only [if_true]
      cases hv : pix i.errors z with
      | fin r =>
        by_cases h0 : r = 0
        · subst h0; rw [fin_div_zero, infSign_pos one_pos]; simp
        · rw [fin_div_of_ne h0]
          simp only [fin.injEq, reduceCtorEq, or_self, false_and, or_false, exists_eq_left']
          constructor
          · intro h
            refine ⟨?_, h.symm⟩
            rcases lt_or_gt_of_ne h0 with hr | hr
            · exfalso
              have : 1 / r < 0 := one_div_neg.mpr hr
              linarith
            · exact hr
          · rintro ⟨_, h⟩; exact h.symm
      | pinf => show fin 0 = fin w ↔ _; simp [eq_comm]
      | ninf => show fin 0 = fin w ↔ _; simp [eq_comm]
      | nan => show nan = fin w ↔ _; simp
    · simp only [show ¬ ((110 : Int) = 100) by decide, if_true, if_false]
      cases hv : pix i.errors z with
      | fin r =>
        rcases lt_trichotomy r 0 with h | h | h
        · have : (fsqrt (fin r) : XR) = nan := by rw [fsqrt_fin, if_pos h]
          rw [this]
          show nan = fin w ↔ _
          simp [not_lt.mpr h.le]
        · subst h
          rw [fsqrt_fin_of_nonneg le_rfl, Real.sqrt_zero, fin_div_zero, infSign_pos one_pos]; simp
        · have h2 : Real.sqrt r ≠ 0 := (Real.sqrt_pos.mpr h).ne'
          rw [fsqrt_fin_of_nonneg h.le, fin_div_of_ne h2]
          simp [h, eq_comm]
      | pinf => show fin 0 = fin w ↔ _; simp [eq_comm]
      | ninf => show nan = fin w ↔ _; simp
      | nan => show nan = fin w ↔ _; simp
    · simp only [show ¬ ((120 : Int) = 100) by decide, show ¬ ((120 : Int) = 110) by decide, if_false]
      cases hv : pix i.errors z with
      | fin r =>
        rcases lt_or_ge r 0 with h | h
        · have : (fsqrt (fin r) : XR) = nan := by rw [fsqrt_fin, if_pos h]
          rw [this]
          simp [not_le.mpr h]
        · rw [fsqrt_fin_of_nonneg h]
          simp [h, eq_comm]
      | pinf => show pinf = fin w ↔ _; simp
      | ninf => show nan = fin w ↔ _; simp
      | nan => show nan = fin w ↔ _; simp

end Imfit
