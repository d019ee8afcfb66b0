import Verif.Lemmas.FitPix
import Verif.Props.C39
import Verif.Props.C05

/-!
# C06 — Poisson-MLR statistic
-/

namespace Imfit

open Spec XR

/-- The Poisson-MLR term is non-negative, and 0 exactly when expected and observed counts agree. -/
theorem mlrTerm_nonneg {D M : ℝ} (hD : 0 ≤ D) (hM : 0 < M) : 0 ≤ mlrTerm D M ∧ (mlrTerm D M = 0 ↔ M = D) := by
  unfold mlrTerm
  rcases hD.eq_or_lt with rfl | hD
  · simp only [zero_mul, sub_zero, add_zero]
    exact ⟨hM.le, trivial⟩
  · have hr : 0 < M / D := div_pos hM hD
    have hlog : Real.log (D / M) = - Real.log (M / D) := by rw [← Real.log_inv, inv_div]
    have hMD : M = D * (M / D) := by field_simp
    rw [hlog]
    have key : M - D + D * -Real.log (M / D) = D * (M / D - 1 - Real.log (M / D)) := by
      rw [mul_sub, mul_sub, ← hMD]; ring
    rw [key]
    have h1 : Real.log (M / D) ≤ M / D - 1 := Real.log_le_sub_one_of_pos hr
    refine ⟨mul_nonneg hD.le (by linarith), ?_⟩
    constructor
    · intro h
      by_contra hne
      have hne' : M / D ≠ 1 := by
        intro h1; rw [div_eq_one_iff_eq hD.ne'] at h1; exact hne h1
      have := Real.log_lt_sub_one_of_pos hr hne'
      rcases mul_eq_zero.mp h with h | h
      · exact hD.ne' h
      · linarith
    · rintro rfl
      simp [div_self hM.ne']

/-- One term of the run is the Poisson-MLR term. -/
theorem cashTerm_mlr {g k d m : ℝ} (hD : 0 ≤ g * (d + k)) (hM : 0 < g * (m + k)) :
    cashTerm (fin g) (fin k) (fin d) (fin m) (extraCashTerm (fin g) (fin k) (fin d)) =
      fin (mlrTerm (g * (d + k)) (g * (m + k))) := by
  unfold cashTerm logModel extraCashTerm mlrTerm
  simp only [fin_add, fin_mul, zero_def, fle_fin, not_le.mpr hM, decide_false, Bool.false_eq_true, if_false,
    flog_fin_of_pos hM]
  rcases hD.eq_or_lt with h0 | hD
  · simp [← h0]
  · simp only [not_le.mpr hD, decide_false, Bool.false_eq_true, if_false, flog_fin_of_pos hD, fin_mul, fin_sub, fin_add]
    congr 1
    rw [Real.log_div hD.ne' hM.ne']
    ring

theorem foldl_fin {β : Type} (g : β → XR) (t : β → ℝ) (T : List β) (h : ∀ b ∈ T, g b = fin (t b)) (a : ℝ) :
    T.foldl (fun acc b => acc + g b) (fin a) = fin (a + (T.map t).sum) := by
  induction T generalizing a with
  | nil => simp
  | cons b T ih =>
    simp only [List.foldl_cons, List.map_cons, List.sum_cons]
    rw [h b (List.mem_cons_self ..), fin_add, ih (fun x hx => h x (List.mem_cons_of_mem _ hx))]
    congr 1; ring

open Classical in
/-- Poisson-MLR term of pixel `z` (0 if the pixel is not used). -/
noncomputable def mlrAt {i : FitInput XR} (c : Chars i) (d : Nat → ℝ) (img : List ℝ) (z : Nat) : ℝ :=
  if Used i z then mlrTerm (c.counts (d z)) (c.counts (modelAt i img z)) else 0

/-- Poisson-MLR in normal and bootstrap mode. Hypotheses: no unused pixel holds NaN or `+inf` (see C03); on used pixels the
counts are non-negative and the model counts positive.

Every per-pixel term is non-negative and 0 exactly when model and data agree, the statistic is twice the sum of
the terms, and it is the sum of squares of the deviates. Missing from the full claim: model counts that are not positive
(`C06_false`). -/
theorem C06_poissonMLR_partial (i : FitInput XR) (c : Chars i) (sh : Shapes i) (s : MO XR)
    (hrun : runSetup i = .ok (s, 0)) (hstat : i.stat = .poissonMLR) (img : List ℝ) (hl : img.length = padLen i)
    (hx : ∀ z, z < i.n → ¬ Used i z → pix i.data z ≠ nan ∧ pix i.data z ≠ pinf)
    (d : Nat → ℝ) (hd : ∀ z, z < i.n → Used i z → pix i.data z = fin (d z))
    (hD : ∀ z, z < i.n → Used i z → 0 ≤ c.counts (d z))
    (hM : ∀ z, z < i.n → Used i z → 0 < c.counts (modelAt i img z)) :
    (∀ z, z < i.n → Used i z → 0 ≤ mlrTerm (c.counts (d z)) (c.counts (modelAt i img z)) ∧
      (mlrTerm (c.counts (d z)) (c.counts (modelAt i img z)) = 0 ↔ modelAt i img z = d z)) ∧
    ∀ s' T, Mode i.n (count i.n (Used i)) s s' T →
      ∃ y : List ℝ, y.length = T.length ∧
        (∃ t, computeDeviates (withModel s' (img.map fin)) = .ok (t, y.map fin)) ∧
        (∃ t, getFitStatistic (withModel s' (img.map fin)) = .ok (t, fin (sumSq y))) ∧
        sumSq y = 2 * (T.map (mlrAt c d img)).sum ∧
        y = T.map (fun z => Real.sqrt (2 * mlrAt c d img z)) := by
  have h := hrun
  rw [runSetup_eq (c := c) sh] at h
  simp only [Except.ok.injEq, Prod.mk.injEq] at h
  obtain ⟨rfl, h0⟩ := h
  have hg := effGain_pos c
  have hterm : ∀ z, z < i.n → Used i z → 0 ≤ mlrTerm (c.counts (d z)) (c.counts (modelAt i img z)) ∧
      (mlrTerm (c.counts (d z)) (c.counts (modelAt i img z)) = 0 ↔ modelAt i img z = d z) := by
    intro z hz hu
    have := mlrTerm_nonneg (hD z hz hu) (hM z hz hu)
    refine ⟨this.1, this.2.trans ?_⟩
    unfold Chars.counts
    constructor
    · intro h
      have := mul_left_cancel₀ hg.ne' h
      linarith
    · rintro h; rw [h]
  refine ⟨hterm, ?_⟩
  have hnn : ∀ z, z < i.n → 0 ≤ mlrAt c d img z := by
    intro z hz
    unfold mlrAt
    by_cases hu : Used i z
    · simp only [hu, if_true]; exact (hterm z hz hu).1
    · simp [hu]
  intro s' T hm
  obtain ⟨T0, IT⟩ := run_tabs0 (c := c) sh hm (img.map fin) (by simpa using hl)
  obtain ⟨hme, heg, hsk, -, -, hmlr, hcash, hex⟩ := mode_fields sh hm
  have hp : (withModel s' (img.map fin)).poissonMLR = true := by
    show s'.poissonMLR = true; rw [hmlr]; simp [hstat]
  have hu : (withModel s' (img.map fin)).useCash = true := by
    show s'.useCash = true; rw [hcash, hstat]
  have he : (withModel s' (img.map fin)).extraVec = some (tab i.n (fExtra i c)) := by
    show s'.extraVec = _; rw [hex]; exact run_extra sh (Or.inr hstat)
  have heg' : (withModel s' (img.map fin)).effGain = fin c.effGain := heg
  have hsk' : (withModel s' (img.map fin)).sky = fin c.sky := hsk
  -- one term
  have hone : ∀ z, z < i.n → ∃ q : ℝ, cashTerm (fin c.effGain) (fin c.sky) (fData i z)
      (imgAt (runState i c) (img.map fin) z) (fExtra i c z) = fin q ∧
      ((Used i z → fWeight i c z = fin 1 ∧ q = mlrAt c d img z) ∧ (¬ Used i z → fWeight i c z = fin 0)) := by
    intro z hz
    rw [modelIndex_spec sh]
    by_cases hu : Used i z
    · refine ⟨mlrAt c d img z, ?_, fun _ => ⟨?_, rfl⟩, fun h => absurd hu h⟩
      · rw [fData_pix (hd z hz hu)]
        unfold fExtra mlrAt
        simp only [hstat, hu, if_true, hd z hz hu]
        exact cashTerm_mlr (hD z hz hu) (hM z hz hu)
      · exact fWeight_pix sh hu zero_le_one (by unfold WeightIs; rw [hstat])
    · obtain ⟨a, ha⟩ := fData_fin i z
      obtain ⟨e, hee⟩ : ∃ e, fExtra i c z = fin e := by
        unfold fExtra; simp only [hstat, if_true]
        exact extra_fin hg _ (hx z hz hu).1 (hx z hz hu).2
      obtain ⟨q, hq⟩ := (isfin_iff _).1 (isfin_cashTerm hg c.sky a e (fin (modelAt i img z)))
      refine ⟨q, ?_, fun h => absurd h hu, fun _ => by unfold fWeight; simp [hu]⟩
      rw [ha, hee, hq]
  refine ⟨T.map (fun z => Real.sqrt (2 * mlrAt c d img z)), by simp, ?_, ?_, ?_, rfl⟩
  · rw [computeDeviates_mlr_terms T0 IT hp he]
    refine ⟨_, congrArg Except.ok (Prod.ext rfl ?_)⟩
    show T.map _ = _
    rw [List.map_map]
    apply List.map_congr_left
    intro b hb
    have hz := IT.lt b hb
    obtain ⟨q, h1, h2, h3⟩ := hone b hz
    have hup : upW (withModel s' (img.map fin)) (fMask i) (fWeight i c)
        (imgAt (runState i c) (img.map fin)) b = fWeight i c b := by
      unfold upW
      have : (withModel s' (img.map fin)).modelErrors = false := by
        show s'.modelErrors = false; rw [hme]; simp [hstat]
      simp [this]
    unfold mlrD
    rw [hup, heg', hsk', h1]
    by_cases hub : Used i b
    · rw [(h2 hub).1, (h2 hub).2]
      have := hnn b hz
      simp only [lit_def, fin_mul, fabs_fin, Function.comp]
      rw [fsqrt_fin_of_nonneg (by positivity), abs_of_nonneg this]
      norm_num
    · rw [h3 hub]
      have : mlrAt c d img b = 0 := by unfold mlrAt; simp [hub]
      simp [this]
  · unfold getFitStatistic
    simp only [hu, if_true]
    rw [cashStatistic_terms T0 IT he]
    have hf : cashFold (withModel s' (img.map fin)) (fWeight i c) (fData i)
        (imgAt (runState i c) (img.map fin)) (fExtra i c) T = fin (0 + (T.map (mlrAt c d img)).sum) := by
      unfold cashFold
      rw [heg', hsk']
      apply foldl_fin
      intro b hb
      have hz := IT.lt b hb
      obtain ⟨q, h1, h2, h3⟩ := hone b hz
      rw [h1]
      by_cases hub : Used i b
      · rw [(h2 hub).1, (h2 hub).2]; simp
      · rw [h3 hub]
        have : mlrAt c d img b = 0 := by unfold mlrAt; simp [hub]
        simp [this]
    rw [hf]
    refine ⟨withModel s' (img.map fin), congrArg Except.ok (Prod.ext rfl ?_)⟩
    show lit 2 * fin _ = _
    simp only [lit_def, fin_mul, zero_add]
    congr 1
    unfold sumSq
    rw [List.map_map, ← List.sum_map_mul_left]
    push_cast
    congr 1
    apply List.map_congr_left
    intro b hb
    have := hnn b (IT.lt b hb)
    simp only [Function.comp]
    rw [Real.sq_sqrt (by positivity)]
  · unfold sumSq
    rw [List.map_map, ← List.sum_map_mul_left]
    congr 1
    apply List.map_congr_left
    intro b hb
    have := hnn b (IT.lt b hb)
    simp only [Function.comp]
    rw [Real.sq_sqrt (by positivity)]

/-- One-pixel Poisson-MLR input with one count. -/
noncomputable def c06Input : FitInput XR := { c05Input with stat := .poissonMLR }

theorem c06Shapes : Shapes c06Input :=
  ⟨c05Shapes.cols, c05Shapes.rows, c05Shapes.data, c05Shapes.mask, by intro code h; simp [c06Input] at h⟩

/-- Characteristics of `c06Input`. -/
noncomputable def c06Chars : Chars c06Input :=
  ⟨1, 0, 1, 0, rfl, rfl, rfl, rfl, one_pos, le_refl _, one_pos, le_refl _, le_refl _⟩

theorem c06Used : Used c06Input 0 := ⟨trivial, ⟨1, rfl⟩, trivial⟩

theorem c06Run : ∃ s, runSetup c06Input = .ok (s, 0) := by
  refine ⟨runState c06Input c06Chars, ?_⟩
  have h0 : runStatus c06Input c06Chars = 0 := by
    rw [run_status c06Shapes]
    exact ⟨⟨0, Nat.zero_lt_one, c06Used⟩, fun z _ _ => ⟨1, zero_le_one, rfl⟩⟩
  rw [runSetup_eq (c := c06Chars) c06Shapes, h0]

/-- The full claim is false for a model value of 0: with one observed count the statistic is negative, and the sum of
squares of the deviates is a different, positive number (`logModel` is set to `LOG_SMALL_VALUE = 1e-25` itself instead of
its logarithm, `core/model_object.cpp:1392-1395`). -/
theorem C06_false :
    ∃ s v y, runSetup c06Input = .ok (s, 0) ∧
      (∃ t, getFitStatistic (withModel s [fin 0]) = .ok (t, fin v)) ∧
      (∃ t, computeDeviates (withModel s [fin 0]) = .ok (t, [fin y])) ∧ v < 0 ∧ 0 < y ^ 2 := by
  obtain ⟨s, hs⟩ := c06Run
  have hs0 := hs
  rw [runSetup_eq (c := c06Chars) c06Shapes] at hs
  simp only [Except.ok.injEq, Prod.mk.injEq] at hs
  obtain ⟨rfl, -⟩ := hs
  have sh := c06Shapes
  have f := setupFacts _ c06Chars sh
  have T0 := run_tabs (c := c06Chars) sh [fin 0] (by rw [run_nModelVals sh]; rfl)
  have hu : (withModel (runState _ c06Chars) [fin 0]).useCash = true := f.cash
  have hp : (withModel (runState _ c06Chars) [fin 0]).poissonMLR = true := f.mlr
  have hme : (withModel (runState _ c06Chars) [fin 0]).modelErrors = false := f.merr
  have heg : (withModel (runState _ c06Chars) [fin 0]).effGain = fin c06Chars.effGain := f.eg
  have hsk : (withModel (runState _ c06Chars) [fin 0]).sky = fin c06Chars.sky := f.sky
  have he : (withModel (runState _ c06Chars) [fin 0]).extraVec = some (tab c06Input.n (fExtra _ c06Chars)) :=
    run_extra sh (Or.inr rfl)
  have hg : c06Chars.effGain = 1 := by simp [Chars.effGain, c06Chars, c06Input, c05Input]
  have hk : c06Chars.sky = 0 := rfl
  have himg : imgAt (runState c06Input c06Chars) [fin 0] 0 = fin 0 := by
    unfold imgAt modelIndex
    have : (runState c06Input c06Chars).doConvolution = false := f.conv
    rw [this]; rfl
  have hd : fData c06Input 0 = fin 1 := fData_pix rfl
  have hw : fWeight c06Input c06Chars 0 = fin 1 := fWeight_pix sh c06Used zero_le_one rfl
  have hx : fExtra c06Input c06Chars 0 = fin (-1) := by
    unfold fExtra
    rw [if_pos (show c06Input.stat = .poissonMLR from rfl), hg, hk]
    have : pix c06Input.data 0 = fin 1 := rfl
    rw [this]
    unfold extraCashTerm
    simp
  have hct : cashTerm (fin c06Chars.effGain) (fin c06Chars.sky) (fin 1) (fin 0) (fin (-1)) =
      fin (-(1 / 10 ^ 25) - 1) := by
    rw [hg, hk]
    unfold cashTerm logModel
    simp
    ring
  refine ⟨_, 2 * (0 + 1 * (-(1 / 10 ^ 25) - 1)), Real.sqrt (2 * (1 / 10 ^ 25 + 1)), hs0, ?_, ?_, by norm_num, ?_⟩
  · unfold getFitStatistic
    simp only [hu, if_true]
    rw [cashStatistic_eq T0 he]
    refine ⟨withModel (runState _ c06Chars) [fin 0], congrArg Except.ok (Prod.ext rfl ?_)⟩
    show lit 2 * cashSum _ _ _ _ _ 1 = _
    simp only [cashSum, heg, hsk, himg, hd, hw, hx, hct]
    simp
  · rw [computeDeviates_mlr T0 hp he]
    refine ⟨_, congrArg Except.ok (Prod.ext rfl ?_)⟩
    show tab 1 _ = _
    show [mlrD _ _ _ _ _ 0] = _
    unfold mlrD upW
    simp only [hme, Bool.false_and, Bool.false_eq_true, if_false, heg, hsk, himg, hd, hw, hx, hct]
    have ha : |(-(1 / 10 ^ 25) - 1 : ℝ)| = 1 / 10 ^ 25 + 1 := by
      rw [abs_of_neg (by norm_num)]; ring
    simp only [fabs_fin, ha, lit_def, fin_mul]
    rw [fsqrt_fin_of_nonneg (by norm_num)]
    norm_num
  · rw [Real.sq_sqrt (by norm_num)]; norm_num

/-- Example for the hypotheses of the partial theorem: one count, model value 2; the statistic is positive. -/
example : ∃ s, runSetup c06Input = .ok (s, 0) ∧ ∃ t v, getFitStatistic (withModel s [fin 2]) = .ok (t, fin v) ∧ 0 < v := by
  obtain ⟨s, hs⟩ := c06Run
  have hg : c06Chars.effGain = 1 := by simp [Chars.effGain, c06Chars, c06Input, c05Input]
  have hc : ∀ x, c06Chars.counts x = x := by
    intro x; unfold Chars.counts; rw [hg]; simp [c06Chars]
  have hz0 : ∀ z, z < c06Input.n → z = 0 := by
    intro z hz; have hz : z < 1 := hz; omega
  have hm : modelAt c06Input [2] 0 = 2 := rfl
  obtain ⟨h1, h2⟩ := C06_poissonMLR_partial c06Input c06Chars c06Shapes s hs rfl [2] rfl
    (by intro z hz hu; rw [hz0 z hz] at hu; exact absurd c06Used hu)
    (fun _ => 1) (by intro z hz _; rw [hz0 z hz]; rfl)
    (by intro z hz _; rw [hc]; norm_num)
    (by intro z hz _; rw [hz0 z hz, hm, hc]; norm_num)
  obtain ⟨y, -, -, ⟨t, h3⟩, h4, -⟩ := h2 s _ Mode.plain
  refine ⟨s, hs, t, _, h3, ?_⟩
  rw [h4]
  have hr : List.range c06Input.n = [0] := rfl
  obtain ⟨k1, k2⟩ := h1 0 Nat.zero_lt_one c06Used
  have : mlrAt c06Chars (fun _ => 1) [2] 0 =
    mlrTerm (c06Chars.counts 1) (c06Chars.counts (modelAt c06Input [2] 0)) := by
    unfold mlrAt; simp [c06Used]
  rw [hr]
  simp only [List.map_cons, List.map_nil, List.sum_cons, List.sum_nil, add_zero, this]
  have hne : mlrTerm (c06Chars.counts 1) (c06Chars.counts (modelAt c06Input [2] 0)) ≠ 0 := by
    rw [Ne, k2, hm]; norm_num
  have := lt_of_le_of_ne k1 (Ne.symm hne)
  linarith

end Imfit
