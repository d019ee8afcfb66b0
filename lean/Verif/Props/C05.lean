import Verif.Lemmas.FitPix
import Verif.Props.C39

/-!
# C05 — chi-squared is the sum of squared weighted residuals
-/

namespace Imfit

open Spec XR

/-- Chi-squared and the deviates, in normal and bootstrap mode (`Mode`), for every successful setup with a chi-squared statistic
and every finite model image. With model-based errors the model variance of every used pixel must be positive (otherwise
see `C05_modelErrors_false`). `w` are the prescribed weights (1/sigma).

The deviates are the weighted residuals of the selected pixels. The statistic `v` is non-negative, 0 exactly when the model
equals the data on every selected used pixel of non-zero weight, equals the sum of squares of the deviates whenever
there is no residual that is non-zero but at most 3.834e-20 or no residual of size 1.304e19/n or more, and
otherwise is short of the sum by at most `n · (3.834e-20)²`. -/
theorem C05_chi2_partial (i : FitInput XR) (c : Chars i) (sh : Shapes i) (s : MO XR) (hrun : runSetup i = .ok (s, 0))
    (hstat : i.stat ≠ .cash ∧ i.stat ≠ .poissonMLR) (img : List ℝ) (hl : img.length = padLen i)
    (hpos : i.stat = .chi2Model → ∀ z, z < i.n → Used i z → 0 < c.modelVariance (modelAt i img z))
    (d : Nat → ℝ) (hd : ∀ z, z < i.n → Used i z → pix i.data z = fin (d z)) :
    ∃ w : Nat → ℝ, (∀ z, z < i.n → Used i z → 0 ≤ w z ∧ PixWeight c img z (w z)) ∧
      ∀ s' T, Mode i.n (count i.n (Used i)) s s' T →
        let y := T.map (resid i w d img)
        (∃ t, computeDeviates (withModel s' (img.map fin)) = .ok (t, y.map fin)) ∧
        ∃ t v, getFitStatistic (withModel s' (img.map fin)) = .ok (t, fin v) ∧ 0 ≤ v ∧
          (v = 0 ↔ ∀ z ∈ T, Used i z → w z = 0 ∨ d z = modelAt i img z) ∧
          (((∀ x ∈ y, x = 0 ∨ smallSize < |x|) ∨ (∀ x ∈ y, |x| ≤ smallSize ∨ |x| < largeSize / y.length)) →
            v = sumSq y) ∧
          v ≤ sumSq y ∧ sumSq y ≤ v + y.length * smallSize ^ 2 := by
  have h := hrun
  rw [runSetup_eq (c := c) sh] at h
  simp only [Except.ok.injEq, Prod.mk.injEq] at h
  obtain ⟨rfl, h0⟩ := h
  obtain ⟨-, hw⟩ := (run_status sh).1 h0
  have hw' : ∀ z, ∃ w : ℝ, z < i.n → Used i z → 0 ≤ w ∧ PixWeight c img z w := by
    intro z
    by_cases hz : z < i.n
    · by_cases hu : Used i z
      · by_cases hs : i.stat = .chi2Model
        · refine ⟨1 / Real.sqrt (c.modelVariance (modelAt i img z)), fun _ _ => ⟨by positivity, ?_⟩⟩
          unfold PixWeight; rw [if_pos hs]
          exact ⟨hpos hs z hz hu, rfl⟩
        · obtain ⟨w, h1, h2⟩ := hw z hz hu
          refine ⟨w, fun _ _ => ⟨h1, ?_⟩⟩
          unfold PixWeight; rw [if_neg hs]; exact h2
      · exact ⟨0, fun _ h => absurd h hu⟩
    · exact ⟨0, fun h => absurd h hz⟩
  choose w hw' using hw'
  refine ⟨w, hw', ?_⟩
  intro s' T hm
  obtain ⟨T0, IT⟩ := run_tabs0 (c := c) sh hm (img.map fin) (by simpa using hl)
  obtain ⟨-, -, -, -, -, hmlr, hcash, -⟩ := mode_fields sh hm
  have hp : (withModel s' (img.map fin)).poissonMLR = false := by
    show s'.poissonMLR = false; rw [hmlr]; simp [hstat.2]
  have hu : (withModel s' (img.map fin)).useCash = false := by
    show s'.useCash = false; rw [hcash]
    cases hs : i.stat <;> simp_all
  have hy : (T.map fun b => upW (withModel s' (img.map fin)) (fMask i) (fWeight i c)
        (imgAt (runState i c) (img.map fin)) b * (fData i b - imgAt (runState i c) (img.map fin) b)) =
      (T.map (resid i w d img)).map fin := by
    rw [List.map_map]
    apply List.map_congr_left
    intro b hb
    exact chi_resid sh hm img (hd b (IT.lt b hb)) (hw' b (IT.lt b hb))
  constructor
  · rw [computeDeviates_terms T0 IT hp, hy]
    exact ⟨_, rfl⟩
  · unfold getFitStatistic
    simp only [hu, Bool.false_eq_true, if_false]
    rw [chiSquared_terms T0 IT, hy]
    obtain ⟨r, hr, r0, r1, r2, r3⟩ := C39_bounds_partial (T.map (resid i w d img))
    refine ⟨_, r * r, by rw [hr]; rfl, mul_self_nonneg r, ?_, ?_, ?_, ?_⟩
    · rw [mul_self_eq_zero, r3]
      simp only [List.mem_map, forall_exists_index, and_imp, forall_apply_eq_imp_iff₂]
      apply forall_congr'
      intro z
      apply imp_congr_right
      intro _
      unfold resid
      by_cases hu : Used i z
      · simp [hu, sub_eq_zero]
      · simp [hu]
    · intro hband
      have := C39_exact_partial _ hband
      rw [hr] at this
      rw [XR.fin.inj this]
      exact Real.mul_self_sqrt (sumSq_nonneg _)
    · rw [← pow_two]; exact r1
    · rw [← pow_two]; exact r2

/-- One-pixel input with model-based errors. -/
noncomputable def c05Input : FitInput XR :=
  { nCols := 1, nRows := 1, data := [.fin 1], psf := none, mask := none, errors := [],
    stat := .chi2Model, gain := .fin 1, readNoise := .fin 0, expTime := .fin 1, nCombined := 1, sky := .fin 0 }

theorem c05Shapes : Shapes c05Input where
  cols := Nat.le_refl 1
  rows := Nat.le_refl 1
  data := rfl
  mask := by intro m code h; simp [c05Input] at h
  errs := by intro code h; simp [c05Input] at h

/-- Characteristics of `c05Input`. -/
noncomputable def c05Chars : Chars c05Input where
  gain := 1
  readNoise := 0
  expTime := 1
  sky := 0
  hgain := rfl
  hrn := rfl
  hexp := rfl
  hsky := rfl
  pgain := one_pos
  prn := le_refl _
  pexp := one_pos
  psky := le_refl _
  pn := le_refl _

theorem c05Used : Used c05Input 0 := ⟨trivial, ⟨1, rfl⟩, trivial⟩

theorem c05Run : ∃ s, runSetup c05Input = .ok (s, 0) := by
  refine ⟨runState c05Input c05Chars, ?_⟩
  have h0 : runStatus c05Input c05Chars = 0 := by
    rw [run_status c05Shapes]
    exact ⟨⟨0, Nat.zero_lt_one, c05Used⟩, fun z _ _ => ⟨1, zero_le_one, rfl⟩⟩
  rw [runSetup_eq (c := c05Chars) c05Shapes, h0]

/-- With model-based errors the full claim is false: the setup succeeds, the (finite) model image has the value -1, and chi-squared
is not a number. There is no guard for a non-positive noise estimate in `core/model_object.cpp:1345-1381`. -/
theorem C05_modelErrors_false :
    ∃ s, runSetup c05Input = .ok (s, 0) ∧ ∃ t, getFitStatistic (withModel s [fin (-1)]) = .ok (t, nan) := by
  obtain ⟨s, hs⟩ := c05Run
  refine ⟨s, hs, ?_⟩
  rw [runSetup_eq (c := c05Chars) c05Shapes] at hs
  simp only [Except.ok.injEq, Prod.mk.injEq] at hs
  obtain ⟨rfl, -⟩ := hs
  have sh := c05Shapes
  have f := setupFacts _ c05Chars sh
  have T0 := run_tabs (c := c05Chars) sh [fin (-1)] (by rw [run_nModelVals sh]; rfl)
  have hu : (withModel (runState _ c05Chars) [fin (-1)]).useCash = false := f.cash
  unfold getFitStatistic
  simp only [hu, Bool.false_eq_true, if_false]
  rw [chiSquared_eq T0]
  refine ⟨_, congrArg Except.ok (Prod.ext rfl ?_)⟩
  have hn : c05Input.n = 1 := rfl
  have himg : imgAt (runState c05Input c05Chars) [fin (-1)] 0 = fin (-1) := by
    unfold imgAt modelIndex
    have : (runState c05Input c05Chars).doConvolution = false := f.conv
    rw [this]; rfl
  have hw : upW (withModel (runState c05Input c05Chars) [fin (-1)]) (fMask c05Input) (fWeight c05Input c05Chars)
      (imgAt (runState c05Input c05Chars) [fin (-1)]) 0 = nan := by
    unfold upW
    have e1 : (withModel (runState c05Input c05Chars) [fin (-1)]).modelErrors = true := f.merr
    have e2 : (withModel (runState c05Input c05Chars) [fin (-1)]).effGain = fin c05Chars.effGain := f.eg
    have e3 : (withModel (runState c05Input c05Chars) [fin (-1)]).sky = fin c05Chars.sky := f.sky
    have e4 : (withModel (runState c05Input c05Chars) [fin (-1)]).nCombined = fin ((c05Input.nCombined : ℕ) : ℝ) := f.nc
    have e5 : (withModel (runState c05Input c05Chars) [fin (-1)]).readNoiseAduSq =
      fin (c05Chars.readNoise * c05Chars.readNoise / (c05Chars.effGain * c05Chars.effGain)) := f.rn
    have hm : fMask c05Input 0 = fin 1 := by unfold fMask; simp [c05Used]
    have hg : c05Chars.effGain = 1 := by simp [Chars.effGain, c05Chars, c05Input]
    have hr : c05Chars.readNoise = 0 := rfl
    have hk : c05Chars.sky = 0 := rfl
    rw [e1, e2, e3, e4, e5, himg, hm, hg, hr, hk]
    unfold modelWeight
    simp [fsqrt_fin]
    rfl
  rw [hn]
  have : tab 1 (fun z => upW (withModel (runState c05Input c05Chars) [fin (-1)]) (fMask c05Input)
      (fWeight c05Input c05Chars) (imgAt (runState c05Input c05Chars) [fin (-1)]) z *
      (fData c05Input z - imgAt (runState c05Input c05Chars) [fin (-1)] z)) = [nan] := by
    show [_ * _] = _
    rw [hw]; simp
  rw [this]
  have h1 : (fabs nan : XR) = nan := rfl
  have h2 : ∀ x : XR, flt x nan = false := by intro x; cases x <;> rfl
  have h3 : ∀ x : XR, fle nan x = false := by intro x; rfl
  have h4 : ∀ x : XR, nan / x = nan := by intro x; cases x <;> rfl
  have : mpEnorm [nan] = nan := by
    unfold mpEnorm enormFinish
    simp [enormStep, h1, h2, h3, h4, fne]
  rw [this]; rfl

/-- Example: the hypotheses hold for the one-pixel input with model value 3. -/
example : ∃ s, runSetup c05Input = .ok (s, 0) ∧ ∃ t v, getFitStatistic (withModel s [fin 3]) = .ok (t, fin v) ∧ v ≠ 0 := by
  obtain ⟨s, hs⟩ := c05Run
  have hm : modelAt c05Input [3] 0 = 3 := rfl
  have hg : c05Chars.effGain = 1 := by simp [Chars.effGain, c05Chars, c05Input]
  have hv : c05Chars.modelVariance 3 = 3 := by
    unfold Chars.modelVariance; rw [hg]; simp [c05Chars]
  obtain ⟨w, hw, H⟩ := C05_chi2_partial c05Input c05Chars c05Shapes s hs (by simp [c05Input]) [3] rfl
    (by
      intro _ z hz _
      have : z = 0 := by have hz : z < 1 := hz; omega
      subst this
      rw [hm, hv]; norm_num)
    (fun _ => 1) (by
      intro z hz _
      have : z = 0 := by have hz : z < 1 := hz; omega
      subst this; rfl)
  obtain ⟨-, t, v, h1, -, h2, -⟩ := H s _ Mode.plain
  refine ⟨s, hs, t, v, h1, ?_⟩
  rw [Ne, h2]
  intro h
  have := h 0 (by show 0 ∈ List.range 1; simp) c05Used
  rw [hm] at this
  obtain ⟨-, hp⟩ := hw 0 Nat.zero_lt_one c05Used
  unfold PixWeight at hp
  rw [if_pos (show c05Input.stat = .chi2Model from rfl), hm, hv] at hp
  rcases this with h0 | h0
  · rw [h0] at hp
    have := hp.2
    have h3 : (0 : ℝ) < 1 / Real.sqrt 3 := by positivity
    rw [← this] at h3; exact lt_irrefl _ h3
  · norm_num at h0

end Imfit
