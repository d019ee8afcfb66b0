import Verif.Lemmas.FitCash

/-!
# C03 — masked pixels and the Cash / Poisson-MLR statistics

The full claim holds for the Cash statistic and fails for Poisson-MLR when a masked data value is NaN
(or `+inf`): the extra terms are computed from the data before non-finite masked values are replaced by 0
(`core/model_object.cpp:1017-1018` runs before line 1053), and `0 * NaN = NaN`.
-/

namespace Imfit

open Spec XR

/-- The full claim for one statistic: inputs that differ only at masked pixels give the same setup status, statistic and
deviates for every model image. -/
def C03Claim (i j : FitInput XR) : Prop :=
  ∃ s s' st, runSetup i = .ok (s, st) ∧ runSetup j = .ok (s', st) ∧
    ∀ img : List XR, img.length = padLen i →
      (∃ t t' y, computeDeviates (withModel s img) = .ok (t, y) ∧
        computeDeviates (withModel s' img) = .ok (t', y)) ∧
      (∃ t t' v, getFitStatistic (withModel s img) = .ok (t, v) ∧
        getFitStatistic (withModel s' img) = .ok (t', v))

private theorem c03_core (i j : FitInput XR) (h : SameOnGood i j) (c : Chars i) (sh : Shapes i) (sh' : Shapes j)
    (hs : i.stat = .cash ∨ i.stat = .poissonMLR)
    (hx : i.stat = .poissonMLR → ∀ z, z < i.n → ¬ Good i z →
      pix i.data z ≠ nan ∧ pix i.data z ≠ pinf ∧ pix j.data z ≠ nan ∧ pix j.data z ≠ pinf) :
    C03Claim i j := by
  refine ⟨runState i c, runState j (charsOf h c), runStatus i c, runSetup_eq sh, ?_, ?_⟩
  · rw [run_status_eq h sh sh']; exact runSetup_eq sh'
  · intro img hl
    have f := setupFacts i c sh
    have f' := setupFacts j (charsOf h c) sh'
    have T := run_tabs (c := c) sh img (by rw [run_nModelVals sh]; exact hl)
    have T' := run_tabs (c := charsOf h c) sh' img (by rw [run_nModelVals sh', ← padLen_eq h]; exact hl)
    rw [← imgAt_eq h sh sh', n_eq h] at T'
    have he : (withModel (runState i c) img).extraVec = some (tab i.n (fExtra i c)) := run_extra sh hs
    have he' : (withModel (runState j (charsOf h c)) img).extraVec =
        some (tab i.n (fExtra j (charsOf h c))) := by
      rw [← n_eq h]; exact run_extra sh' (by rw [← h.stat]; exact hs)
    have heg : (withModel (runState i c) img).effGain = fin c.effGain := f.eg
    have heg' : (withModel (runState j (charsOf h c)) img).effGain = fin c.effGain := by
      rw [← effGain_eq h]; exact f'.eg
    have hsk : (withModel (runState i c) img).sky = fin c.sky := f.sky
    have hsk' : (withModel (runState j (charsOf h c)) img).sky = fin c.sky := f'.sky
    have hterm := fun z (hz : z < i.n) =>
      cash_term_eq h (c := c) sh sh' hx (imgAt (runState i c) img z) hz
    constructor
    · by_cases hp : i.stat = .poissonMLR
      · have hm : (withModel (runState i c) img).poissonMLR = true := by
          show (postSetup i c).poissonMLR = true; rw [f.mlr]; simp [hp]
        have hm' : (withModel (runState j (charsOf h c)) img).poissonMLR = true := by
          show (postSetup j (charsOf h c)).poissonMLR = true; rw [f'.mlr, ← h.stat]; simp [hp]
        have e : ∀ z, z < i.n →
            mlrD (withModel (runState i c) img)
              (upW (withModel (runState i c) img) (fMask i) (fWeight i c) (imgAt (runState i c) img))
              (fData i) (imgAt (runState i c) img) (fExtra i c) z =
            mlrD (withModel (runState j (charsOf h c)) img)
              (upW (withModel (runState j (charsOf h c)) img) (fMask j) (fWeight j (charsOf h c))
                (imgAt (runState i c) img))
              (fData j) (imgAt (runState i c) img) (fExtra j (charsOf h c)) z := by
          intro z hz
          have hnm : (withModel (runState i c) img).modelErrors = false := by
            show (postSetup i c).modelErrors = false; rw [f.merr]; simp [hp]
          have hnm' : (withModel (runState j (charsOf h c)) img).modelErrors = false := by
            show (postSetup j (charsOf h c)).modelErrors = false; rw [f'.merr, ← h.stat]; simp [hp]
          unfold mlrD upW
          rw [heg, heg', hsk, hsk', hnm, hnm']
          simp only [Bool.false_and, Bool.false_eq_true, if_false]
          rw [(hterm z hz).2]
        rw [computeDeviates_mlr T hm he, computeDeviates_mlr T' hm' he', ← tab_congr e]
        exact ⟨_, _, _, rfl, rfl⟩
      · have hm : (withModel (runState i c) img).poissonMLR = false := by
          show (postSetup i c).poissonMLR = false; rw [f.mlr]; simp [hp]
        have hm' : (withModel (runState j (charsOf h c)) img).poissonMLR = false := by
          show (postSetup j (charsOf h c)).poissonMLR = false; rw [f'.mlr, ← h.stat]; simp [hp]
        have e := fun z (hz : z < i.n) => chiTerm_eq h (c := c) sh sh' img (imgAt (runState i c) img) hz
        rw [computeDeviates_eq T hm, computeDeviates_eq T' hm', ← tab_congr e]
        exact ⟨_, _, _, rfl, rfl⟩
    · have hu : (withModel (runState i c) img).useCash = true := by
        show (postSetup i c).useCash = true
        rw [f.cash]; rcases hs with hs | hs <;> rw [hs]
      have hu' : (withModel (runState j (charsOf h c)) img).useCash = true := by
        show (postSetup j (charsOf h c)).useCash = true
        rw [f'.cash, ← h.stat]; rcases hs with hs | hs <;> rw [hs]
      unfold getFitStatistic
      simp only [hu, hu', if_true]
      rw [cashStatistic_eq T he, cashStatistic_eq T' he']
      have e : cashSum (withModel (runState i c) img) (fWeight i c) (fData i) (imgAt (runState i c) img)
          (fExtra i c) i.n = cashSum (withModel (runState j (charsOf h c)) img) (fWeight j (charsOf h c)) (fData j)
          (imgAt (runState i c) img) (fExtra j (charsOf h c)) i.n := by
        apply cashSum_congr
        intro z hz
        rw [heg, heg', hsk, hsk']
        exact (hterm z hz).1
      rw [← e]
      exact ⟨_, _, _, rfl, rfl⟩

/-- Cash statistic: masked pixels have no influence, whatever they contain. -/
theorem C03_cash_ignores_masked (i j : FitInput XR) (h : SameOnGood i j) (c : Chars i) (sh : Shapes i) (sh' : Shapes j)
    (hs : i.stat = .cash) : C03Claim i j :=
  c03_core i j h c sh sh' (Or.inl hs) (by rw [hs]; intro h; cases h)

/-- Poisson-MLR, partial: masked pixels have no influence provided their data values are neither NaN nor `+inf`.
Missing from the full claim: masked NaN or `+inf` data values (see `C03_poissonMLR_masked_false`). -/
theorem C03_poissonMLR_ignores_masked_partial (i j : FitInput XR) (h : SameOnGood i j) (c : Chars i) (sh : Shapes i)
    (sh' : Shapes j) (hs : i.stat = .poissonMLR)
    (hx : ∀ z, z < i.n → ¬ Good i z →
      pix i.data z ≠ nan ∧ pix i.data z ≠ pinf ∧ pix j.data z ≠ nan ∧ pix j.data z ≠ pinf) : C03Claim i j :=
  c03_core i j h c sh sh' (Or.inr hs) (fun _ => hx)

/-- With Poisson-MLR, a NaN anywhere in the data image (masked or not) makes the statistic NaN
for every model image. -/
theorem C03_poissonMLR_nan (i : FitInput XR) (c : Chars i) (sh : Shapes i) (hs : i.stat = .poissonMLR)
    (z : Nat) (hz : z < i.n) (hnan : pix i.data z = nan) :
    ∃ s st, runSetup i = .ok (s, st) ∧ ∀ img : List XR, img.length = padLen i →
      ∃ t, getFitStatistic (withModel s img) = .ok (t, nan) := by
  refine ⟨runState i c, _, runSetup_eq sh, ?_⟩
  intro img hl
  have f := setupFacts i c sh
  have T := run_tabs (c := c) sh img (by rw [run_nModelVals sh]; exact hl)
  have he : (withModel (runState i c) img).extraVec = some (tab i.n (fExtra i c)) := run_extra sh (Or.inr hs)
  have hu : (withModel (runState i c) img).useCash = true := by
    show (postSetup i c).useCash = true
    rw [f.cash, hs]
  unfold getFitStatistic
  simp only [hu, if_true]
  rw [cashStatistic_eq T he]
  have : cashSum (withModel (runState i c) img) (fWeight i c) (fData i) (imgAt (runState i c) img)
      (fExtra i c) i.n = nan := by
    apply cashSum_nan i.n z hz
    have he : fExtra i c z = nan := by
      unfold fExtra; simp only [hs, if_true, hnan]; exact extra_nan _ _
    rw [he]
    unfold cashTerm
    simp
  rw [this]
  exact ⟨_, by simp; rfl⟩

/-- Two-pixel Poisson-MLR input, second pixel masked, with a given second data value. -/
noncomputable def c03Input (x : XR) : FitInput XR :=
  { nCols := 2, nRows := 1, data := [.fin 1, x], psf := none, mask := some ([.fin 0, .fin 1], 10), errors := [],
    stat := .poissonMLR, gain := .fin 1, readNoise := .fin 0, expTime := .fin 1, nCombined := 1, sky := .fin 0 }

theorem c03Shapes (x : XR) : Shapes (c03Input x) where
  cols := Nat.le_succ 1
  rows := Nat.le_refl 1
  data := rfl
  mask := by
    intro m code h
    simp only [c03Input, Option.some.injEq, Prod.mk.injEq] at h
    obtain ⟨rfl, rfl⟩ := h
    exact ⟨rfl, Or.inl rfl⟩
  errs := by intro code h; simp [c03Input] at h

/-- Characteristics of `c03Input`. -/
noncomputable def c03Chars (x : XR) : Chars (c03Input x) where
  gain := 1
  readNoise := 0
  expTime := 1
  sky := 0
  hgain := rfl
  hrn := rfl
  hexp := rfl
  hsky := rfl
  pgain := one_pos
  prn := le_refl _
  pexp := one_pos
  psky := le_refl _
  pn := le_refl _

theorem c03Good0 (x : XR) : Good (c03Input x) 0 := by simp [Good, c03Input, MaskGood, pix]
theorem c03Good1 (x : XR) : ¬ Good (c03Input x) 1 := by simp [Good, c03Input, MaskGood, pix]

theorem c03Same (x y : XR) : SameOnGood (c03Input x) (c03Input y) where
  cols := rfl
  rows := rfl
  psf := rfl
  mask := rfl
  stat := rfl
  gain := rfl
  rn := rfl
  exp := rfl
  ncomb := rfl
  sky := rfl
  data := by
    intro z hz hg
    have hz : z < 2 := hz
    match z, hz with
    | 0, _ => rfl
    | 1, _ => exact absurd hg (c03Good1 x)
  errs := by
    intro z _ _; rfl

/-- The value for a masked finite pixel is a number. -/
theorem c03_finite : ∃ s st, runSetup (c03Input (.fin 1)) = .ok (s, st) ∧
    ∃ t v, getFitStatistic (withModel s [.fin 1, .fin 1]) = .ok (t, fin v) := by
  have sh := c03Shapes (.fin 1)
  let c := c03Chars (.fin 1)
  refine ⟨runState _ c, _, runSetup_eq sh, ?_⟩
  have f := setupFacts _ c sh
  have T := run_tabs (c := c) sh [.fin 1, .fin 1] (by rw [run_nModelVals sh]; rfl)
  have he : (withModel (runState _ c) [.fin 1, .fin 1]).extraVec = some (tab 2 (fExtra _ c)) :=
    run_extra sh (Or.inr rfl)
  have hu : (withModel (runState _ c) [.fin 1, .fin 1]).useCash = true := f.cash
  unfold getFitStatistic
  simp only [hu, if_true]
  rw [cashStatistic_eq T he]
  have hg := effGain_pos c
  have hconv : (runState _ c).doConvolution = false := f.conv
  have hterm : ∀ z, z < 2 → ∃ r, fWeight _ c z * cashTerm (fin c.effGain) (fin c.sky) (fData (c03Input (.fin 1)) z)
      (imgAt (runState _ c) [.fin 1, .fin 1] z) (fExtra _ c z) = fin r := by
    intro z hz
    have hdat : ∃ r, pix (c03Input (.fin 1)).data z = fin r := by
      match z, hz with
      | 0, _ => exact ⟨1, rfl⟩
      | 1, _ => exact ⟨1, rfl⟩
    obtain ⟨r, hr⟩ := hdat
    obtain ⟨a, ha⟩ := fData_fin (c03Input (.fin 1)) z
    obtain ⟨e, hee⟩ : ∃ e, fExtra _ c z = fin e := by
      unfold fExtra
      have : (c03Input (.fin 1)).stat = .poissonMLR := rfl
      simp only [this, if_true]
      rw [hr]; exact extra_fin hg _ (by simp) (by simp)
    have hx : ∃ x, imgAt (runState _ c) [.fin 1, .fin 1] z = fin x := by
      unfold imgAt modelIndex
      rw [hconv]
      match z, hz with
      | 0, _ => exact ⟨1, rfl⟩
      | 1, _ => exact ⟨1, rfl⟩
    obtain ⟨x, hx⟩ := hx
    have hw : ∃ w, fWeight _ c z = fin w := by
      unfold fWeight
      by_cases hu : Used (c03Input (.fin 1)) z
      · refine ⟨1, ?_⟩
        simp only [hu, if_true]
        exact ((weightIs_iff sh f z hu 1).2 ⟨zero_le_one, rfl⟩).2
      · exact ⟨0, by simp [hu]⟩
    obtain ⟨w, hw⟩ := hw
    rw [ha, hee, hx, hw]
    have := isfin_cashTerm hg c.sky a e (fin x)
    obtain ⟨t, ht⟩ := (isfin_iff _).1 (this.trans rfl)
    exact ⟨w * t, by rw [ht]; rfl⟩
  have heg : (withModel (runState _ c) [.fin 1, .fin 1]).effGain = fin c.effGain := f.eg
  have hsk : (withModel (runState _ c) [.fin 1, .fin 1]).sky = fin c.sky := f.sky
  obtain ⟨r0, h0⟩ := hterm 0 (by decide)
  obtain ⟨r1, h1⟩ := hterm 1 (by decide)
  have hsum : cashSum (withModel (runState _ c) [.fin 1, .fin 1]) (fWeight _ c) (fData (c03Input (.fin 1)))
      (imgAt (runState _ c) [.fin 1, .fin 1]) (fExtra _ c) 2 = fin (0 + r0 + r1) := by
    simp only [cashSum, heg, hsk, h0, h1]
    simp
  have hn : (c03Input (.fin 1)).n = 2 := rfl
  rw [hn, hsum]
  exact ⟨_, 2 * (0 + r0 + r1), by simp; rfl⟩

/-- Poisson-MLR: the full claim is false. Masked pixel NaN against masked pixel 1. -/
theorem C03_poissonMLR_masked_false :
    ¬ ∀ (i j : FitInput XR) (_ : SameOnGood i j) (_ : Chars i) (_ : Shapes i) (_ : Shapes j),
      i.stat = .poissonMLR → C03Claim i j := by
  intro H
  obtain ⟨s, s', st, h1, h2, h3⟩ := H (c03Input .nan) (c03Input (.fin 1)) (c03Same _ _) (c03Chars _) (c03Shapes _)
    (c03Shapes _) rfl
  obtain ⟨_, t, t', v, hv, hv'⟩ := h3 [.fin 1, .fin 1] rfl
  obtain ⟨s0, st0, g1, g2⟩ := C03_poissonMLR_nan (c03Input .nan) (c03Chars _) (c03Shapes _) rfl 1 (by decide) rfl
  obtain ⟨s1, st1, k1, t1, v1, k2⟩ := c03_finite
  rw [h1] at g1
  rw [h2] at k1
  simp only [Except.ok.injEq, Prod.mk.injEq] at g1 k1
  obtain ⟨rfl, _⟩ := g1
  obtain ⟨rfl, _⟩ := k1
  obtain ⟨t2, g3⟩ := g2 [.fin 1, .fin 1] rfl
  rw [hv] at g3
  rw [hv'] at k2
  simp only [Except.ok.injEq, Prod.mk.injEq] at g3 k2
  rw [g3.2] at k2
  cases k2.2

/-- Cash: the hypotheses hold for masked NaN against masked 7. -/
example : C03Claim { c03Input .nan with stat := .cash } { c03Input (.fin 7) with stat := .cash } := by
  have hS : ∀ x, Shapes { c03Input x with stat := .cash } := fun x =>
    ⟨(c03Shapes x).cols, (c03Shapes x).rows, (c03Shapes x).data, (c03Shapes x).mask, by intro code h; simp at h⟩
  have hC : Chars { c03Input .nan with stat := .cash } :=
    ⟨1, 0, 1, 0, rfl, rfl, rfl, rfl, one_pos, le_refl _, one_pos, le_refl _, le_refl _⟩
  have hg : ∀ z, Good { c03Input .nan with stat := .cash } z ↔ Good (c03Input .nan) z := fun z => Iff.rfl
  have hsame : SameOnGood { c03Input .nan with stat := .cash } { c03Input (.fin 7) with stat := .cash } :=
    ⟨rfl, rfl, rfl, rfl, rfl, rfl, rfl, rfl, rfl, rfl, (c03Same .nan (.fin 7)).data, fun _ _ _ => rfl⟩
  exact C03_cash_ignores_masked _ _ hsame hC (hS _) (hS _) rfl

/-- Poisson-MLR: the hypotheses of the partial theorem hold for masked 3 against masked 7. -/
example : C03Claim (c03Input (.fin 3)) (c03Input (.fin 7)) := by
  refine C03_poissonMLR_ignores_masked_partial _ _ (c03Same _ _) (c03Chars _) (c03Shapes _) (c03Shapes _) rfl ?_
  intro z hz hg
  have hz : z < 2 := hz
  match z, hz with
  | 0, _ => exact absurd (c03Good0 _) hg
  | 1, _ => simp [c03Input, pix]

end Imfit
