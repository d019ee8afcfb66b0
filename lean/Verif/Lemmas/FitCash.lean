import Verif.Lemmas.FitStats

/-!
# Cash and Poisson-MLR statistics after setup
-/

namespace Imfit

open Spec XR

/-- Extra terms after setup. -/
noncomputable def fExtra (i : FitInput XR) (c : Chars i) (z : Nat) : XR :=
  if i.stat = .poissonMLR then extraCashTerm (fin c.effGain) (fin c.sky) (pix i.data z) else fin 0

theorem run_extra {i : FitInput XR} {c : Chars i} (sh : Shapes i) (hs : i.stat = .cash ∨ i.stat = .poissonMLR) :
    (runState i c).extraVec = some (tab i.n (fExtra i c)) := by
  have f := setupFacts i c sh
  show pex i.n (postSetup i c) (pix i.data) (postSetup i c).extraVec = _
  unfold pex
  rw [f.cash, f.mlr, f.eg, f.sky]
  rcases hs with hs | hs
  · have : fExtra i c = fun _ => fin 0 := by funext z; simp [fExtra, hs]
    rw [this, f.extra0 hs, hs]; simp
  · have : fExtra i c = fun z => extraCashTerm (fin c.effGain) (fin c.sky) (pix i.data z) := by
      funext z; simp [fExtra, hs]
    rw [this, hs]; simp

/-- The extra term of a finite or `-inf` data value is finite. -/
theorem extra_fin {g k : ℝ} (hg : 0 < g) (x : XR) (hx : x ≠ nan) (hx' : x ≠ pinf) :
    ∃ e, extraCashTerm (fin g) (fin k) x = fin e := by
  unfold extraCashTerm
  cases x with
  | fin r =>
    simp only [fin_add, fin_mul, zero_def, fle_fin]
    by_cases h : g * (r + k) ≤ 0
    · exact ⟨0, by simp [h]⟩
    · exact ⟨_, by simp [h, not_le.mp h]; rfl⟩
  | pinf => exact absurd rfl hx'
  | ninf =>
    have h1 : ninf + fin k = ninf := rfl
    have h2 : fin g * ninf = ninf := by
      show infSign (-g) = _
      simp [infSign, hg, not_lt.mpr hg.le]
    have h3 : (fle ninf (fin 0)) = true := rfl
    exact ⟨0, by simp [h1, h2, h3]⟩
  | nan => exact absurd rfl hx

theorem extra_nan (g k : ℝ) : extraCashTerm (fin g) (fin k) nan = nan := by
  unfold extraCashTerm
  have : (fle nan (fin 0)) = false := rfl
  simp [this]

theorem cashSum_congr {s s' : MO XR} {w d e w' d' e' f : Nat → XR} (n : Nat)
    (h : ∀ z, z < n → w z * cashTerm s.effGain s.sky (d z) (f z) (e z) =
      w' z * cashTerm s'.effGain s'.sky (d' z) (f z) (e' z)) :
    cashSum s w d f e n = cashSum s' w' d' f e' n := by
  induction n with
  | zero => rfl
  | succ n ih =>
    unfold cashSum
    rw [ih (fun z hz => h z (by omega)), h n (by omega)]

theorem cashSum_nan {s : MO XR} {w d e f : Nat → XR} (n z : Nat) (hz : z < n)
    (h : w z * cashTerm s.effGain s.sky (d z) (f z) (e z) = nan) : cashSum s w d f e n = nan := by
  induction n with
  | zero => omega
  | succ n ih =>
    unfold cashSum
    rcases Nat.lt_succ_iff_lt_or_eq.mp hz with hlt | rfl
    · rw [ih hlt]; simp
    · rw [h]; simp

variable {i j : FitInput XR}

/-- Masked pixels with finite extra terms: Cash terms agree. -/
theorem cash_term_eq (h : SameOnGood i j) {c : Chars i} (sh : Shapes i) (sh' : Shapes j)
    (hx : i.stat = .poissonMLR → ∀ z, z < i.n → ¬ Good i z →
      pix i.data z ≠ nan ∧ pix i.data z ≠ pinf ∧ pix j.data z ≠ nan ∧ pix j.data z ≠ pinf)
    (x : XR) {z : Nat} (hz : z < i.n) :
    fWeight i c z * cashTerm (fin c.effGain) (fin c.sky) (fData i z) x (fExtra i c z) =
    fWeight j (charsOf h c) z * cashTerm (fin c.effGain) (fin c.sky) (fData j z) x (fExtra j (charsOf h c) z) ∧
    lit 2 * fWeight i c z * fabs (cashTerm (fin c.effGain) (fin c.sky) (fData i z) x (fExtra i c z)) =
    lit 2 * fWeight j (charsOf h c) z *
      fabs (cashTerm (fin c.effGain) (fin c.sky) (fData j z) x (fExtra j (charsOf h c) z)) := by
  rw [← fWeight_eq h sh sh' hz]
  have hg := effGain_pos c
  by_cases hgood : Good i z
  · have he : fExtra i c z = fExtra j (charsOf h c) z := by
      unfold fExtra; rw [← h.stat, effGain_eq, h.data z hz hgood]; rfl
    rw [fData_eq h hz hgood, he]
    exact ⟨rfl, rfl⟩
  · have hu : ¬ Used i z := fun hu => hgood hu.1
    have hw : fWeight i c z = fin 0 := by unfold fWeight; simp [hu]
    have hl : (lit 2 : XR) * fin 0 = fin 0 := by simp
    rw [hw, hl]
    obtain ⟨a, ha⟩ := fData_fin i z
    obtain ⟨b, hb⟩ := fData_fin j z
    obtain ⟨e, he⟩ : ∃ e, fExtra i c z = fin e := by
      unfold fExtra
      by_cases hs : i.stat = .poissonMLR
      · have := hx hs z hz hgood
        simp only [hs, if_true]
        exact extra_fin hg _ this.1 this.2.1
      · exact ⟨0, by simp [hs]⟩
    obtain ⟨e', he'⟩ : ∃ e, fExtra j (charsOf h c) z = fin e := by
      unfold fExtra
      rw [← h.stat, effGain_eq]
      by_cases hs : i.stat = .poissonMLR
      · have := hx hs z hz hgood
        simp only [hs, if_true]
        exact extra_fin hg _ this.2.2.1 this.2.2.2
      · exact ⟨0, by simp [hs]⟩
    rw [ha, hb, he, he']
    refine ⟨?_, ?_⟩
    · rw [zmul, zmul, isfin_cashTerm hg, isfin_cashTerm hg]
    · rw [zmul, zmul, isfin_fabs, isfin_fabs, isfin_cashTerm hg, isfin_cashTerm hg]

end Imfit
