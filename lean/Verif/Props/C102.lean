import Verif.Lemmas.ProfileRun
import Mathlib.Tactic.IntervalCases

/-!
# C102: profiles seen through a PSF

With a PSF `profilefit` evaluates the model on an enlarged range of positions and convolves it with the normalised PSF by Fourier transforms. For data points at equal
distances the result at every data point, also at the ends, is the sum of the model at the neighbouring positions with the PSF as weights, its centre being the point
`nPSF / 2`.

Positions at other distances are accepted without a message, and the neighbouring points are used as if they were at equal distances; the enlarged range has the distance of the
first two. A profile with one point and a PSF reads beyond the positions.
-/

namespace Imfit

open Spec XR

/-- The model at the data points, for positions at equal distances. -/
theorem C102_seen_partial (i : ProfIn) (X : Nat → ℝ) (y : Nat → XR) (σ : Nat → ℝ) (bad : Nat → Bool) (h : ProfOK i X y σ bad) (hσ : ∀ z, z < i.n → 0 < σ z)
    (p : Nat) (P : Nat → ℝ) (hp : i.psf = some (tab p fun k => fin (P k))) (hp0 : 0 < p) (hP : ∑ k ∈ Finset.range p, P k ≠ 0) (dx : ℝ) (hn : 2 ≤ i.n)
    (hX : EvenlySpaced i.n X dx) (sets : List FnSet) (hok : SetsOK sets) (hf : i.fns = modelFns sets) (zp : ℝ) (hz : i.zp = fin zp)
    (hpos : i.mags = true → ∀ z, z < i.n → 0 < seen p P dx (intensity zp sets) (X z)) :
    ∃ s, setupProfile i = .ok s ∧
      (do let t ← createModel1 s ((modelPars sets).map fin); getModelVector1 t) =
        .ok (some (tab i.n fun z => fin (if i.mags then mag zp (seen p P dx (intensity zp sets) (X z)) else seen p P dx (intensity zp sets) (X z)))) := by
  obtain ⟨s, h1, hb, h3, h4, h5, hs⟩ := setupProfile_eq h hσ (.some p P hp hp0 hP) fun _ => hn
  refine ⟨s, h1, ?_⟩
  rw [getModel1_at hb.nData (h4.trans hz) (h3.trans hf) hok hs]
  congr 2
  refine tab_congr fun z hz => ?_
  rw [seenAt_even hn hX P _ hz, h5, asData_fin fun hm => hpos hm z hz]

/-- Without a PSF the model at the data points is the sum of the functions. -/
theorem C102_plain (i : ProfIn) (X : Nat → ℝ) (y : Nat → XR) (σ : Nat → ℝ) (bad : Nat → Bool) (h : ProfOK i X y σ bad) (hσ : ∀ z, z < i.n → 0 < σ z)
    (hp : i.psf = none) (sets : List FnSet) (hok : SetsOK sets) (hf : i.fns = modelFns sets) (zp : ℝ) (hz : i.zp = fin zp)
    (hpos : i.mags = true → ∀ z, z < i.n → 0 < intensity zp sets (X z)) :
    ∃ s, setupProfile i = .ok s ∧
      (do let t ← createModel1 s ((modelPars sets).map fin); getModelVector1 t) =
        .ok (some (tab i.n fun z => fin (if i.mags then mag zp (intensity zp sets (X z)) else intensity zp sets (X z)))) := by
  obtain ⟨s, h1, hb, h3, h4, h5, hs⟩ := setupProfile_eq h hσ (.none hp) fun h => by cases h
  refine ⟨s, h1, ?_⟩
  rw [getModel1_at hb.nData (h4.trans hz) (h3.trans hf) hok hs]
  congr 2
  refine tab_congr fun z hz => ?_
  rw [h5]
  exact asData_fin fun hm => hpos hm z hz

/-- A flat profile stays flat, up to the ends. -/
theorem C102_flat (p : Nat) (P : Nat → ℝ) (hP : ∑ k ∈ Finset.range p, P k ≠ 0) (dx c x : ℝ) : seen p P dx (fun _ => c) x = c := by
  unfold seen
  rw [← Finset.sum_mul, mul_div_right_comm, div_self hP, one_mul]

/-- A PSF with all its light at the centre changes nothing, whatever its number of points. -/
theorem C102_point (p : Nat) (hp : 0 < p) (a : ℝ) (ha : a ≠ 0) (dx : ℝ) (f : ℝ → ℝ) (x : ℝ) : seen p (fun k => if k = p / 2 then a else 0) dx f x = f x := by
  unfold seen
  have hm : p / 2 ∈ Finset.range p := Finset.mem_range.2 (by omega)
  simp only [ite_mul, zero_mul, Finset.sum_ite_eq', hm, if_true, sub_self, sub_zero]
  rw [mul_comm, mul_div_assoc, div_self ha, mul_one]

/-- Positions 0, 1 and 3, a PSF with three equal values and a `Delta-1D` of intensity 3 at 1. -/
noncomputable def c102In (xs : List XR) (n : Nat) : ProfIn := ⟨modelFns [⟨1, [(.delta, [3])]⟩], fin 0, false, n, xs, List.replicate n 0, none, none, some [1, 1, 1]⟩

theorem c102_ok : SetsOK [⟨1, [(.delta, [3])]⟩] := by
  intro s hs
  simp only [List.mem_cons, List.not_mem_nil, or_false] at hs
  subst hs
  refine ⟨by simp, ?_⟩
  intro f hf
  simp only [List.mem_cons, List.not_mem_nil, or_false] at hf
  subst hf
  trivial

theorem c102_profOK (X : Nat → ℝ) (n : Nat) : ProfOK (c102In (tab n fun z => fin (X z)) n) X (fun _ => 0) (fun _ => 1) fun _ => false :=
  ⟨rfl, by rw [← replicate_eq_tab]; rfl, .inl ⟨rfl, fun _ => rfl⟩, .inl ⟨rfl, fun _ => rfl⟩⟩

theorem c102_psf (X : List XR) (n : Nat) : (c102In X n).psf = some (tab 3 fun _ => fin 1) := rfl

theorem c102_int (x : ℝ) : intensity 0 [⟨1, [(.delta, [3])]⟩] x = if x = 1 then 3 else 0 := by
  simp [intensity, terms, Fun1.ref]

/-- For positions at different distances the result is wrong: at 3, two steps of the PSF away from the only position with light, the model is a third of it. -/
theorem C102_uneven_false : ∃ s, setupProfile (c102In [fin 0, fin 1, fin 3] 3) = .ok s ∧
    (do let t ← createModel1 s [fin 1, fin 3]; getModelVector1 t) = .ok (some [fin 1, fin 1, fin 1]) ∧
    seen 3 (fun _ => 1) 1 (intensity 0 [⟨1, [(.delta, [3])]⟩]) 3 = 0 := by
  let X : Nat → ℝ := fun z => if z = 2 then 3 else z
  have hx : [fin 0, fin 1, fin 3] = tab 3 fun z => fin (X z) := by simp [tab, List.range_succ, X]
  have hP : ∑ k ∈ Finset.range 3, (fun _ => (1 : ℝ)) k ≠ 0 := by simp
  obtain ⟨s, h1, hb, h3, h4, h5, hs⟩ := setupProfile_eq (c102_profOK X 3) (fun _ _ => one_pos) (.some 3 _ (c102_psf _ 3) (by norm_num) hP) fun _ => by decide
  rw [← hx] at h1
  refine ⟨s, h1, ?_, ?_⟩
  · have := getModel1_at (zp := 0) hb.nData h4 h3 c102_ok hs
    refine Eq.trans this ?_
    rw [h5]
    have hw : ∀ j, wideX 3 3 X j = if j = 5 then 3 else if j < 5 then (j : ℝ) - 3 else (j : ℝ) - 2 := by
      intro j
      unfold wideX
      rcases Nat.lt_or_ge j 3 with h | h
      · rw [if_pos h, if_neg (by omega), if_pos (by omega)]
        simp [X]
        ring
      · rw [if_neg (by omega)]
        rcases Nat.lt_or_ge j 6 with h' | h'
        · rw [if_pos (by omega)]
          interval_cases j <;> simp [X] <;> norm_num
        · rw [if_neg (by omega), if_neg (by omega), if_neg (by omega), show j - 3 - 3 = j - 6 by omega, Nat.cast_sub h']
          simp [X]
          ring
    have hn : (c102In (tab 3 fun z => fin (X z)) 3).n = 3 := rfl
    have hm : (c102In (tab 3 fun z => fin (X z)) 3).mags = false := rfl
    simp only [hn, hm]
    have e : ∀ z, z < 3 → asData false 0 (seenAt 3 X (intensity 0 [⟨1, [(.delta, [3])]⟩]) z (some (3, fun _ => 1))) = fin 1 := by
      intro z hz
      simp only [asData, seenAt, Finset.sum_range_succ, Finset.sum_range_zero, c102_int, hw]
      interval_cases z <;> norm_num
    rw [tab_congr e]
    simp [tab, List.range_succ]
  · simp only [seen, Finset.sum_range_succ, Finset.sum_range_zero, c102_int]
    norm_num

/-- A profile of one point with a PSF. -/
theorem C102_onePoint_false (i : ProfIn) (X : Nat → ℝ) (y : Nat → XR) (σ : Nat → ℝ) (bad : Nat → Bool) (h : ProfOK i X y σ bad) (hσ : ∀ z, z < i.n → 0 < σ z)
    (p : Nat) (P : Nat → ℝ) (hp : i.psf = some (tab p fun k => fin (P k))) (hp0 : 0 < p) (hP : ∑ k ∈ Finset.range p, P k ≠ 0) (hn : i.n = 1) :
    setupProfile i = .error .oob := by
  have he : i.errs.getD (List.replicate i.n 1) = tab i.n fun z => fin (σ z) := by
    rcases h.errs with ⟨h1, h3⟩ | h1
    · rw [h1, Option.getD_none, replicate_eq_tab]
      exact tab_congr fun z _ => by rw [h3 z]; rfl
    · rw [h1, Option.getD_some]
  unfold setupProfile
  simp only [he]
  rw [addError1_eq (n := i.n) (σ := σ) rfl rfl rfl fun z hz => (hσ z hz).ne', ok_bind]
  obtain ⟨b', h3, h4, h5⟩ := setupMask1_eq h (s := { addData1 (p1Init i.fns i.zp) i.n i.xs i.ys i.mags with
    base := { (addData1 (p1Init i.fns i.zp) i.n i.xs i.ys i.mags).base with weightVec := some (tab i.n fun z => fin (1 / σ z)), weightValsSet := true } }) rfl rfl rfl
  rw [h3, ok_bind]
  unfold setupPsf1
  rw [hp]
  simp only [h5, tab_length]
  obtain ⟨f, hf, -⟩ := convolve1_eq (i.n + 2 * p) p P (fun _ => 0) (by omega) hp0 hP
  rw [hf, ok_bind]
  unfold addPsf1
  simp only [h5]
  have hx : modelX1 i.n p (addData1 (p1Init i.fns i.zp) i.n i.xs i.ys i.mags).dataX = .error .oob := by
    show modelX1 i.n p i.xs = .error .oob
    unfold modelX1
    rw [rd_oob (by rw [h.xs, tab_length, hn])]
    rfl
  rw [hx]
  rfl

/-- Positions at equal distances: all three points are within one step of the light at 1. -/
example : ∃ s, setupProfile (c102In [fin 0, fin 1, fin 2] 3) = .ok s ∧
    (do let t ← createModel1 s [fin 1, fin 3]; getModelVector1 t) = .ok (some [fin 1, fin 1, fin 1]) := by
  have hx : [fin 0, fin 1, fin 2] = tab 3 fun z => fin (z : ℝ) := by simp [tab, List.range_succ]
  have h := C102_seen_partial (c102In [fin 0, fin 1, fin 2] 3) (fun z => z) (fun _ => 0) (fun _ => 1) (fun _ => false) (by rw [hx]; exact c102_profOK _ 3) (fun _ _ => one_pos) 3
    (fun _ => 1) (c102_psf _ 3) (by norm_num) (by simp) 1 (by decide) (fun z _ => by simp) [⟨1, [(.delta, [3])]⟩] c102_ok rfl 0 rfl (fun h => by cases h)
  obtain ⟨s, h1, h2⟩ := h
  refine ⟨s, h1, Eq.trans h2 ?_⟩
  have hm : (c102In [fin 0, fin 1, fin 2] 3).mags = false := rfl
  have hn : (c102In [fin 0, fin 1, fin 2] 3).n = 3 := rfl
  simp only [hm, hn, seen, Finset.sum_range_succ, Finset.sum_range_zero, c102_int, tab, List.range_succ]
  norm_num

end Imfit
