import Verif.Model.BootErr1d
import Verif.Props.C21

/-!
# C116: the bootstrap errors of profile fits describe the resampled fits

`BootstrapErrors` of `profilefit` starts every fit of a resampled profile from the best-fit parameters. If some parameter has limits or is fixed, the line of each free parameter describes
the values of the parameter at the ends of all the fits, whatever their status: `C116_reported`.

It fails in these cases.

* Fits that fail are counted: their values enter the statistics (`C116_failed_false`; `imfit` leaves them out).
* If no parameter has limits and none is fixed, every parameter is reported as fixed and no error is printed (`C116_limits_false`).
* After a single round the standard deviation is not a number (`C116_single_false`).
-/

namespace Imfit

open XR

/-- The arrays after the rounds. -/
theorem rounds1_ok {α : Type} [FP α] (fit : Nat → List α → FitOut α) (best : Nat → α) (P : Nat → Nat → α) (nParams nIter : Nat)
    (hfit : ∀ k, k < nIter → (fit k (tab nParams best)).params = tab nParams (P k)) :
    rounds1 fit (tab nParams best) nParams nIter = .ok (tab nParams fun i => tab nIter fun k => P k i) := by
  have hst : loopMap nParams (fun i => rd (tab nParams best) i) = .ok (tab nParams best) := loopMap_ok _ _ _ fun i hi => rd_tab _ hi
  unfold rounds1
  rw [forN_ok nIter _ _ (fun z => tab nParams fun i => tab nIter fun k => if k < z then P k i else 0)]
  · congr 1
    refine tab_congr fun i _ => tab_congr fun k hk => ?_
    rw [if_pos hk]
  · simp [tab]
  · intro z hz
    rw [hst, ok_bind, hfit z hz]
    unfold storeFit1
    rw [forN_ok nParams _ _ (fun y => tab nParams fun i => tab nIter fun k => if k < z ∨ k = z ∧ i < y then P k i else 0)]
    · congr 1
      refine tab_congr fun i hi => tab_congr fun k _ => ?_
      by_cases h : k < z + 1
      · rw [if_pos h, if_pos]
        rcases Nat.lt_or_ge k z with h1 | h1
        · exact Or.inl h1
        · exact Or.inr ⟨by omega, hi⟩
      · rw [if_neg h, if_neg (by omega)]
    · refine tab_congr fun i hi => tab_congr fun k _ => ?_
      simp
    · intro y hy
      rw [rd_tab _ hy, ok_bind, rd_tab _ hy, ok_bind, wr_tab _ _ hz, ok_bind, wr_tab _ _ hy]
      congr 1
      refine tab_congr fun i hi => ?_
      by_cases h : i = y
      · subst h
        rw [if_pos rfl]
        refine tab_congr fun k _ => ?_
        by_cases h2 : k = z
        · subst h2; simp
        · simp [h2]
      · rw [if_neg h]
        refine tab_congr fun k _ => ?_
        have : (i < y + 1) ↔ i < y := by omega
        simp only [this]

/-- With limits, the summary is that of all the fits. -/
theorem C116_reported (fit : Nat → List XR → FitOut XR) (best : Nat → ℝ) (P : Nat → Nat → ℝ) (fixed : Nat → Bool) (nParams nIter : Nat) (h2 : 2 ≤ nIter)
    (hfit : ∀ k, k < nIter → (fit k (tab nParams fun i => fin (best i))).params = tab nParams fun i => fin (P k i)) :
    ∃ lines, bootstrapErrors1 fit (tab nParams fun i => fin (best i)) true (tab nParams fixed) nParams nIter = .ok lines ∧ lines.length = nParams ∧ ∀ i (hi : i < lines.length),
      (fixed i = true → lines[i] = .fixed (fin (best i))) ∧ (fixed i = false → Spec.Describes ((List.range nIter).map fun k => P k i) (best i) lines[i]) := by
  obtain ⟨lines, hl, hlen, hd⟩ := bootSummary_describes best (fun i => (List.range nIter).map fun k => P k i) fixed nParams nIter (by omega) (fun i _ => by simp)
  refine ⟨lines, ?_, hlen, fun i hi => ⟨(hd i hi).1, fun hf => ?_⟩⟩
  · unfold bootstrapErrors1
    rw [rounds1_ok fit _ (fun k i => fin (P k i)) nParams nIter hfit, ok_bind, ← hl]
    have e : (tab nParams fun i => tab nIter fun k => fin (P k i)) = tab nParams fun i => finL ((List.range nIter).map fun k => P k i) :=
      tab_congr fun i _ => by simp [tab, finL]
    rw [e]
    unfold bootSummary
    cases loopMap nParams (fun i => do
      let v ← rd (tab nParams fun i => finL ((List.range nIter).map fun k => P k i)) i
      stdDev v nIter) with
    | error => rfl
    | ok sig =>
      rw [ok_bind, ok_bind]
      congr 1
      funext i
      unfold line1
      rw [if_pos rfl]
      by_cases h : i < nParams
      · rw [rd_tab _ h, rd_tab _ h, rd_tab _ h]
        rfl
      · rw [rd_oob (by rw [tab_length]; omega), rd_oob (l := tab nParams fun i => fin (best i)) (by rw [tab_length]; omega)]
        rfl
  · have := (hd i hi).2 hf
    rwa [List.take_of_length_le (by simp)] at this

/-- A fit that fails and ends far away changes the result: three fits end at 10, the last one fails at 1000, and the mean that is reported is 257.5. -/
theorem C116_failed_false : ∃ b p m lo up h mean s : XR,
    bootstrapErrors1 (fun k _ => if k = 3 then ⟨-16, [fin 1000]⟩ else ⟨1, [fin 10]⟩) [fin 10] true [false] 1 4 = .ok [.free b p m lo up h mean s] ∧ mean = fin 257.5 ∧
    Spec.resampled (fun k => if k = 3 then -16 else 1) (fun _ _ => 10) (fun _ => 0) 4 0 = [10, 10, 10] := by
  obtain ⟨lines, hr, hl, hd⟩ := C116_reported (fun k _ => if k = 3 then ⟨-16, [fin 1000]⟩ else ⟨1, [fin 10]⟩) (fun _ => 10) (fun k _ => if k = 3 then 1000 else 10) (fun _ => false) 1 4 (by norm_num) (by
    intro k hk
    by_cases h : k = 3 <;> simp [tab, h])
  obtain ⟨ln, rfl⟩ := List.length_eq_one_iff.1 hl
  have h2 := (hd 0 (by simp)).2 rfl
  simp only [List.getElem_cons_zero] at h2
  cases ln with
  | fixed b => exact h2.elim
  | free b p m lo up hw mean s =>
    refine ⟨b, p, m, lo, up, hw, mean, s, hr, ?_, ?_⟩
    · obtain ⟨lo', up', m', s', -, -, -, -, -, -, hm, -, hsum, -⟩ := h2
      subst hm
      simp [List.range_succ] at hsum
      congr 1
      linarith
    · have hs : Spec.succeeded (fun k => if k = 3 then -16 else 1) 4 = [0, 1, 2] := by decide
      simp [Spec.resampled, hs]

/-- Without limits every parameter is reported as fixed. -/
theorem C116_limits_false (fit : Nat → List XR → FitOut XR) (best : Nat → ℝ) (P : Nat → Nat → ℝ) (fixed : List Bool) (nParams nIter : Nat) (h2 : 2 ≤ nIter)
    (hfit : ∀ k, k < nIter → (fit k (tab nParams fun i => fin (best i))).params = tab nParams fun i => fin (P k i)) :
    bootstrapErrors1 fit (tab nParams fun i => fin (best i)) false fixed nParams nIter = .ok (tab nParams fun i => .fixed (fin (best i))) := by
  have hsd : ∀ i, ∃ s, stdDev (finL ((List.range nIter).map fun k => P k i)) nIter = .ok s := by
    intro i
    obtain ⟨s, m, h, _⟩ := C22_stddev ((List.range nIter).map fun k => P k i) nIter (by omega) (by simp)
    exact ⟨_, h⟩
  choose sig hsig using hsd
  unfold bootstrapErrors1
  rw [rounds1_ok fit _ (fun k i => fin (P k i)) nParams nIter hfit, ok_bind]
  have e : (tab nParams fun i => tab nIter fun k => fin (P k i)) = tab nParams fun i => finL ((List.range nIter).map fun k => P k i) :=
    tab_congr fun i _ => by simp [tab, finL]
  rw [e, loopMap_ok nParams _ sig, ok_bind]
  · refine loopMap_ok _ _ _ fun i hi => ?_
    unfold line1
    rw [if_neg (by simp), ok_bind]
    beta_reduce
    rw [rd_tab _ hi, ok_bind, rd_tab _ hi, ok_bind, show (List.range nParams).map sig = tab nParams sig from rfl, rd_tab _ hi, ok_bind]
    rfl
  · intro i hi
    rw [rd_tab _ hi, ok_bind]
    exact hsig i

/-- One round: the standard deviation is not a number. -/
theorem C116_single_false (fit : Nat → List XR → FitOut XR) (best v : ℝ) (hfit : (fit 0 [fin best]).params = [fin v]) :
    bootstrapErrors1 fit [fin best] true [false] 1 1 = .ok [.free (fin best) (fin (v - best)) (fin (best - v)) (fin v) (fin v) (fin 0) (fin v) nan] := by
  have hr := rounds1_ok fit (fun _ => fin best) (fun _ _ => fin v) 1 1 (by
    intro k hk
    obtain rfl : k = 0 := by omega
    exact hfit)
  simp only [tab, List.range_one, List.map_cons, List.map_nil] at hr
  unfold bootstrapErrors1
  rw [hr, ok_bind]
  have hsd : stdDev [fin v] 1 = .ok nan := by
    have e1 : sumVals [fin v] 1 = .ok (fin v) := by simp [sumVals, forN, rd, zero_def]
    have e2 : sumSqDiff [fin v] 1 (fin v) = .ok (fin 0) := by simp [sumSqDiff, forN, rd, zero_def]
    unfold stdDev
    rw [e1, ok_bind, lit_def, fin_div_of_ne (by norm_num), show v / ((((1 : ℕ) : ℚ)) : ℝ) = v by norm_num, e2, ok_bind, zero_def, fle_fin, if_pos (by simp), lit_def]
    have hi : infSign 0 = nan := by simp [infSign]
    simp [fin_div_zero, hi]
  have hci : confInterval [fin v] 1 = .ok ([fin v], fin v, fin v) := by
    have l : ciLower 1 = 0 := by
      unfold ciLower roundHalfUp
      norm_num
    have u : ciUpper 1 = 0 := by
      unfold ciUpper roundHalfUp
      norm_num
    unfold confInterval
    have hs : sortVals [fin v] 1 = [fin v] := by simp [sortVals]
    rw [l, u, hs]
    rfl
  have hm : meanOf [fin v] 1 = .ok (fin v) := by
    have e1 : sumVals [fin v] 1 = .ok (fin v) := by simp [sumVals, forN, rd, zero_def]
    unfold meanOf
    rw [e1, ok_bind, lit_def, fin_div_of_ne (by norm_num)]
    simp
  have hl : loopMap 1 (fun i => do
      let v ← rd [[fin v]] i
      stdDev v 1) = .ok [nan] := loopMap_ok 1 _ (fun _ => nan) fun i hi => by
    obtain rfl : i = 0 := by omega
    exact hsd
  rw [hl, ok_bind]
  refine (loopMap_ok 1 _ (fun _ => _) fun i hi => ?_)
  obtain rfl : i = 0 := by omega
  have : line1 [fin best] [[fin v]] true [false] [nan] 1 0 = summaryLine (fin best) [fin v] false nan 1 := rfl
  rw [this]
  unfold summaryLine
  rw [if_neg (by simp), hci, ok_bind, hm, ok_bind]
  simp only [fin_sub, lit_def]
  rw [fin_div_of_ne (by norm_num), sub_self, zero_div]
  rfl

/-- Two parameters, the second fixed; three fits. -/
example : ∃ l, bootstrapErrors1 (fun k _ => ⟨1, [fin k, fin 7]⟩) [fin 1, fin 7] true [false, true] 2 3 = .ok [l, .fixed (fin 7)] ∧ Spec.Describes [0, 1, 2] 1 l := by
  obtain ⟨lines, hr, hl, hd⟩ := C116_reported (fun k _ => ⟨1, [fin k, fin 7]⟩) (fun i => if i = 0 then 1 else 7) (fun k i => if i = 0 then k else 7) (fun i => i == 1) 2 3 (by norm_num)
    (by intro k _; simp [tab, List.range_succ])
  obtain ⟨a, b, rfl⟩ := List.length_eq_two.1 hl
  have h0 := (hd 0 (by simp)).2 rfl
  have h1 := (hd 1 (by simp)).1 rfl
  simp only [List.getElem_cons_zero, List.getElem_cons_succ] at h0 h1
  refine ⟨a, ?_, by simpa [List.range_succ] using h0⟩
  rw [h1] at hr
  simpa [tab, List.range_succ] using hr

end Imfit
