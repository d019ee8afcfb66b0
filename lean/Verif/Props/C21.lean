import Verif.Lemmas.BootErr
import Verif.Props.C22

/-!
# C21 — bootstrap statistics describe the successful resamplings

The fits are an arbitrary oracle: status `st k` and parameter values `P k i` of iteration `k`. `O i` are the offsets added to the stored values.

The property is **false** of the code when some (but not too many) fits fail: the summary functions are given the number of iterations requested,
so the zeros in the unused part of the arrays enter all statistics (`C21_false`). Proved: the results are collected correctly
(`C21_collect`, `C21_collect_flat`); the reported numbers are the statistics of the zero-padded rows (`C21_reported`); when every fit succeeds these
are the statistics of the resamplings (`C21_partial`); passing the returned count instead would be right for every pattern of failures
(`C21_count_fix`); fixed parameters are reported unchanged. The multi-image summary has its own defects (`C21_multi_labels_false`,
`C21_multi_repeats_false`, `C21_multi_single_false`).
-/

namespace Imfit

open XR

/-- What a summary line must say about a sample of values and a best-fit value. -/
def Spec.Describes (vals : List ℝ) (best : ℝ) : SumLine XR → Prop
  | .fixed _ => False
  | .free b plus minus lower upper half mean sigma => ∃ lo up m s : ℝ,
      b = fin best ∧ plus = fin (up - best) ∧ minus = fin (best - lo) ∧ lower = fin lo ∧ upper = fin up ∧ half = fin ((up - lo) / 2) ∧
      mean = fin m ∧ sigma = fin s ∧
      -- mean and standard deviation of the sample
      m * vals.length = vals.sum ∧ 0 ≤ s ∧ s ^ 2 * ((vals.length : ℝ) - 1) = (vals.map fun x => (x - m) ^ 2).sum ∧
      -- 68 % interval of the sample
      lo ∈ vals ∧ up ∈ vals ∧ lo ≤ up ∧
      (683 : ℚ) / 1000 * vals.length ≤ (vals.countP fun x => decide (lo ≤ x) && decide (x ≤ up) : ℚ) ∧
      (vals.countP fun x => decide (lo < x) && decide (x < up) : ℚ) ≤ (683 : ℚ) / 1000 * vals.length + 1

/-- The successful iterations, in order. -/
def Spec.succeeded (st : Nat → Int) (n : Nat) : List Nat := (List.range n).filter fun k => decide (0 < st k)

/-- The resampled values of parameter `i`, in order. -/
def Spec.resampled (st : Nat → Int) (P : Nat → Nat → ℝ) (O : Nat → ℝ) (n i : Nat) : List ℝ :=
  (Spec.succeeded st n).map fun k => P k i + O i

/-- The loop collects exactly the successful results, in order, each parameter in its own row with the offset added. -/
theorem C21_collect {α : Type} [FP α] (st : Nat → Int) (P : Nat → Nat → α) (O : Nat → α) (nParams nIter : Nat) :
    ∃ arr, bootstrapBase (fun k => ⟨st k, (List.range nParams).map (P k)⟩) ((List.range nParams).map O) nParams nIter =
        .ok (arr, (Spec.succeeded st nIter).length) ∧ arr.length = nParams ∧
      ∀ i (hi : i < arr.length), (arr[i]).take (Spec.succeeded st nIter).length = (Spec.succeeded st nIter).map (fun k => P k i + O i) ∧
        (arr[i]).length = nIter := by
  refine ⟨_, bootstrapBase_ok st P O nParams nIter, tab_length _ _, fun i hi => ?_⟩
  rw [getElem_tab]
  refine ⟨?_, rowOf_length _ _ _ _ _ _ (le_refl _)⟩
  unfold resRow
  rw [List.take_append_of_le_length (by simp [Spec.succeeded, okIters])]
  rw [List.take_of_length_le (by simp [Spec.succeeded, okIters])]
  rfl

/-- The one-dimensional version: the `m`-th success occupies the `m`-th block, the rest of the caller's array is untouched. -/
theorem C21_collect_flat {α : Type} [FP α] (st : Nat → Int) (P : Nat → Nat → α) (O : Nat → α) (nParams nIter : Nat) (out : List α)
    (hout : nIter * nParams ≤ out.length) :
    bootstrapFlat (fun k => ⟨st k, (List.range nParams).map (P k)⟩) ((List.range nParams).map O) nParams nIter out =
      .ok ((Spec.succeeded st nIter).flatMap (fun k => (List.range nParams).map fun i => P k i + O i) ++
        out.drop ((Spec.succeeded st nIter).length * nParams), (Spec.succeeded st nIter).length) :=
  bootstrapFlat_ok st P O nParams nIter out hout

theorem summaryLine_describes (l : List ℝ) (n : Nat) (h1 : 1 < n) (hn : n ≤ l.length) (b : ℝ) (sig : XR) (hs : stdDev (finL l) n = .ok sig) :
    ∃ ln, summaryLine (fin b) (finL l) false sig n = .ok ln ∧ Spec.Describes (l.take n) b ln := by
  have h0 : 0 < n := by omega
  obtain ⟨s, lo, up, hc, hperm, hsort, hlo, hup, hle⟩ := C22_interval l n h0 hn
  obtain ⟨s', lo', up', hc', hcov, hin⟩ := C22_coverage l n h0 hn
  rw [hc] at hc'
  simp only [Except.ok.injEq, Prod.mk.injEq, XR.fin.injEq] at hc'
  obtain ⟨_, rfl, rfl⟩ := hc'
  obtain ⟨sd, m, hsd, hsd0, hm, hsq⟩ := C22_stddev l n h1 hn
  rw [hsd] at hs
  have hs := (Except.ok.inj hs).symm
  subst hs
  have hlen : s.length = n := by rw [hperm.length_eq, List.length_take]; omega
  have hmean : meanOf (finL (s ++ l.drop n)) n = .ok (fin m) := by
    rw [meanOf_prefix _ n h0 (by rw [List.length_append]; omega), List.take_left' hlen, hperm.sum_eq, ← hm]
    have : (n : ℝ) ≠ 0 := by exact_mod_cast h0.ne'
    rw [mul_div_assoc, div_self this, mul_one]
  have hl2 : (l.take n).length = n := by rw [List.length_take]; omega
  refine ⟨.free (fin b) (fin (up - b)) (fin (b - lo)) (fin lo) (fin up) (fin ((up - lo) / 2)) (fin m) (fin sd), ?_,
    lo, up, m, sd, rfl, rfl, rfl, rfl, rfl, rfl, rfl, rfl, ?_, hsd0, ?_, hlo, hup, hle, ?_, ?_⟩
  · unfold summaryLine
    simp only [Bool.false_eq_true, if_false, hc, ok_bind, hmean, fin_sub, lit_def, pure_eq_ok]
    rw [fin_div_of_ne (by norm_num)]
    norm_num
  · rw [hl2]; exact hm
  · rw [hl2]; exact hsq
  · rw [hl2]; exact hcov
  · rw [hl2]; exact hin

/-- The summary over arrays whose rows are finite, given the count `n`. -/
theorem bootSummary_describes (best : Nat → ℝ) (row : Nat → List ℝ) (fixed : Nat → Bool) (nParams n : Nat) (h1 : 1 < n)
    (hrow : ∀ i, i < nParams → n ≤ (row i).length) :
    ∃ lines, bootSummary (tab nParams fun i => fin (best i)) (tab nParams fun i => finL (row i)) (tab nParams fixed) nParams n = .ok lines ∧
      lines.length = nParams ∧ ∀ i (hi : i < lines.length),
        (fixed i = true → lines[i] = .fixed (fin (best i))) ∧
        (fixed i = false → Spec.Describes ((row i).take n) (best i) lines[i]) := by
  have hsd : ∀ i, ∃ s, i < nParams → stdDev (finL (row i)) n = .ok s := by
    intro i
    by_cases hi : i < nParams
    · obtain ⟨s, m, h, _⟩ := C22_stddev (row i) n h1 (hrow i hi)
      exact ⟨_, fun _ => h⟩
    · exact ⟨0, fun h => absurd h hi⟩
  choose sig hsig using hsd
  have hln : ∀ i, ∃ ln, i < nParams → summaryLine (fin (best i)) (finL (row i)) (fixed i) (sig i) n = .ok ln ∧
      (fixed i = true → ln = .fixed (fin (best i))) ∧ (fixed i = false → Spec.Describes ((row i).take n) (best i) ln) := by
    intro i
    by_cases hi : i < nParams
    · cases hf : fixed i
      · obtain ⟨ln, h, hd⟩ := summaryLine_describes (row i) n h1 (hrow i hi) (best i) (sig i) (hsig i hi)
        exact ⟨ln, fun _ => ⟨h, by simp, fun _ => hd⟩⟩
      · exact ⟨.fixed (fin (best i)), fun _ => ⟨by simp [summaryLine], fun _ => rfl, by simp⟩⟩
    · exact ⟨.fixed 0, fun h => absurd h hi⟩
  choose line hline using hln
  refine ⟨tab nParams line, ?_, tab_length _ _, fun i hi => ?_⟩
  · unfold bootSummary
    rw [loopMap_ok nParams _ sig]
    · simp only [ok_bind]
      rw [loopMap_ok nParams _ line]
      · rfl
      · intro i hi
        have e : (List.range nParams).map sig = tab nParams sig := rfl
        rw [e, rd_tab _ hi, rd_tab _ hi, rd_tab _ hi, rd_tab _ hi]
        simp only [ok_bind]
        exact (hline i hi).1
    · intro i hi
      rw [rd_tab _ hi]
      exact hsig i hi
  · rw [getElem_tab]
    have hi' : i < nParams := by simpa [tab_length] using hi
    exact (hline i hi').2

theorem rowOf_fin (st : Nat → Int) (P : Nat → Nat → ℝ) (O : Nat → ℝ) (nIter i : Nat) :
    resRow st (fun k i => fin (P k i)) (fun i => fin (O i)) nIter nIter i =
      finL (Spec.resampled st P O nIter i ++ List.replicate (nIter - (Spec.succeeded st nIter).length) 0) := by
  unfold resRow finL Spec.resampled
  simp only [List.map_append, List.map_map, List.map_replicate, fin_add, zero_def]
  rfl

theorem resampled_length (st : Nat → Int) (P : Nat → Nat → ℝ) (O : Nat → ℝ) (n i : Nat) :
    (Spec.resampled st P O n i).length = (Spec.succeeded st n).length := by simp [Spec.resampled]

/-- What is reported, for every pattern of failures: the count of successes; no summary below three; otherwise the statistics of the successful values
*together with one zero per failed fit*. -/
theorem C21_reported (st : Nat → Int) (P : Nat → Nat → ℝ) (O best : Nat → ℝ) (fixed : Nat → Bool) (nParams nIter : Nat) :
    ∃ res, bootstrapErrors (fun k => ⟨st k, tab nParams fun i => fin (P k i)⟩) (tab nParams fun i => fin (best i)) (tab nParams fun i => fin (O i))
        (tab nParams fixed) nParams nIter = .ok (res, (Spec.succeeded st nIter).length) ∧
      ((Spec.succeeded st nIter).length < 3 → res = none) ∧
      (3 ≤ (Spec.succeeded st nIter).length → ∃ lines, res = some lines ∧ lines.length = nParams ∧ ∀ i (hi : i < lines.length),
        (fixed i = true → lines[i] = .fixed (fin (best i))) ∧
        (fixed i = false → Spec.Describes (Spec.resampled st P O nIter i ++ List.replicate (nIter - (Spec.succeeded st nIter).length) 0) (best i)
          lines[i])) := by
  have hle : (Spec.succeeded st nIter).length ≤ nIter := okIters_length_le st nIter
  unfold bootstrapErrors
  rw [bootstrapBase_ok]
  simp only [ok_bind]
  have e : (okIters st nIter).length = (Spec.succeeded st nIter).length := rfl
  rw [e]
  by_cases h : (Spec.succeeded st nIter).length < MIN_ITERATIONS
  · simp only [h, if_true]
    exact ⟨none, rfl, fun _ => rfl, fun h3 => absurd h (by simp [MIN_ITERATIONS]; omega)⟩
  · simp only [h, if_false]
    have h3 : 3 ≤ (Spec.succeeded st nIter).length := by simp [MIN_ITERATIONS] at h; omega
    have hrows : (tab nParams (resRow st (fun k i => fin (P k i)) (fun i => fin (O i)) nIter nIter)) =
        tab nParams fun i => finL (Spec.resampled st P O nIter i ++ List.replicate (nIter - (Spec.succeeded st nIter).length) 0) :=
      tab_congr fun i _ => rowOf_fin st P O nIter i
    rw [hrows]
    have hlen : ∀ i, (Spec.resampled st P O nIter i ++ List.replicate (nIter - (Spec.succeeded st nIter).length) (0 : ℝ)).length = nIter := by
      intro i; rw [List.length_append, resampled_length, List.length_replicate]; omega
    obtain ⟨lines, hl, hll, hd⟩ := bootSummary_describes best _ fixed nParams nIter (by omega) (fun i _ => (hlen i).ge)
    rw [hl]
    refine ⟨some lines, rfl, fun h' => absurd h' (by omega), fun _ => ⟨lines, rfl, hll, fun i hi => ⟨(hd i hi).1, fun hf => ?_⟩⟩⟩
    have := (hd i hi).2 hf
    rwa [List.take_of_length_le (hlen i).le] at this

/-- When every fit succeeds, the property holds. (Missing: the case with failures, where it is false.) -/
theorem C21_partial (st : Nat → Int) (P : Nat → Nat → ℝ) (O best : Nat → ℝ) (fixed : Nat → Bool) (nParams nIter : Nat) (h3 : 3 ≤ nIter)
    (hall : ∀ k, k < nIter → 0 < st k) :
    ∃ lines, bootstrapErrors (fun k => ⟨st k, tab nParams fun i => fin (P k i)⟩) (tab nParams fun i => fin (best i)) (tab nParams fun i => fin (O i))
        (tab nParams fixed) nParams nIter = .ok (some lines, nIter) ∧ lines.length = nParams ∧ ∀ i (hi : i < lines.length),
        (fixed i = true → lines[i] = .fixed (fin (best i))) ∧
        (fixed i = false → Spec.Describes ((List.range nIter).map fun k => P k i + O i) (best i) lines[i]) := by
  have hs : Spec.succeeded st nIter = List.range nIter := okIters_all st nIter hall
  obtain ⟨res, hr, _, h⟩ := C21_reported st P O best fixed nParams nIter
  obtain ⟨lines, rfl, hl, hd⟩ := h (by rw [hs]; simpa using h3)
  rw [hs, List.length_range] at hr
  refine ⟨lines, hr, hl, fun i hi => ⟨(hd i hi).1, fun hf => ?_⟩⟩
  have := (hd i hi).2 hf
  simpa [Spec.resampled, hs] using this

/-- Given the number of successful fits instead of the number of iterations, the same summary would be right for every pattern of failures. -/
theorem C21_count_fix (st : Nat → Int) (P : Nat → Nat → ℝ) (O best : Nat → ℝ) (fixed : Nat → Bool) (nParams nIter : Nat)
    (h3 : 3 ≤ (Spec.succeeded st nIter).length) :
    ∃ arr lines, bootstrapBase (fun k => ⟨st k, tab nParams fun i => fin (P k i)⟩) (tab nParams fun i => fin (O i)) nParams nIter =
        .ok (arr, (Spec.succeeded st nIter).length) ∧
      bootSummary (tab nParams fun i => fin (best i)) arr (tab nParams fixed) nParams (Spec.succeeded st nIter).length = .ok lines ∧
      lines.length = nParams ∧ ∀ i (hi : i < lines.length),
        (fixed i = true → lines[i] = .fixed (fin (best i))) ∧
        (fixed i = false → Spec.Describes (Spec.resampled st P O nIter i) (best i) lines[i]) := by
  have hrows : (tab nParams (resRow st (fun k i => fin (P k i)) (fun i => fin (O i)) nIter nIter)) =
      tab nParams fun i => finL (Spec.resampled st P O nIter i ++ List.replicate (nIter - (Spec.succeeded st nIter).length) 0) :=
    tab_congr fun i _ => rowOf_fin st P O nIter i
  obtain ⟨lines, hl, hll, hd⟩ := bootSummary_describes best
    (fun i => Spec.resampled st P O nIter i ++ List.replicate (nIter - (Spec.succeeded st nIter).length) 0) fixed nParams
    (Spec.succeeded st nIter).length (by omega) (fun i _ => by rw [List.length_append, resampled_length]; omega)
  refine ⟨_, lines, bootstrapBase_ok st _ _ nParams nIter, ?_, hll, fun i hi => ⟨(hd i hi).1, fun hf => ?_⟩⟩
  · rw [hrows]; exact hl
  · have := (hd i hi).2 hf
    rwa [List.take_left' (resampled_length _ _ _ _ _)] at this

/-- Four iterations, the last one fails, the three others all return 10: the value 10 has mean 10 and no spread, but the reported mean is 7.5. -/
theorem C21_false : ∃ st : Nat → Int, ∃ b p m lo up h mean s : XR,
    bootstrapErrors (fun k => ⟨st k, [fin 10]⟩) [fin 10] [fin 0] [false] 1 4 = .ok (some [.free b p m lo up h mean s], 3) ∧
    Spec.resampled st (fun _ _ => 10) (fun _ => 0) 4 0 = [10, 10, 10] ∧ mean = fin 7.5 := by
  obtain ⟨st, hs⟩ : ∃ st : Nat → Int, Spec.succeeded st 4 = [0, 1, 2] := ⟨fun k => if k = 3 then 0 else 1, by decide⟩
  obtain ⟨res, hr, _, h⟩ := C21_reported st (fun _ _ => 10) (fun _ => 0) (fun _ => 10) (fun _ => false) 1 4
  obtain ⟨lines, rfl, hl, hd⟩ := h (by rw [hs]; simp)
  obtain ⟨ln, rfl⟩ := List.length_eq_one_iff.1 hl
  have h2 := (hd 0 (by simp)).2 rfl
  rw [hs] at hr
  simp only [List.getElem_cons_zero, Spec.resampled, hs] at h2
  cases ln with
  | fixed b => exact h2.elim
  | free b p m lo up hw mean s =>
    refine ⟨st, b, p, m, lo, up, hw, mean, s, hr, ?_, ?_⟩
    · simp [Spec.resampled, hs]
    · obtain ⟨lo', up', m', s', -, -, -, -, -, -, hm, -, hsum, -⟩ := h2
      subst hm
      norm_num at hsum
      congr 1
      linarith

/-- Three or more images: the image-description labels are looked up with the running parameter index, past the end of the five labels. -/
theorem C21_multi_labels_false {α : Type} [FP α] (best : List α) (arr : List (List α)) (fixed : List Bool) (sig : List α) (nImages n : Nat)
    (h3 : 3 ≤ nImages) : ∃ e, multiImageLines best arr fixed sig nImages n = .error e := by
  unfold multiImageLines
  have h5 : ∀ m, 6 ≤ m → ∃ e, loopMap m (fun i => do
      let lab ← rd imageParamLabels i
      multiLine best arr fixed sig n i (.image lab)) = .error e := by
    intro m hm
    induction m with
    | zero => omega
    | succ m ih =>
      rcases Nat.lt_or_ge m 6 with h | h
      · have : m = 5 := by omega
        subst this
        have he : (rd imageParamLabels 5) = .error .oob := by decide
        unfold loopMap
        cases loopMap 5 (fun i => do
          let lab ← rd imageParamLabels i
          multiLine best arr fixed sig n i (.image lab)) with
        | error e => exact ⟨e, rfl⟩
        | ok l => simp only [ok_bind, he]; exact ⟨_, rfl⟩
      · obtain ⟨e, he⟩ := ih h
        unfold loopMap
        rw [he]
        exact ⟨e, rfl⟩
  exact h5 _ (by omega)

/-- One image only: the loop over the model parameters starts at index `-1`. -/
theorem C21_multi_single_false {α : Type} [FP α] (best : List α) (arr : List (List α)) (fixed : List Bool) (nParams n : Nat) :
    ∃ e, multiSummary best arr fixed 1 nParams n = .error e := by
  unfold multiSummary
  cases loopMap nParams (fun i => do
      let v ← rd arr i
      stdDev v n) with
  | error e => exact ⟨e, rfl⟩
  | ok sig =>
    have h0 : multiImageLines best arr fixed sig 1 n = .ok [] := by simp [multiImageLines, loopMap]
    have hst : multiModelStart 1 = -1 := by decide
    simp only [ok_bind, h0, hst]
    have hn : ((nParams : Int) - -1).toNat = nParams + 1 := by omega
    rw [hn]
    have : ∀ m, ∃ e, loopMap (m + 1) (fun k => multiLine best arr fixed sig n (-1 + (k : Int)) (.param (-1 + (k : Int)))) = .error e := by
      intro m
      induction m with
      | zero => exact ⟨.oob, by simp [loopMap, multiLine, rdI]⟩
      | succ m ih =>
        obtain ⟨e, he⟩ := ih
        refine ⟨e, ?_⟩
        unfold loopMap
        rw [he]; rfl
    obtain ⟨e, he⟩ := this nParams
    rw [he]
    exact ⟨e, rfl⟩

/-- Two images: the last image-description parameter is listed a second time, among the model parameters. -/
theorem C21_multi_repeats_false {α : Type} [FP α] (best : Nat → α) (arr : Nat → List α) (sig : Nat → α) (nParams n : Nat) (hp : 5 ≤ nParams)
    (hsig : ∀ i, i < nParams → stdDev (arr i) n = .ok (sig i)) (fixed : Nat → Bool) (hf : ∀ i, i < nParams → fixed i = true) :
    ∃ lines, multiSummary (tab nParams best) (tab nParams arr) (tab nParams fixed) 2 nParams n = .ok lines ∧ lines.length = nParams + 1 ∧
      lines[4]? = some (.image "Y0", .fixed (best 4)) ∧ lines[5]? = some (.param 4, .fixed (best 4)) := by
  have hrdI : ∀ {β : Type} (g : Nat → β) (i : Nat), i < nParams → rdI (tab nParams g) (i : Int) = .ok (g i) := by
    intro β g i hi
    rw [rdI_nat _ _ (by omega), Int.toNat_natCast, rd_tab _ hi]
  have hml : ∀ i lab, i < nParams → multiLine (tab nParams best) (tab nParams arr) (tab nParams fixed) (tab nParams sig) n (i : Int) lab =
      .ok (lab, .fixed (best i)) := by
    intro i lab hi
    unfold multiLine
    rw [hrdI _ _ hi, hrdI _ _ hi, hrdI _ _ hi, hrdI _ _ hi, hf i hi]
    simp [summaryLine]
  have hlab : ∀ i, i < 5 → rd imageParamLabels i = .ok (imageParamLabels.getD i "") := by decide
  have h1 : multiImageLines (tab nParams best) (tab nParams arr) (tab nParams fixed) (tab nParams sig) 2 n =
      .ok (tab 5 fun i => (.image (imageParamLabels.getD i ""), .fixed (best i))) := by
    unfold multiImageLines
    rw [loopMap_ok _ _ (fun i => (.image (imageParamLabels.getD i ""), .fixed (best i)))]
    · rfl
    · intro i hi
      rw [hlab i (by omega), ok_bind, hml i _ (by omega)]
  have h2 : loopMap ((nParams : Int) - multiModelStart 2).toNat (fun k =>
      multiLine (tab nParams best) (tab nParams arr) (tab nParams fixed) (tab nParams sig) n (multiModelStart 2 + k) (.param (multiModelStart 2 + k))) =
      .ok (tab (nParams - 4) fun k => (.param ((4 + k : Nat) : Int), .fixed (best (4 + k)))) := by
    have hst : multiModelStart 2 = 4 := by decide
    rw [hst]
    have hn : ((nParams : Int) - 4).toNat = nParams - 4 := by omega
    rw [hn, loopMap_ok _ _ (fun k => (.param ((4 + k : Nat) : Int), .fixed (best (4 + k))))]
    · rfl
    · intro k hk
      have e : (4 : Int) + k = ((4 + k : Nat) : Int) := by push_cast; rfl
      rw [e, hml (4 + k) _ (by omega)]
  refine ⟨(tab 5 fun i => (.image (imageParamLabels.getD i ""), .fixed (best i))) ++
    (tab (nParams - 4) fun k => (.param ((4 + k : Nat) : Int), .fixed (best (4 + k)))), ?_, ?_, ?_, ?_⟩
  · unfold multiSummary
    rw [loopMap_ok nParams _ sig (fun i hi => by rw [rd_tab _ hi]; exact hsig i hi)]
    have e : (List.range nParams).map sig = tab nParams sig := rfl
    simp only [ok_bind, e, h1, h2]
    rfl
  · rw [List.length_append, tab_length, tab_length]; omega
  · rw [List.getElem?_append_left (by rw [tab_length]; omega)]
    simp [tab, imageParamLabels]
  · rw [List.getElem?_append_right (by rw [tab_length]), tab_length]
    have : 0 < nParams - 4 := by omega
    simp [tab, this]

/-- Non-vacuous: five successful iterations of one free and one fixed parameter. -/
example : ∃ lines, bootstrapErrors (fun k => ⟨1, tab 2 fun i => fin ((k : ℝ) + i)⟩) (tab 2 fun i => fin (2 + (i : ℝ))) (tab 2 fun _ => fin 0)
    (tab 2 fun i => decide (i = 1)) 2 5 = .ok (some lines, 5) ∧ lines.length = 2 := by
  obtain ⟨lines, h, hl, _⟩ := C21_partial (fun _ => 1) (fun k i => (k : ℝ) + i) (fun _ => 0) (fun i => 2 + (i : ℝ)) (fun i => decide (i = 1)) 2 5
    (by norm_num) (by simp)
  exact ⟨lines, h, hl⟩

end Imfit
