import Verif.Model.OsPsf
import Verif.Lemmas.Fit

/-!
# C83: every oversampled region gets the PSF image, the scale and the position meant for it

Regions get the PSF image and the scale with their own number, or share the only ones. In `imfit`, `imfit-mcmc` and `makeimage` the position of a region takes
the image section into account; in `multimfit` it does not (`C83_section_false`).
-/

namespace Imfit

variable {α : Type}

/-- What the user has to supply: at least one region, as many scales as PSF images, and either one PSF image or one for each region. -/
def Spec.OsConsistent (regions files : List Str) (scales : List Int) : Prop :=
  regions ≠ [] ∧ scales.length = files.length ∧ (files.length ≤ 1 ∨ files.length = regions.length)

instance (regions files : List Str) (scales : List Int) : Decidable (Spec.OsConsistent regions files scales) := by
  unfold Spec.OsConsistent; infer_instance

theorem loadRegions_eq (read : Str → Option (OsPsf α)) (off : Int × Int) (regions files : List Str) (scales : List Int) :
    loadRegions read off regions files scales =
      if Spec.OsConsistent regions files scales then loadLoop read off regions files scales regions.length else .ok none := by
  have hne : regions.length < 1 ↔ regions = [] := by rw [← List.length_eq_zero_iff]; omega
  unfold loadRegions
  by_cases h1 : regions = []
  · rw [if_pos (hne.2 h1), if_neg (fun h : Spec.OsConsistent regions files scales => h.1 h1)]
  · rw [if_neg (by tauto)]
    by_cases h2 : files.length = scales.length
    · rw [if_neg (by tauto)]
      by_cases h3 : 1 < files.length ∧ files.length ≠ regions.length
      · rw [if_pos h3, if_neg (fun h : Spec.OsConsistent regions files scales => by have := h.2.2; omega)]
      · rw [if_neg h3, if_pos ⟨h1, h2.symm, by omega⟩]
    · rw [if_pos h2, if_neg (fun h : Spec.OsConsistent regions files scales => h2 h.2.1.symm)]

theorem loadRegionsMulti_eq (read : Str → Option (OsPsf α)) (regions files : List Str) (scales : List Int) :
    loadRegionsMulti read regions files scales = loadRegions read (0, 0) regions files scales := by
  unfold loadRegionsMulti loadRegions
  split_ifs <;> rfl

/-- The outcome of the first `n` rounds when every region has its own image. -/
theorem loadLoop_many (read : Str → Option (OsPsf α)) (off : Int × Int) (regions files : List Str) (scales : List Int) (imgs : List (OsPsf α))
    (hr : regions.length = files.length) (hs : scales.length = files.length) (h1 : 1 < files.length)
    (hread : files.map read = imgs.map some) (n : Nat) (hn : n ≤ files.length) :
    loadLoop read off regions files scales n =
      .ok (some (imgs.take n, (List.range n).map fun k => ⟨regions.getD k [], k, scales.getD k 0, off, true⟩)) := by
  have hl : imgs.length = files.length := by
    have := congrArg List.length hread
    simpa using this.symm
  induction n with
  | zero => simp [loadLoop]
  | succ n ih =>
    have hf : read (files[n]'(by omega)) = some (imgs[n]'(by omega)) := by
      have := congrArg (·[n]?) hread
      simpa [List.getElem?_eq_getElem (show n < files.length by omega), List.getElem?_eq_getElem (show n < imgs.length by omega)] using this
    unfold loadLoop
    rw [ih (by omega)]
    simp only [ok_bind]
    rw [rd_ok (show n < regions.length by omega), ok_bind, if_pos (Or.inr h1), rd_ok (show n < files.length by omega), ok_bind]
    simp only [hf]
    rw [rd_ok (show n < scales.length by omega), ok_bind, pure_eq_ok]
    congr 3
    · rw [List.take_succ_eq_append_getElem (show n < imgs.length by omega)]
    · have h2 : n < regions.length := by omega
      have h3 : n < scales.length := by omega
      have h4 : min n imgs.length = n := by omega
      rw [List.range_succ, List.map_append]
      simp [h2, h3, h4]

/-- The outcome of the first `n + 1` rounds when there is only one image. -/
theorem loadLoop_one (read : Str → Option (OsPsf α)) (off : Int × Int) (regions : List Str) (f : Str) (s : Int) (img : OsPsf α) (hread : read f = some img)
    (n : Nat) (hn : n < regions.length) :
    loadLoop read off regions [f] [s] (n + 1) = .ok (some ([img], (regions.take (n + 1)).map fun r => ⟨r, 0, s, off, true⟩)) := by
  induction n with
  | zero =>
    unfold loadLoop
    simp only [loadLoop, ok_bind]
    rw [rd_ok hn, ok_bind, if_pos (Or.inl trivial)]
    simp only [rd, List.getElem?_cons_zero, ok_bind, hread, pure_eq_ok]
    rw [List.take_succ_eq_append_getElem hn]
    rfl
  | succ n ih =>
    unfold loadLoop
    rw [ih (by omega)]
    simp only [ok_bind]
    rw [rd_ok hn, ok_bind, if_neg (by simp)]
    have e : ((regions.take (n + 1)).map fun r => (⟨r, 0, s, off, true⟩ : OsInfo)).getLast? = some ⟨regions[n], 0, s, off, true⟩ := by
      rw [List.take_succ_eq_append_getElem (show n < regions.length by omega), List.map_append]
      exact List.getLast?_concat
    rw [e]
    simp only [pure_eq_ok]
    rw [List.take_succ_eq_append_getElem hn, List.map_append]
    rfl

/-- The loop never fails otherwise than with the status -1, and succeeds only if all images it needs can be read. -/
theorem loadLoop_total (read : Str → Option (OsPsf α)) (off : Int × Int) (regions files : List Str) (scales : List Int) (hs : scales.length = files.length)
    (hf : files.length = 1 ∨ files.length = regions.length) (n : Nat) (hn : n ≤ regions.length) :
    loadLoop read off regions files scales n = .ok none ∨ ∃ p, loadLoop read off regions files scales n = .ok (some p) ∧ p.2.length = n ∧
      ∀ (k : ℕ) (f : Str), k < n → files[k]? = some f → read f ≠ none := by
  induction n with
  | zero => exact Or.inr ⟨([], []), rfl, rfl, fun k f h => absurd h (Nat.not_lt_zero k)⟩
  | succ n ih =>
    rcases ih (by omega) with h | ⟨p, h, hl, hk⟩
    · left
      unfold loadLoop
      rw [h]
      rfl
    · unfold loadLoop
      rw [h]
      simp only [ok_bind]
      rw [rd_ok (show n < regions.length by omega), ok_bind]
      by_cases hc : n = 0 ∨ 1 < files.length
      · rw [if_pos hc, rd_ok (show n < files.length by omega), ok_bind]
        cases hr : read (files[n]'(by omega)) with
        | none => exact Or.inl rfl
        | some img =>
          right
          simp only
          rw [rd_ok (show n < scales.length by omega)]
          refine ⟨_, rfl, by simp [hl], ?_⟩
          intro k f hkn hkf
          rcases Nat.lt_succ_iff_lt_or_eq.1 hkn with h1 | rfl
          · exact hk k f h1 hkf
          · rw [List.getElem?_eq_getElem (by omega)] at hkf
            injection hkf with e
            rw [← e, hr]
            exact Option.some_ne_none img
      · rw [if_neg hc]
        cases hg : p.2.getLast? with
        | none =>
          rw [List.getLast?_eq_none_iff] at hg
          rw [hg] at hl
          exact absurd hl.symm (fun h => hc (Or.inl h))
        | some i =>
          right
          refine ⟨_, rfl, by simp [hl], ?_⟩
          intro k f hkn hkf
          rcases Nat.lt_succ_iff_lt_or_eq.1 hkn with h1 | rfl
          · exact hk k f h1 hkf
          · have := (List.getElem?_eq_some_iff.1 hkf).1
            omega

/-- C83 for several PSF images, all readable: region number `k` gets image number `k` and scale number `k`; its position is relative to the image section. -/
theorem C83_own (read : Str → Option (OsPsf α)) (off : Int × Int) (regions files : List Str) (scales : List Int) (imgs : List (OsPsf α))
    (hr : regions.length = files.length) (hs : scales.length = files.length) (h1 : 1 < files.length) (hread : files.map read = imgs.map some) :
    ∃ infos, loadRegions read off regions files scales = .ok (some (imgs, infos)) ∧ infos.length = regions.length ∧
      ∀ (k : ℕ) (r : Str) (s : ℤ), regions[k]? = some r → scales[k]? = some s → infos[k]? = some ⟨r, k, s, off, true⟩ := by
  have hl : imgs.length = files.length := by
    have := congrArg List.length hread
    simpa using this.symm
  have hne : regions ≠ [] := by
    intro h; subst h; simp at hr; omega
  refine ⟨(List.range regions.length).map fun k => ⟨regions.getD k [], k, scales.getD k 0, off, true⟩, ?_, by simp, ?_⟩
  · rw [loadRegions_eq, if_pos ⟨hne, hs, Or.inr hr.symm⟩, loadLoop_many read off regions files scales imgs hr hs h1 hread _ hr.le,
      List.take_of_length_le (by omega)]
  · intro k r s h2 h3
    have hk := (List.getElem?_eq_some_iff.1 h2).1
    rw [List.getElem?_map, List.getElem?_range hk]
    simp only [Option.map_some, List.getD_eq_getElem?_getD, h2, h3, Option.getD_some]

/-- C83 for one PSF image: all regions share it and its scale. -/
theorem C83_shared (read : Str → Option (OsPsf α)) (off : Int × Int) (regions : List Str) (f : Str) (s : Int) (img : OsPsf α) (hr : regions ≠ [])
    (hread : read f = some img) :
    loadRegions read off regions [f] [s] = .ok (some ([img], regions.map fun r => ⟨r, 0, s, off, true⟩)) := by
  obtain ⟨n, hn⟩ : ∃ n, regions.length = n + 1 := ⟨regions.length - 1, by have := List.length_pos_iff.2 hr; omega⟩
  rw [loadRegions_eq, if_pos ⟨hr, rfl, Or.inl le_rfl⟩, hn, loadLoop_one read off regions f s img hread n (by omega), List.take_of_length_le (by omega)]

/-- Anything else is refused: counts that do not fit, or an image that cannot be read. With at least one PSF image nothing is read outside the lists. -/
theorem C83_refused (read : Str → Option (OsPsf α)) (off : Int × Int) (regions files : List Str) (scales : List Int) :
    (¬Spec.OsConsistent regions files scales → loadRegions read off regions files scales = .ok none) ∧
    (files ≠ [] → Spec.OsConsistent regions files scales → (∃ f ∈ files, read f = none) → loadRegions read off regions files scales = .ok none) ∧
    (files ≠ [] → ∃ r, loadRegions read off regions files scales = .ok r) := by
  refine ⟨fun h => by rw [loadRegions_eq, if_neg h], ?_, ?_⟩
  · rintro hne hc ⟨f, hf, hu⟩
    have hl : 0 < files.length := List.length_pos_iff.2 hne
    have hr : 0 < regions.length := List.length_pos_iff.2 hc.1
    rw [loadRegions_eq, if_pos hc]
    rcases loadLoop_total read off regions files scales hc.2.1 (by have := hc.2.2; omega) regions.length le_rfl with h | ⟨p, -, -, hk⟩
    · exact h
    · obtain ⟨k, hk', e⟩ := List.getElem_of_mem hf
      refine absurd hu (hk k f (by have := hc.2.2; omega) ?_)
      rw [List.getElem?_eq_getElem hk', e]
  · intro hne
    have hl : 0 < files.length := List.length_pos_iff.2 hne
    rw [loadRegions_eq]
    by_cases hc : Spec.OsConsistent regions files scales
    · rw [if_pos hc]
      rcases loadLoop_total read off regions files scales hc.2.1 (by have := hc.2.2; omega) regions.length le_rfl with h | ⟨p, h, -⟩
      · exact ⟨_, h⟩
      · exact ⟨_, h⟩
    · exact ⟨none, by rw [if_neg hc]⟩

/-- `multimfit` and `makemultimages` do the same for an image without a section. Missing: images with a section, see `C83_section_false`. -/
theorem C83_multi_partial (read : Str → Option (OsPsf α)) (regions files : List Str) (scales : List Int) :
    loadRegionsMulti read regions files scales = loadRegions read (0, 0) regions files scales := loadRegionsMulti_eq read regions files scales

/-- In `multimfit` the position of a region ignores the section of its image: the pixels computed with the oversampled PSF are not the ones asked for, by the
offset of the section. -/
theorem C83_section_false (read : Str → Option (OsPsf α)) (off : Int × Int) (regions : List Str) (f : Str) (s : Int) (img : OsPsf α) (hr : regions ≠ [])
    (hread : read f = some img) (hoff : off ≠ (0, 0)) (rect : Rect) :
    ∃ heap infos, loadRegionsMulti read regions [f] [s] = .ok (some (heap, infos)) ∧ infos ≠ [] ∧
      ∀ i ∈ infos, correctRect rect i.offset.1 i.offset.2 ≠ correctRect rect off.1 off.2 := by
  refine ⟨_, _, by rw [loadRegionsMulti_eq, C83_shared read (0, 0) regions f s img hr hread], by simpa using hr, ?_⟩
  intro i hi e
  obtain ⟨r, -, rfl⟩ := List.mem_map.1 hi
  injection e with e1 e2 e3 e4
  exact hoff (Prod.ext (by simp only at e1 ⊢; omega) (by simp only at e3 ⊢; omega))

section Examples

/-- Two images that can be read. -/
private def readEx : Str → Option (OsPsf ℤ)
  | ['a'] => some ⟨1, 1, [7]⟩
  | ['b'] => some ⟨1, 2, [3, 4]⟩
  | _ => none

private def r1Ex : Str := "1:5,1:5".toList
private def r2Ex : Str := "7:9,2:4".toList

/-- Two regions with two images and scales 3 and 5. -/
example : loadRegions readEx (10, 20) [r1Ex, r2Ex] [['a'], ['b']] [3, 5] =
    .ok (some ([⟨1, 1, [7]⟩, ⟨1, 2, [3, 4]⟩], [⟨r1Ex, 0, 3, (10, 20), true⟩, ⟨r2Ex, 1, 5, (10, 20), true⟩])) := rfl

/-- Two regions with one image. -/
example : loadRegions readEx (10, 20) [r1Ex, r2Ex] [['b']] [3] =
    .ok (some ([⟨1, 2, [3, 4]⟩], [⟨r1Ex, 0, 3, (10, 20), true⟩, ⟨r2Ex, 0, 3, (10, 20), true⟩])) := C83_shared readEx (10, 20) _ _ 3 _ (by simp) rfl

/-- An image that cannot be read; three regions with two images. -/
example : loadRegions readEx (0, 0) [r1Ex, r2Ex] [['a'], ['c']] [3, 5] = .ok none ∧
    loadRegions readEx (0, 0) [r1Ex, r2Ex, r1Ex] [['a'], ['b']] [3, 5] = .ok none :=
  ⟨(C83_refused readEx _ _ _ _).2.1 (by simp) (by decide) ⟨['c'], by simp, rfl⟩, (C83_refused readEx _ _ _ _).1 (by decide)⟩

end Examples

end Imfit
