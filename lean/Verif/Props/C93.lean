import Verif.Props.C92Save

/-!
# C93: images used together have the same size
-/

namespace Imfit

open Spec

variable {α : Type}

/-- Reading an image when no call fails. -/
theorem read_calm (w : Disk α) (hs : Sound w.files) (hm : Small w.files) (hw : Calm w) (name : Str) :
    ∃ w' o, readImage w name = .ok (w', o) ∧ w'.files = w.files ∧
      ∀ px c r, o = some (px, c, r) → ∃ cn rn : ℕ, c = cn ∧ r = rn ∧ px.length = cn * rn ∧ IsImage w.files name cn rn px :=
  C92_read_partial w hs hm name hw.next.fails hw.next.next.fails

/-- An image is accepted only if it is of the size asked for. -/
theorem getAndCheck_ok (w : Disk α) (hs : Sound w.files) (hm : Small w.files) (name : Str) (h1 : w.next.fails = false) (h2 : w.next.next.fails = false)
    (c r : ℕ) (hc : 0 < c) (hr : 0 < r) :
    ∃ w' o s, getAndCheck w name c r = .ok (w', o, s) ∧ w'.files = w.files ∧ (s < 0 → o = none) ∧ (s = 0 ∨ s < 0) ∧
      (s = 0 → ∃ px, o = some px ∧ px.length = c * r ∧ IsImage w.files name c r px) := by
  obtain ⟨w', o, h3, h4, h5⟩ := C92_read_partial w hs hm name h1 h2
  unfold getAndCheck
  rw [h3]
  simp only [ok_bind]
  cases o with
  | none => exact ⟨_, _, _, rfl, h4, fun _ => rfl, Or.inr (by norm_num), by norm_num⟩
  | some t =>
    obtain ⟨px, c', r'⟩ := t
    obtain ⟨cn, rn, rfl, rfl, h6, h7⟩ := h5 px c' r' rfl
    simp only
    by_cases hd : ((c : ℤ) > 0 ∧ (r : ℤ) > 0) ∧ ((cn : ℤ) ≠ c ∨ (rn : ℤ) ≠ r)
    · rw [if_pos hd]
      exact ⟨_, _, _, rfl, h4, fun _ => rfl, Or.inr (by norm_num), by norm_num⟩
    · rw [if_neg hd]
      have e : cn = c ∧ rn = r := by omega
      obtain ⟨rfl, rfl⟩ := e
      exact ⟨_, _, _, rfl, h4, by norm_num, Or.inl rfl, fun _ => ⟨px, rfl, h6, h7⟩⟩

/-- If no call fails: an image of the right size is accepted, everything else refused. -/
theorem C93_accept (w : Disk α) (hs : Sound w.files) (hm : Small w.files) (hw : Calm w) (name : Str) (c r : ℕ) (hc : 0 < c) (hr : 0 < r) :
    (∃ px w', IsImage w.files name c r px ∧ getAndCheck w name c r = .ok (w', some px, 0)) ∨
    ((∀ px, ¬ IsImage w.files name c r px) ∧ ∃ w' s, getAndCheck w name c r = .ok (w', none, s) ∧ s < 0) := by
  by_cases h : ∃ px, IsImage w.files name c r px
  · obtain ⟨px, hi⟩ := h
    obtain ⟨w', h1, _⟩ := C92_read_image w hs hm hw name c r px hi
    refine Or.inl ⟨px, w', hi, ?_⟩
    unfold getAndCheck
    rw [h1]
    simp only [ok_bind]
    rw [if_neg (by simp)]
  · refine Or.inr ⟨fun px hi => h ⟨px, hi⟩, ?_⟩
    obtain ⟨w', o, s, h1, _, h2, h3, h4⟩ := getAndCheck_ok w hs hm name hw.next.fails hw.next.next.fails c r hc hr
    rcases h3 with h3 | h3
    · obtain ⟨px, _, _, hi⟩ := h4 h3
      exact absurd ⟨px, hi⟩ h
    · rw [h2 h3] at h1
      exact ⟨w', s, h1, h3⟩

theorem getOptional_calm (w : Disk α) (hs : Sound w.files) (hm : Small w.files) (hw : Calm w) (name : Str) (c r : ℕ) (hc : 0 < c) (hr : 0 < r) :
    ∃ w' o s, getOptional w name c r = .ok (w', o, s) ∧ w'.files = w.files ∧ (s < 0 → o = none) ∧ (s = 0 ∨ s < 0) ∧
      (s = 0 → (name = [] ∧ o = none) ∨ name ≠ [] ∧ ∃ px, o = some px ∧ px.length = c * r ∧ IsImage w.files name c r px) ∧
      (s < 0 → name ≠ [] ∧ ∀ px, ¬ IsImage w.files name c r px) := by
  unfold getOptional
  cases name with
  | nil => exact ⟨w, none, 0, by simp, rfl, fun _ => rfl, Or.inl rfl, fun _ => Or.inl ⟨rfl, rfl⟩, by norm_num⟩
  | cons a l =>
    rw [if_pos (by simp)]
    obtain ⟨w', o, s, h1, h2, h3, h4, h5⟩ := getAndCheck_ok w hs hm (a :: l) hw.next.fails hw.next.next.fails c r hc hr
    refine ⟨w', o, s, h1, h2, h3, h4, fun h => Or.inr ⟨by simp, h5 h⟩, fun h => ⟨by simp, ?_⟩⟩
    rcases C93_accept w hs hm hw (a :: l) c r hc hr with ⟨px, w'', hi, h6⟩ | ⟨h6, _⟩
    · rw [h1] at h6
      simp only [Except.ok.injEq, Prod.mk.injEq] at h6
      omega
    · exact h6

theorem keys_calm {w : Disk α} (hw : Calm w) (f : FitsFile α) : Calm (fitsKeys w f false).1 := by
  unfold fitsKeys
  rw [if_neg (by simp), if_neg (by simp [hw.fails])]
  split <;> exact hw.next

theorem readOpened_calm {w w' : Disk α} {o} (hw : Calm w) (f : FitsFile α) (h : readOpened w f false = .ok (w', o)) : Calm w' := by
  unfold readOpened at h
  have hk := keys_calm hw f
  generalize fitsKeys w f false = k at h hk
  obtain ⟨w1, s1, ks⟩ := k
  simp only at h hk
  cases s1 with
  | true =>
    simp only [if_true, Except.ok.injEq, Prod.mk.injEq] at h
    rw [← h.1]
    exact hk
  | false =>
    simp only [Bool.false_eq_true, if_false] at h
    cases ha : ks[0]? with
    | none => rw [ha] at h; simp [given, bind, Except.bind] at h
    | some a =>
      cases hb : ks[1]? with
      | none => rw [ha, hb] at h; simp [given, bind, Except.bind] at h
      | some b =>
        rw [ha, hb] at h
        simp only [given, ok_bind] at h
        have hp : Calm (fitsPix w1 f (toInt32 a * toInt32 b) false).1 := by
          unfold fitsPix
          rw [if_neg (by simp), if_neg (by simp [hk.fails])]
          split
          · exact hk.next
          · split <;> exact hk.next
        generalize fitsPix w1 f (toInt32 a * toInt32 b) false = p at h hp
        obtain ⟨w2, s2, px⟩ := p
        simp only at h hp
        cases s2 with
        | true =>
          simp only [if_true, Except.ok.injEq, Prod.mk.injEq] at h
          rw [← h.1]
          exact hp
        | false =>
          simp only [Bool.false_eq_true, if_false, fitsClose, Bool.false_or, hp.fails, Except.ok.injEq, Prod.mk.injEq] at h
          rw [← h.1]
          exact hp.next

theorem readImage_calm {w w' : Disk α} {o} (hs : Sound w.files) (hw : Calm w) (name : Str) (h : readImage w name = .ok (w', o)) : Calm w' := by
  unfold readImage at h
  rcases open_cases w name with ho | ⟨f, hf, h0, _⟩
  · rw [check_none w name ho] at h
    simp only [ok_bind, Bool.false_eq_true, if_false, Except.ok.injEq, Prod.mk.injEq] at h
    rw [← h.1]
    exact hw.next
  · obtain ⟨hd, hu, hg, hpos, hh⟩ := sound_unit hs hf
    obtain ⟨k, hk⟩ := check_ok w name f hd hf hu h0 hw.next.fails hw.next.next.fails
    rw [hk] at h
    simp only [ok_bind] at h
    by_cases hi : (hd.image && (hd.naxis == 2)) = true
    · rw [if_pos hi] at h
      rw [open_some _ name f (calm_drop hw k).fails (by exact hf)] at h
      exact readOpened_calm (by exact (calm_drop hw k).next) f h
    · rw [if_neg hi] at h
      simp only [Except.ok.injEq, Prod.mk.injEq] at h
      rw [← h.1]
      exact calm_drop hw k

theorem getOptional_calm' {w w' : Disk α} {o s} (hs : Sound w.files) (hw : Calm w) (name : Str) (c r : Int)
    (h : getOptional w name c r = .ok (w', o, s)) : Calm w' := by
  unfold getOptional at h
  split_ifs at h
  · unfold getAndCheck at h
    cases hr : readImage w name with
    | error e => rw [hr] at h; simp [bind, Except.bind] at h
    | ok t =>
      obtain ⟨w1, o1⟩ := t
      have hc := readImage_calm hs hw name hr
      rw [hr] at h
      simp only [ok_bind] at h
      cases o1 with
      | none =>
        simp only [Except.ok.injEq, Prod.mk.injEq] at h
        rw [← h.1]
        exact hc
      | some t =>
        obtain ⟨px, c', r'⟩ := t
        simp only at h
        split_ifs at h <;> simp only [Except.ok.injEq, Prod.mk.injEq] at h <;> rw [← h.1] <;> exact hc
  · simp only [Except.ok.injEq, Prod.mk.injEq] at h
    rw [← h.1]
    exact hw

/-- Mask and errors for a data image of `c` columns and `r` rows: if no call fails, the status is negative exactly if one that was asked for is not an image of
this size. Otherwise the status tells which were asked for, and they are those of the files, one value for each pixel of the data. -/
theorem C93_mask_error (w : Disk α) (hs : Sound w.files) (hm : Small w.files) (hw : Calm w) (mask err : Str) (c r : ℕ) (hc : 0 < c) (hr : 0 < r) :
    ∃ w' m e s, getMaskError w c r mask err = .ok (w', m, e, s) ∧
      (s < 0 ↔ (mask ≠ [] ∧ ∀ px, ¬ IsImage w.files mask c r px) ∨ (err ≠ [] ∧ ∀ px, ¬ IsImage w.files err c r px)) ∧
      (0 ≤ s → s = (if mask = [] then 0 else 1) + (if err = [] then 0 else 2) ∧
        ((mask = [] ∧ m = none) ∨ mask ≠ [] ∧ ∃ px, m = some px ∧ px.length = c * r ∧ IsImage w.files mask c r px) ∧
        ((err = [] ∧ e = none) ∨ err ≠ [] ∧ ∃ px, e = some px ∧ px.length = c * r ∧ IsImage w.files err c r px)) := by
  obtain ⟨w1, m, s1, h1, h2, h3, h4, h5, h6⟩ := getOptional_calm w hs hm hw mask c r hc hr
  unfold getMaskError
  rw [h1]
  simp only [ok_bind]
  rcases h4 with h4 | h4
  · subst h4
    rw [if_neg (by norm_num)]
    have hw1 := getOptional_calm' hs hw mask c r h1
    obtain ⟨w2, e, s2, g1, g2, g3, g4, g5, g6⟩ := getOptional_calm w1 (by rw [h2]; exact hs) (by rw [h2]; exact hm) hw1 err c r hc hr
    rw [g1]
    simp only [ok_bind]
    rw [h2] at g5 g6
    have hmask : ¬(mask ≠ [] ∧ ∀ px, ¬ IsImage w.files mask c r px) := by
      rintro ⟨ha, hb⟩
      rcases h5 rfl with ⟨h, _⟩ | ⟨_, px, _, _, hi⟩
      · exact ha h
      · exact hb px hi
    rcases g4 with g4 | g4
    · subst g4
      rw [if_neg (by norm_num)]
      have herr : ¬(err ≠ [] ∧ ∀ px, ¬ IsImage w.files err c r px) := by
        rintro ⟨ha, hb⟩
        rcases g5 rfl with ⟨h, _⟩ | ⟨_, px, _, _, hi⟩
        · exact ha h
        · exact hb px hi
      have hpos : ∀ x : Str, (x.length > 0) = (x ≠ []) := fun x => by rw [gt_iff_lt, List.length_pos_iff]
      refine ⟨_, _, _, _, rfl, ?_, fun _ => ⟨?_, h5 rfl, g5 rfl⟩⟩
      · constructor
        · intro h
          exfalso
          split_ifs at h <;> omega
        · rintro (h | h)
          · exact absurd h hmask
          · exact absurd h herr
      · simp only [hpos]
        by_cases a : mask = [] <;> by_cases b : err = [] <;> simp [a, b]
    · rw [if_pos g4]
      refine ⟨_, _, _, _, rfl, ⟨fun _ => Or.inr (g6 g4), fun _ => by norm_num⟩, by norm_num⟩
  · rw [if_pos h4]
    exact ⟨_, _, _, _, rfl, ⟨fun _ => Or.inl (h6 h4), fun _ => by norm_num⟩, by norm_num⟩

/-- A PSF image. -/
theorem C93_psf_partial (w : Disk α) (hs : Sound w.files) (hm : Small w.files) (hw : Calm w) (name : Str) (c r : ℕ) (px : List α)
    (hi : IsImage w.files name c r px) : ∃ w', getPsf w name = .ok (w', some px, (c : ℤ), (r : ℤ), 0) := by
  obtain ⟨w1, h1, h2, h3, h4⟩ := C92_read_image w hs hm hw name c r px hi
  obtain ⟨w2, h5, _⟩ := C92_size w1 (by rw [h2]; exact hm) h4 name c r px (by rw [h2]; exact hi)
  refine ⟨w2, ?_⟩
  unfold getPsf getAndCheck
  rw [h1]
  simp only [ok_bind]
  rw [if_neg (by simp)]
  simp only [ok_bind]
  rw [if_neg (by simp), h5]
  rfl

/-- If the file cannot be opened a third time, the pixels come with the size 0 by 0, and with the status of success. -/
theorem C93_psf_size_false (w : Disk α) (hm : Small w.files) (name : Str) (c r : ℕ) (px : List α) (hi : IsImage w.files name c r px)
    (hlen : px.length = c * r) (hl : w.faults = [false, false, false, false, false, false, false, false, true]) :
    ∃ w', getPsf w name = .ok (w', some px, 0, 0, 0) := by
  obtain ⟨hc, hr⟩ := hm name c r px hi
  obtain ⟨f, h, hf, hpos, hg, hi1, hi2, hkeys, rfl⟩ := hi
  have hu : f.unit f.current = some h := by unfold FitsFile.unit; rw [if_neg (by omega), hg]
  have hread : readImage w name = .ok ({ w with faults := [true] }, some (h.pixels, (c : ℤ), (r : ℤ))) := by
    unfold readImage checkForImage
    rw [open_some w name f (by simp [Disk.fails, hl]) hf]
    simp only
    rw [checkHdu_ok _ f _ h hu (by simp [Disk.fails, Disk.next, hl]) (by simp [Disk.fails, Disk.next, hl])]
    simp only [ok_bind, hi1, hi2, BEq.rfl, Bool.and_self, if_true]
    rw [open_some _ name f (by simp [Disk.fails, Disk.next, hl, fitsClose]) (by exact hf)]
    have hn : ((c : ℤ) * (r : ℤ)) = ((h.pixels.length : ℕ) : ℤ) := by rw [hlen]; push_cast; rfl
    have hn' : ¬(((h.pixels.length : ℕ) : ℤ) < 0 ∨ ((h.pixels.length : ℕ) : ℤ) < ((h.pixels.length : ℕ) : ℤ)) := by omega
    have ek : ∀ w' : Disk α, w'.fails = false → fitsKeys w' f false = (w'.next, false, [(c : ℤ), (r : ℤ)]) := by
      intro w' hw'
      simp [fitsKeys, hw', hu, hkeys]
    have ep : ∀ w' : Disk α, w'.fails = false → fitsPix w' f ((c : ℤ) * (r : ℤ)) false = (w'.next, false, h.pixels) := by
      intro w' hw'
      rw [hn]
      simp only [fitsPix, hw', hu, Bool.false_eq_true, if_false, if_neg hn', Int.toNat_natCast, List.take_length]
    simp only [readOpened]
    rw [ek _ (by simp [Disk.fails, Disk.next, hl, fitsClose])]
    simp only [Bool.false_eq_true, if_false, List.getElem?_cons_zero, List.getElem?_cons_succ, given, ok_bind, toInt32_small c hc, toInt32_small r hr]
    rw [ep _ (by simp [Disk.fails, Disk.next, hl, fitsClose])]
    simp [Disk.fails, Disk.next, hl, fitsClose]
  · unfold getPsf getAndCheck
    rw [hread]
    simp only [ok_bind]
    rw [if_neg (by simp)]
    simp only [ok_bind]
    rw [if_neg (by simp)]
    unfold getImageSize
    rw [open_none _ name (Or.inl (by simp [Disk.fails]))]
    exact ⟨_, rfl⟩

/-- What was accepted. -/
def maskRead : Res (Disk ℤ × Option (List ℤ) × Option (List ℤ) × Int) → Res (Option (List ℤ) × Option (List ℤ) × Int)
  | .ok (_, o) => .ok o
  | .error e => .error e

/-- A mask of 2 by 1 pixels, for data of 2 by 1 pixels and of 1 by 2; a table as error image. -/
example : maskRead (getMaskError (oneFile ['t'] ['t', '1']) 2 1 ['t', '1'] []) = .ok (some [5, 6], none, 1) ∧
    maskRead (getMaskError (oneFile ['t'] ['t', '1']) 2 1 [] ['t', '1']) = .ok (none, some [5, 6], 2) ∧
    (maskRead (getMaskError (oneFile ['t'] ['t', '1']) 1 2 ['t', '1'] [])).map (fun o => decide (o.2.2 < 0)) = .ok true ∧
    (maskRead (getMaskError (oneFile ['t'] ['t', '1']) 2 1 ['t', '1'] ['t'])).map (fun o => decide (o.2.2 < 0)) = .ok true := by
  decide +kernel

end Imfit
