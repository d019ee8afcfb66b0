import Verif.Props.C92

/-!
# C92: writing of images
-/

namespace Imfit

open Spec

variable {α : Type}

/-- What is known in the middle of writing: files of other names are as before, the number of open files is `n`, and if no call has failed the file holds `f`. -/
structure Writing (w0 w : Disk α) (st : Bool) (name : Str) (n : ℕ) (f : FitsFile α) : Prop where
  other : ∀ s, s ≠ name → w.files s = w0.files s
  file : st = false → w.files name = some f ∧ w.opened = n
  calm : Calm w0 → st = false ∧ Calm w

theorem Writing.edit {w0 w : Disk α} {st : Bool} {name : Str} {n : ℕ} {f : FitsFile α} (h : Writing w0 w st name n f) (e : FitsFile α → FitsFile α) :
    Writing w0 (fitsEdit w name st e).1 (fitsEdit w name st e).2 name n (e f) := by
  unfold fitsEdit
  cases st with
  | true => exact ⟨h.other, by simp, fun hc => by simpa using (h.calm hc).1⟩
  | false =>
    rw [if_neg (by simp)]
    by_cases hf : w.fails = true
    · rw [if_pos hf]
      exact ⟨h.other, by simp, fun hc => by rw [(h.calm hc).2.fails] at hf; simp at hf⟩
    · rw [if_neg hf, (h.file rfl).1]
      refine ⟨fun s hs => ?_, fun _ => ⟨?_, (h.file rfl).2⟩, fun hc => ⟨rfl, (h.calm hc).2.next⟩⟩
      · simp only [Disk.put, if_neg hs]
        exact h.other s hs
      · simp [Disk.put]

theorem Writing.comments {w0 : Disk α} {name : Str} {n : ℕ} (cs : List Str) : ∀ {w : Disk α} {st : Bool} {h : Hdu α},
    Writing w0 w st name n ⟨[h], 1⟩ →
      Writing w0 (writeComments name cs w st).1 (writeComments name cs w st).2 name n ⟨[{ h with comments := h.comments ++ cs }], 1⟩ := by
  induction cs with
  | nil =>
    intro w st h hw
    simpa [writeComments] using hw
  | cons s cs ih =>
    intro w st h hw
    have := ih (hw.edit (addComment s))
    simpa [writeComments, addComment] using this

/-- Whatever calls fail: the result is 0 or -1, files of other names stay, and if the result is 0 the file is the image, in single precision, with its
comments, and it is closed. -/
theorem C92_save (flt : α → α) (w : Disk α) (ps : List α) (name : Str) (c r : ℕ) (hl : ps.length = c * r) (cs : List Str) :
    ∃ w' s, saveImage flt w (some ps) name c r cs = .ok (w', s) ∧ (s = 0 ∨ s = -1) ∧ (∀ o, o ≠ name → w'.files o = w.files o) ∧
      (s = 0 → w'.files name = some ⟨[⟨true, 2, [(c : ℤ), (r : ℤ)], ps.map flt, cs⟩], 1⟩ ∧ IsImage w'.files name c r (ps.map flt) ∧
        w'.opened = w.opened) ∧
      (Calm w → s = 0 ∧ Calm w') := by
  have h0 : Writing w (fitsCreate w name false).1 (fitsCreate w name false).2 name (w.opened + 1) ⟨[], 1⟩ := by
    unfold fitsCreate
    rw [if_neg (by simp)]
    by_cases hf : w.fails = true
    · rw [if_pos hf]
      exact ⟨fun _ _ => rfl, by simp, fun hc => by rw [hc.fails] at hf; simp at hf⟩
    · rw [if_neg hf]
      refine ⟨fun s hs => ?_, fun _ => ⟨?_, rfl⟩, fun hc => ⟨rfl, hc.next⟩⟩
      · simp only [Disk.put, if_neg hs]
        rfl
      · simp [Disk.put]
  have h1 := h0.edit (newImage (c : ℤ) (r : ℤ))
  have h2 := Writing.comments cs (h := ⟨true, 2, [(c : ℤ), (r : ℤ)], [], []⟩) h1
  have h3 := h2.edit id
  have h4 := h3.edit (setPixels ((ps.take ((c : ℤ) * (r : ℤ)).toNat).map flt))
  unfold saveImage
  simp only
  have hn : ((c : ℤ) * (r : ℤ)) = ((c * r : ℕ) : ℤ) := by push_cast; rfl
  have ht : ps.take ((c : ℤ) * (r : ℤ)).toNat = ps := by rw [hn, Int.toNat_natCast, ← hl, List.take_length]
  rw [if_neg (by rw [hn, hl]; omega)]
  rw [ht] at h4 ⊢
  generalize fitsEdit _ name _ (setPixels (ps.map flt)) = p at h4 ⊢
  obtain ⟨wp, sp⟩ := p
  simp only at h4 ⊢
  cases sp with
  | true =>
    rw [if_pos rfl]
    exact ⟨_, _, rfl, Or.inr rfl, h4.other, by simp, fun hc => by simpa using (h4.calm hc).1⟩
  | false =>
    rw [if_neg (by simp)]
    unfold fitsClose
    simp only [Bool.false_or]
    by_cases hf : wp.fails = true
    · rw [if_pos hf]
      exact ⟨_, _, rfl, Or.inr rfl, h4.other, by simp, fun hc => by rw [(h4.calm hc).2.fails] at hf; simp at hf⟩
    · rw [if_neg hf]
      have hfile : wp.files name = some ⟨[⟨true, 2, [(c : ℤ), (r : ℤ)], ps.map flt, cs⟩], 1⟩ := by
        rw [(h4.file rfl).1]
        simp [setPixels]
      refine ⟨_, _, rfl, Or.inl rfl, h4.other, fun _ => ⟨hfile, ⟨_, _, hfile, by simp, rfl, rfl, rfl, rfl, rfl⟩, ?_⟩, fun hc => ⟨rfl, (h4.calm hc).2.next⟩⟩
      simp only [(h4.file rfl).2, Nat.add_sub_cancel]

/-- An image that was written is read back with its size and its pixels in single precision, if no call fails. -/
theorem C92_round_trip (flt : α → α) (w : Disk α) (hs : Sound w.files) (hm : Small w.files) (hw : Calm w) (ps : List α) (name : Str) (c r : ℕ)
    (hc : c < 2147483648) (hr : r < 2147483648) (hl : ps.length = c * r) (cs : List Str) :
    ∃ w' w'', saveImage flt w (some ps) name c r cs = .ok (w', 0) ∧ readImage w' name = .ok (w'', some (ps.map flt, (c : ℤ), (r : ℤ))) ∧
      w''.opened = w.opened := by
  obtain ⟨w', s, h1, _, h2, h3, h4⟩ := C92_save flt w ps name c r hl cs
  obtain ⟨rfl, hc'⟩ := h4 hw
  obtain ⟨h5, h6, h7⟩ := h3 rfl
  have hs' : Sound w'.files := by
    intro o f hf
    by_cases ho : o = name
    · subst ho
      rw [h5] at hf
      cases hf
      exact ⟨by simp, _, rfl, fun _ _ => ⟨c, r, rfl, by simpa using hl⟩⟩
    · rw [h2 o ho] at hf
      exact hs o f hf
  have hm' : Small w'.files := by
    rintro o c' r' px ⟨f, h, hf, hrest⟩
    by_cases ho : o = name
    · subst ho
      rw [h5] at hf
      cases hf
      obtain ⟨_, hg, _, _, hk, _⟩ := hrest
      simp only [Nat.sub_self, List.getElem?_cons_zero, Option.some.injEq] at hg
      subst hg
      simp only [List.cons.injEq, Nat.cast_inj, and_true] at hk
      rw [← hk.1, ← hk.2]
      exact ⟨hc, hr⟩
    · rw [h2 o ho] at hf
      exact hm o c' r' px ⟨f, h, hf, hrest⟩
  obtain ⟨w'', h8, _, h9, _⟩ := C92_read_image w' hs' hm' hc' name c r _ h6
  exact ⟨w', w'', h1, h8, by rw [h9, h7]⟩

/-- A value that is not a number of single precision is not the value that is read. -/
theorem C92_float_false (flt : α → α) (w : Disk α) (hs : Sound w.files) (hm : Small w.files) (hw : Calm w) (name : Str) (v : α) (hv : flt v ≠ v) :
    ∃ w' w'' px, saveImage flt w (some [v]) name 1 1 [] = .ok (w', 0) ∧ readImage w' name = .ok (w'', some (px, 1, 1)) ∧ px ≠ [v] := by
  obtain ⟨w', w'', h1, h2, _⟩ := C92_round_trip flt w hs hm hw [v] name 1 1 (by norm_num) (by norm_num) rfl []
  exact ⟨w', w'', _, h1, h2, by simpa using hv⟩

/-- If the image cannot be created, the file that was there is lost and the new one stays open. -/
theorem C92_lost_false (flt : α → α) (w : Disk α) (ps : List α) (name : Str) (c r : ℕ) (hf : w.faults = [false, true]) :
    ∃ w', saveImage flt w (some ps) name c r [] = .ok (w', -1) ∧ w'.files name = some ⟨[], 1⟩ ∧ w'.opened = w.opened + 1 := by
  unfold saveImage fitsCreate fitsEdit writeComments
  simp [Disk.fails, Disk.next, Disk.put, hf]

/-- A null pointer is refused. -/
theorem C92_null (flt : α → α) (w : Disk α) (name : Str) (c r : Int) (cs : List Str) : saveImage flt w none name c r cs = .ok (w, -2) := rfl

/-- Too few values: read outside the array. -/
theorem C92_short_false (flt : α → α) (w : Disk α) (hw : Calm w) (name : Str) (ps : List α) (c r : ℕ) (h : ps.length < c * r) :
    saveImage flt w (some ps) name c r [] = .error .oob := by
  have h1 := hw.fails
  have h2 := hw.next.fails
  have h3 := hw.next.next.fails
  have hc : ((c : ℤ) * (r : ℤ)) = ((c * r : ℕ) : ℤ) := by push_cast; rfl
  have e1 : fitsCreate w name false = ({ w.next.put name ⟨[], 1⟩ with opened := w.opened + 1 }, false) := by simp [fitsCreate, h1]
  have e2 : (fitsEdit (fitsCreate w name false).1 name (fitsCreate w name false).2 (newImage (c : ℤ) (r : ℤ))) =
      (({ w.next.put name ⟨[], 1⟩ with opened := w.opened + 1 } : Disk α).next.put name (newImage c r ⟨[], 1⟩), false) := by
    rw [e1]
    unfold fitsEdit
    rw [if_neg (by simp), if_neg (by show ¬(w.next.fails = true); simp [h2])]
    simp [Disk.put]
  unfold saveImage
  simp only [writeComments, e2]
  rw [if_pos]
  refine ⟨?_, by rw [hc]; omega⟩
  unfold fitsEdit
  rw [if_neg (by simp), if_neg (by show ¬(w.next.next.fails = true); simp [h3])]
  simp [Disk.put]

/-! ## A case -/

/-- A disk with a table and an image of 2 columns and 1 row as its extension. -/
def oneFile (a b : Str) : Disk ℤ :=
  ⟨fun s => if s = a then some ⟨[⟨false, 2, [8, 3], [], []⟩, ⟨true, 2, [2, 1], [5, 6], []⟩], 1⟩
    else if s = b then some ⟨[⟨false, 2, [8, 3], [], []⟩, ⟨true, 2, [2, 1], [5, 6], []⟩], 2⟩ else none, 0, []⟩

/-- The image that was read. -/
def imageRead : Res (Disk ℤ × Option (List ℤ × Int × Int)) → Res (Option (List ℤ × Int × Int))
  | .ok (_, o) => .ok o
  | .error e => .error e

example : imageRead (readImage (oneFile ['t'] ['t', '1']) ['t']) = .ok none ∧
    imageRead (readImage (oneFile ['t'] ['t', '1']) ['t', '1']) = .ok (some ([5, 6], 2, 1)) ∧
    imageRead (readImage (oneFile ['t'] ['t', '1']) ['u']) = .ok none ∧
    imageRead (do
      let s ← saveImage (fun v => v / 2 * 2) (oneFile ['t'] ['t', '1']) (some [5, 6, 7, 8]) ['u'] 2 2 []
      readImage s.1 ['u']) = .ok (some ([4, 6, 6, 8], 2, 2)) := by
  decide +kernel

example (a b : Str) : Sound (oneFile a b).files ∧ Small (oneFile a b).files ∧ Calm (oneFile a b) := by
  have key : ∀ name f, (oneFile a b).files name = some f → f = ⟨[⟨false, 2, [8, 3], [], []⟩, ⟨true, 2, [2, 1], [5, 6], []⟩], 1⟩ ∨
      f = ⟨[⟨false, 2, [8, 3], [], []⟩, ⟨true, 2, [2, 1], [5, 6], []⟩], 2⟩ := by
    intro name f hf
    unfold oneFile at hf
    by_cases h1 : name = a
    · simp only [h1, if_true, Option.some.injEq] at hf
      exact Or.inl hf.symm
    · by_cases h2 : name = b
      · simp only [if_neg h1, if_pos h2, Option.some.injEq] at hf
        exact Or.inr hf.symm
      · simp [h1, h2] at hf
  refine ⟨?_, ?_, by simp [Calm, oneFile]⟩
  · intro name f hf
    rcases key name f hf with rfl | rfl
    · exact ⟨by simp, _, rfl, by simp⟩
    · exact ⟨by simp, _, rfl, fun _ _ => ⟨2, 1, rfl, rfl⟩⟩
  · rintro name c r px ⟨f, h, hf, _, hg, hi, _, hk, _⟩
    rcases key name f hf with rfl | rfl
    · simp at hg
      subst hg
      simp at hi
    · simp at hg
      subst hg
      simp at hk
      omega

end Imfit
