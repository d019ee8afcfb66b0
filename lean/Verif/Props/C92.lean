import Verif.Spec.Images
import Verif.Lemmas.Fit

/-!
# C92: images are read whole or refused, and written so that they can be read
-/

namespace Imfit

open Spec

variable {α : Type}

/-! ## Single calls -/

/-- Nothing but failures and open files changed. -/
def Same (w w' : Disk α) : Prop := w'.files = w.files

/-- No call fails. -/
def Calm (w : Disk α) : Prop := ∀ b ∈ w.faults, b = false

theorem Calm.fails {w : Disk α} (h : Calm w) : w.fails = false := by
  unfold Disk.fails
  cases hf : w.faults with
  | nil => rfl
  | cons b l => exact h b (by rw [hf]; simp)

theorem Calm.next {w : Disk α} (h : Calm w) : Calm w.next := fun b hb => h b (List.mem_of_mem_tail hb)

theorem open_none (w : Disk α) (name : Str) (h : w.fails = true ∨ w.files name = none) : fitsOpen w name false = (w.next, true, none) := by
  unfold fitsOpen
  rw [if_neg (by simp)]
  rcases h with h | h
  · rw [if_pos h]
  · by_cases hf : w.fails = true
    · rw [if_pos hf]
    · rw [if_neg hf, h]

theorem open_some (w : Disk α) (name : Str) (f : FitsFile α) (h : w.fails = false) (hf : w.files name = some f) :
    fitsOpen w name false = ({ w.next with opened := w.opened + 1 }, false, some f) := by
  unfold fitsOpen
  rw [if_neg (by simp), if_neg (by simp [h]), hf]

theorem open_cases (w : Disk α) (name : Str) : fitsOpen w name false = (w.next, true, none) ∨
    ∃ f, w.files name = some f ∧ w.fails = false ∧ fitsOpen w name false = ({ w.next with opened := w.opened + 1 }, false, some f) := by
  by_cases h : w.fails = true
  · exact Or.inl (open_none w name (Or.inl h))
  · cases hf : w.files name with
    | none => exact Or.inl (open_none w name (Or.inr hf))
    | some f => exact Or.inr ⟨f, rfl, by simpa using h, open_some w name f (by simpa using h) hf⟩

/-- The unit a name selects. -/
theorem sound_unit {files : Str → Option (FitsFile α)} (hs : Sound files) {name : Str} {f : FitsFile α} (hf : files name = some f) :
    ∃ h, f.unit f.current = some h ∧ f.hdus[f.current - 1]? = some h ∧ 0 < f.current ∧
      (h.image = true → h.naxis = 2 → ∃ c r : ℕ, h.keys = [(c : ℤ), (r : ℤ)] ∧ h.pixels.length = c * r) := by
  obtain ⟨h0, h, h1, h2⟩ := hs name f hf
  exact ⟨h, by unfold FitsFile.unit; rw [if_neg (by omega), h1], h1, h0, h2⟩

theorem checkHdu_ok (w : Disk α) (f : FitsFile α) (n : ℕ) (h : Hdu α) (hu : f.unit n = some h) (h1 : w.fails = false) (h2 : w.next.fails = false) :
    checkHdu w f n false = .ok (if h.image then w.next.next else w.next, false, h.image && (h.naxis == 2)) := by
  unfold checkHdu fitsMove fitsDim
  rw [if_neg (by simp), if_neg (by simp [h1]), hu]
  cases hi : h.image with
  | false =>
    simp only [given, ok_bind, hi, Bool.false_eq_true, if_false]
    rfl
  | true =>
    simp only [given, ok_bind, hi, if_true, Bool.false_eq_true, if_false, h2]
    rfl

/-- The first look at the file. -/
theorem check_ok (w : Disk α) (name : Str) (f : FitsFile α) (h : Hdu α) (hf : w.files name = some f) (hu : f.unit f.current = some h)
    (h0 : w.fails = false) (h1 : w.next.fails = false) (h2 : w.next.next.fails = false) :
    ∃ k, checkForImage w name = .ok ({ w with faults := w.faults.drop k }, h.image && (h.naxis == 2)) := by
  unfold checkForImage
  rw [open_some w name f h0 hf]
  simp only
  rw [checkHdu_ok _ f _ h hu (by exact h1) (by exact h2)]
  simp only [ok_bind]
  cases h.image with
  | false => exact ⟨3, by simp [fitsClose, Disk.next, ← List.drop_one, List.drop_drop]⟩
  | true => exact ⟨4, by simp [fitsClose, Disk.next, ← List.drop_one, List.drop_drop]⟩

theorem toInt32_small (c : ℕ) (h : c < 2147483648) : toInt32 c = c := by
  unfold toInt32
  omega

/-- The second look: null or the image. -/
theorem readOpened_cases (w : Disk α) (f : FitsFile α) (h : Hdu α) (hu : f.unit f.current = some h) (c r : ℕ) (hk : h.keys = [(c : ℤ), (r : ℤ)])
    (hp : h.pixels.length = c * r) (hc : c < 2147483648) (hr : r < 2147483648) :
    ∃ w' o, readOpened w f false = .ok (w', o) ∧ w'.files = w.files ∧ (o = none ∨ o = some (h.pixels, (c : ℤ), (r : ℤ))) ∧
      (Calm w → o = some (h.pixels, (c : ℤ), (r : ℤ)) ∧ w'.opened = w.opened - 1 ∧ Calm w') := by
  unfold readOpened
  by_cases h1 : w.fails = true
  · refine ⟨w.next, none, ?_, rfl, Or.inl rfl, fun hcalm => by rw [hcalm.fails] at h1; simp at h1⟩
    have ek : fitsKeys w f false = (w.next, true, []) := by simp [fitsKeys, h1]
    rw [ek]
    rfl
  · have h1' : w.fails = false := by simpa using h1
    have ek : fitsKeys w f false = (w.next, false, [(c : ℤ), (r : ℤ)]) := by
      unfold fitsKeys
      rw [if_neg (by simp), if_neg h1, hu]
      simp [hk]
    rw [ek]
    simp only [Bool.false_eq_true, if_false]
    show ∃ w' o, (do
      let a ← given (some (c : ℤ))
      let b ← given (some (r : ℤ))
      let p := fitsPix w.next f (toInt32 a * toInt32 b) false
      if p.2.1 = true then Except.ok (p.1, none)
      else
        let cl := fitsClose p.1 p.2.1
        if cl.2 = true then Except.ok (cl.1, none) else Except.ok (cl.1, some (p.2.2, toInt32 a, toInt32 b))) = _ ∧ _
    simp only [given, ok_bind, toInt32_small c hc, toInt32_small r hr]
    by_cases h2 : w.next.fails = true
    · refine ⟨w.next.next, none, ?_, rfl, Or.inl rfl, fun hcalm => by rw [hcalm.next.fails] at h2; simp at h2⟩
      have ep : fitsPix w.next f ((c : ℤ) * (r : ℤ)) false = (w.next.next, true, []) := by simp [fitsPix, h2]
      rw [ep]
      rfl
    · have ep : fitsPix w.next f ((c : ℤ) * (r : ℤ)) false = (w.next.next, false, h.pixels) := by
        unfold fitsPix
        have hn : ((c : ℤ) * (r : ℤ)) = ((c * r : ℕ) : ℤ) := by push_cast; rfl
        rw [if_neg (by simp), if_neg h2, hu, hn]
        simp only [hp]
        rw [if_neg (by omega), Int.toNat_natCast, ← hp, List.take_length]
      rw [ep]
      simp only [Bool.false_eq_true, if_false, fitsClose, Bool.false_or]
      by_cases h3 : w.next.next.fails = true
      · rw [if_pos h3]
        exact ⟨_, _, rfl, rfl, Or.inl rfl, fun hcalm => by rw [hcalm.next.next.fails] at h3; simp at h3⟩
      · rw [if_neg h3]
        exact ⟨_, _, rfl, rfl, Or.inr rfl, fun hcalm => ⟨rfl, rfl, hcalm.next.next.next⟩⟩

/-! ## Reading -/

theorem check_none (w : Disk α) (name : Str) (h : fitsOpen w name false = (w.next, true, none)) : checkForImage w name = .ok (w.next, false) := by
  unfold checkForImage
  rw [h]

/-- Whatever calls fail (except the two that look at the type of the unit): either nothing is returned, or the image of that name with its size. -/
theorem C92_read_partial (w : Disk α) (hs : Sound w.files) (hm : Small w.files) (name : Str) (h1 : w.next.fails = false) (h2 : w.next.next.fails = false) :
    ∃ w' o, readImage w name = .ok (w', o) ∧ w'.files = w.files ∧
      ∀ px c r, o = some (px, c, r) → ∃ cn rn : ℕ, c = cn ∧ r = rn ∧ px.length = cn * rn ∧ IsImage w.files name cn rn px := by
  unfold readImage
  rcases open_cases w name with ho | ⟨f, hf, h0, _⟩
  · rw [check_none w name ho]
    exact ⟨w.next, none, rfl, rfl, by simp⟩
  · obtain ⟨h, hu, hg, hpos, hh⟩ := sound_unit hs hf
    obtain ⟨k, hk⟩ := check_ok w name f h hf hu h0 h1 h2
    rw [hk]
    simp only [ok_bind]
    by_cases hi : (h.image && (h.naxis == 2)) = true
    · rw [if_pos hi]
      simp only [Bool.and_eq_true, beq_iff_eq] at hi
      obtain ⟨c, r, hkeys, hlen⟩ := hh hi.1 hi.2
      have himg : IsImage w.files name c r h.pixels := ⟨f, h, hf, hpos, hg, hi.1, hi.2, hkeys, rfl⟩
      obtain ⟨hc, hr⟩ := hm name c r _ himg
      rcases open_cases ({ w with faults := w.faults.drop k } : Disk α) name with ho | ⟨f', hf', _, ho⟩
      · rw [ho]
        exact ⟨_, none, rfl, rfl, by simp⟩
      · rw [ho]
        have : f' = f := by
          have e : w.files name = some f' := hf'
          rw [hf] at e
          exact (Option.some.inj e).symm
        subst this
        obtain ⟨w', o, hr1, hr2, hr3, _⟩ := readOpened_cases
          ({ ({ w with faults := w.faults.drop k } : Disk α).next with opened := w.opened + 1 } : Disk α) f' h hu c r hkeys hlen hc hr
        refine ⟨w', o, hr1, hr2, ?_⟩
        rintro px c' r' rfl
        rcases hr3 with h4 | h4
        · simp at h4
        · simp only [Option.some.injEq, Prod.mk.injEq] at h4
          obtain ⟨rfl, rfl, rfl⟩ := h4
          exact ⟨c, r, rfl, rfl, hlen, himg⟩
    · rw [if_neg hi]
      exact ⟨_, none, rfl, rfl, by simp⟩

theorem calm_drop {w : Disk α} (h : Calm w) (k : ℕ) : Calm ({ w with faults := w.faults.drop k } : Disk α) :=
  fun b hb => h b (List.mem_of_mem_drop hb)

/-- If no call fails, an image is read, with its pixels and its size, and no file is left open. -/
theorem C92_read_image (w : Disk α) (hs : Sound w.files) (hm : Small w.files) (hw : Calm w) (name : Str) (c r : ℕ) (px : List α)
    (hi : IsImage w.files name c r px) :
    ∃ w', readImage w name = .ok (w', some (px, (c : ℤ), (r : ℤ))) ∧ w'.files = w.files ∧ w'.opened = w.opened ∧ Calm w' := by
  obtain ⟨hc, hr⟩ := hm name c r px hi
  obtain ⟨f, h, hf, hpos, hg, hi1, hi2, hkeys, rfl⟩ := hi
  have hu : f.unit f.current = some h := by unfold FitsFile.unit; rw [if_neg (by omega), hg]
  have hlen : h.pixels.length = c * r := by
    obtain ⟨_, h', hg', hh⟩ := hs name f hf
    rw [hg] at hg'
    cases hg'
    obtain ⟨c', r', hk', hl⟩ := hh hi1 hi2
    rw [hkeys] at hk'
    simp only [List.cons.injEq, Nat.cast_inj, and_true] at hk'
    rw [hl, hk'.1, hk'.2]
  obtain ⟨k, hk⟩ := check_ok w name f h hf hu hw.fails hw.next.fails hw.next.next.fails
  unfold readImage
  rw [hk]
  simp only [ok_bind, hi1, hi2, BEq.rfl, Bool.and_self, if_true]
  have hd := calm_drop hw k
  rw [open_some _ name f hd.fails hf]
  obtain ⟨w', o, hr1, hr2, _, hr4⟩ := readOpened_cases
    ({ ({ w with faults := w.faults.drop k } : Disk α).next with opened := w.opened + 1 } : Disk α) f h hu c r hkeys hlen hc hr
  obtain ⟨rfl, h5, h6⟩ := hr4 (by exact hd.next)
  exact ⟨w', hr1, hr2, by rw [h5]; simp, h6⟩

/-- If no call fails and the name does not stand for a two-dimensional image, nothing is returned and no file is left open. -/
theorem C92_read_other (w : Disk α) (hs : Sound w.files) (hw : Calm w) (name : Str) (hi : ∀ c r px, ¬ IsImage w.files name c r px) :
    ∃ w', readImage w name = .ok (w', none) ∧ w'.files = w.files ∧ w'.opened = w.opened := by
  unfold readImage
  rcases open_cases w name with ho | ⟨f, hf, h0, _⟩
  · rw [check_none w name ho]
    exact ⟨w.next, rfl, rfl, rfl⟩
  · obtain ⟨h, hu, hg, hpos, hh⟩ := sound_unit hs hf
    obtain ⟨k, hk⟩ := check_ok w name f h hf hu h0 hw.next.fails hw.next.next.fails
    rw [hk]
    simp only [ok_bind]
    rw [if_neg]
    · exact ⟨_, rfl, rfl, rfl⟩
    · intro hb
      simp only [Bool.and_eq_true, beq_iff_eq] at hb
      obtain ⟨c, r, hkeys, _⟩ := hh hb.1 hb.2
      exact hi c r _ ⟨f, h, hf, hpos, hg, hb.1, hb.2, hkeys, rfl⟩

/-- If the unit cannot be selected, its type is looked at although it was never set. -/
theorem C92_uninit_false (w : Disk α) (name : Str) (f : FitsFile α) (hf : w.files name = some f) (l : List Bool) (hl : w.faults = false :: true :: l) :
    readImage w name = .error .uninit := by
  have h0 : w.fails = false := by simp [Disk.fails, hl]
  have h1 : w.next.fails = true := by simp [Disk.fails, Disk.next, hl]
  unfold readImage checkForImage
  rw [open_some w name f h0 hf]
  simp only
  unfold checkHdu fitsMove
  rw [if_neg (by simp), if_pos (by exact h1)]
  rfl

/-- If the pixels cannot be read, the file stays open. -/
theorem C92_leak_false (w : Disk α) (name : Str) (c r : ℕ) (px : List α) (hi : IsImage w.files name c r px)
    (hl : w.faults = [false, false, false, false, false, false, true]) :
    ∃ w', readImage w name = .ok (w', none) ∧ w'.opened = w.opened + 1 := by
  obtain ⟨f, h, hf, hpos, hg, hi1, hi2, hkeys, rfl⟩ := hi
  have hu : f.unit f.current = some h := by unfold FitsFile.unit; rw [if_neg (by omega), hg]
  refine ⟨{ w with opened := w.opened + 1, faults := [] }, ?_, rfl⟩
  · unfold readImage checkForImage
    rw [open_some w name f (by simp [Disk.fails, hl]) hf]
    simp only
    rw [checkHdu_ok _ f _ h hu (by simp [Disk.fails, Disk.next, hl]) (by simp [Disk.fails, Disk.next, hl])]
    simp only [ok_bind, hi1, hi2, BEq.rfl, Bool.and_self, if_true]
    rw [open_some _ name f (by simp [Disk.fails, Disk.next, hl, fitsClose]) (by exact hf)]
    simp only [readOpened, fitsKeys, fitsPix, fitsClose, Disk.fails, Disk.next, hl, hu, hkeys, given]
    simp [ok_bind]

/-- A side that does not fit into an `int`: a small piece of the image is returned as if it were all. -/
theorem C92_large_false (w : Disk α) (hw : Calm w) (name : Str) (f : FitsFile α) (h : Hdu α) (v : α) (vs : List α) (hf : w.files name = some f)
    (hu : f.unit f.current = some h) (hi1 : h.image = true) (hi2 : h.naxis = 2) (hkeys : h.keys = [4294967297, 1]) (hpx : h.pixels = v :: vs) :
    ∃ w', readImage w name = .ok (w', some ([v], 1, 1)) := by
  obtain ⟨k, hk⟩ := check_ok w name f h hf hu hw.fails hw.next.fails hw.next.next.fails
  have hd := calm_drop hw k
  have e : toInt32 4294967297 = 1 ∧ toInt32 1 = 1 := by decide
  · unfold readImage
    rw [hk]
    simp only [ok_bind, hi1, hi2, BEq.rfl, Bool.and_self, if_true]
    rw [open_some _ name f hd.fails (by exact hf)]
    have h1 := hd.next.fails
    have h2 := hd.next.next.fails
    have h3 := hd.next.next.next.fails
    unfold Disk.fails Disk.next at h1 h2 h3
    simp only at h1 h2 h3
    simp only [readOpened, fitsKeys, fitsPix, fitsClose, Disk.fails, Disk.next, h1, h2, hu, hkeys, given, Bool.false_eq_true, if_false, List.take_succ_cons,
      List.take_zero, List.getElem?_cons_zero, List.getElem?_cons_succ, ok_bind, e.1, e.2, hpx, List.length_cons]
    have hn : ¬((1 : ℤ) * 1 < 0 ∨ ((vs.length + 1 : ℕ) : ℤ) < 1 * 1) := by omega
    simp only [if_neg hn, h3, Bool.false_eq_true, if_false, Bool.or_self]
    exact ⟨_, rfl⟩

/-- The size of something that is not a two-dimensional image: refused, but the file stays open, although no call failed. -/
theorem C92_size_leak_false (w : Disk α) (hw : Calm w) (name : Str) (f : FitsFile α) (h : Hdu α) (hf : w.files name = some f)
    (hu : f.unit f.current = some h) (hi : h.image = false) : ∃ w', getImageSize w name = .ok (w', 0, 0, false) ∧ w'.opened = w.opened + 1 := by
  · unfold getImageSize
    rw [open_some w name f hw.fails hf]
    simp only
    rw [checkHdu_ok _ f _ h hu (by exact hw.next.fails) (by exact hw.next.next.fails)]
    simp only [ok_bind, hi, Bool.false_and, Bool.false_eq_true, if_false]
    exact ⟨_, rfl, rfl⟩

/-- The size of an image. -/
theorem C92_size (w : Disk α) (hm : Small w.files) (hw : Calm w) (name : Str) (c r : ℕ) (px : List α) (hi : IsImage w.files name c r px) :
    ∃ w', getImageSize w name = .ok (w', (c : ℤ), (r : ℤ), true) ∧ w'.files = w.files ∧ w'.opened = w.opened := by
  obtain ⟨hc, hr⟩ := hm name c r px hi
  obtain ⟨f, h, hf, hpos, hg, hi1, hi2, hkeys, rfl⟩ := hi
  have hu : f.unit f.current = some h := by unfold FitsFile.unit; rw [if_neg (by omega), hg]
  have h3 := hw.next.next.next.fails
  have h4 := hw.next.next.next.next.fails
  unfold Disk.fails Disk.next at h3 h4
  simp only at h3 h4
  · unfold getImageSize
    rw [open_some w name f hw.fails hf]
    simp only
    rw [checkHdu_ok _ f _ h hu (by exact hw.next.fails) (by exact hw.next.next.fails)]
    simp only [ok_bind, hi1, hi2, BEq.rfl, Bool.and_self, if_true]
    simp only [fitsKeys, fitsClose, Disk.fails, Disk.next, h3, h4, hu, hkeys, given, Bool.false_eq_true, if_false, List.take_succ_cons,
      List.take_zero, List.getElem?_cons_zero, List.getElem?_cons_succ, ok_bind, toInt32_small c hc, toInt32_small r hr, Bool.or_self]
    exact ⟨_, rfl, rfl, rfl⟩

end Imfit
