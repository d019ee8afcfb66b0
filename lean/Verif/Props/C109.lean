import Verif.Props.C92
import Verif.Props.C106
import Verif.Props.C108

/-!
# C109 — The image made by `makeimage` has the size that was asked for
-/

namespace Imfit

open Spec

variable {α β : Type}

namespace Spec

/-- A line with the number of columns. -/
def isColumns (kv : Str × Str) : Bool := decide (kv.1 = "NCOLS".toList ∨ kv.1 = "NCOLUMNS".toList)

/-- The number of columns in a configuration file, which has two names: the last one. -/
def lastColumns (opts : List (Str × Str)) : Option Str := (opts.reverse.find? isColumns).map (·.2)

/-- The size of an image for what is given on the command line and in the configuration file. -/
def askedSize (g : CmdGiven) (opts : List (Str × Str)) (ref : Option (Int × Int)) : Option (Int × Int) :=
  sizeFor ((g.first "ncols").map wholeVal) ((g.first "nrows").map wholeVal) ((lastColumns opts).map wholeVal) ((lastValue opts "NROWS").map wholeVal) ref

/-- The sizes in the configuration file are numbers. -/
def SizesWell (opts : List (Str × Str)) : Prop :=
  ∀ kv ∈ opts, kv.1 = "NCOLS".toList ∨ kv.1 = "NCOLUMNS".toList ∨ kv.1 = "NROWS".toList → IsWhole 2147483647 kv.2

/-- The reference image, if one is named, can be read and has this size. -/
def RefIs (w : Disk β) (name : Option Str) (ref : Option (Int × Int)) : Prop :=
  match name with
  | none => ref = none
  | some n => ∃ (c r : ℕ) (px : List β), 1 ≤ c ∧ 1 ≤ r ∧ IsImage w.files n c r px ∧ ref = some ((c : Int), (r : Int))

/-- An image is to be saved. -/
def Saves (g : CmdGiven) : Prop := g.has "nosave" = false ∧ g.has "print-fluxes" = false ∧ g.first "timing" = none

end Spec

theorem lastBy_cons (q : Str × Str → Bool) (kv : Str × Str) (opts : List (Str × Str)) :
    ((kv :: opts).reverse.find? q).map (·.2) = ((opts.reverse.find? q).map (·.2)).or (if q kv then some kv.2 else none) := by
  rw [List.reverse_cons, List.find?_append]
  cases opts.reverse.find? q with
  | some x => rfl
  | none =>
    by_cases h : q kv = true
    · simp [h]
    · simp [h]

theorem lastColumns_cons (kv : Str × Str) (opts : List (Str × Str)) : lastColumns (kv :: opts) = (lastColumns opts).or (if isColumns kv then some kv.2 else none) :=
  lastBy_cons isColumns kv opts

theorem both_of_pos (x y : Option Int) (h : 0 < x.getD 0 ∧ 0 < y.getD 0) : x.isSome = true ∧ y.isSome = true := by
  cases x with
  | none => exact absurd h.1 (by decide)
  | some a =>
    cases y with
    | none => exact absurd h.2 (by decide)
    | some b => exact ⟨rfl, rfl⟩

theorem sizeFor_missing (a b c d : Option Int) (ref : Option (Int × Int)) (h : ¬ ((a.or c).isSome = true ∧ (b.or d).isSome = true)) : sizeFor a b c d ref = ref := by
  unfold sizeFor
  split
  · rename_i h1 h2
    rw [h1, h2] at h
    exact absurd ⟨rfl, rfl⟩ h
  · rfl

/-- The options after the configuration file. -/
def afterMake (opts : List (Str × Str)) (o : MakeOpts α) : MakeOpts α :=
  { o with
    nColumns := if o.nColumnsSet then o.nColumns else ((lastColumns opts).map wholeVal).getD o.nColumns
    nRows := if o.nRowsSet then o.nRows else ((lastValue opts "NROWS").map wholeVal).getD o.nRows }

theorem makeConfig_eq (opts : List (Str × Str)) (o : MakeOpts α) (h : SizesWell opts) : makeConfig opts o = .ok (afterMake opts o) := by
  induction opts generalizing o with
  | nil =>
    show Except.ok o = Except.ok { o with nColumns := if o.nColumnsSet then o.nColumns else o.nColumns, nRows := if o.nRowsSet then o.nRows else o.nRows }
    simp only [ite_self]
  | cons kv opts ih =>
    have key : ∀ o', makeConfigOption o kv = .ok o' → afterMake opts o' = afterMake (kv :: opts) o → makeConfig (kv :: opts) o = .ok (afterMake (kv :: opts) o) := by
      intro o' h1 h2
      rw [makeConfig, List.foldlM_cons, h1, ok_bind, ← h2]
      exact ih o' fun kv hk => h kv (by simp [hk])
    have hw := h kv (by simp)
    have q : isColumns kv = true ↔ kv.1 = "NCOLS".toList ∨ kv.1 = "NCOLUMNS".toList := decide_eq_true_iff
    by_cases h1 : kv.1 = "NCOLS".toList ∨ kv.1 = "NCOLUMNS".toList
    · have hq := q.2 h1
      have hne : kv.1 ≠ "NROWS".toList := by
        rcases h1 with h1 | h1
        · rw [h1]; decide
        · rw [h1]; decide
      obtain ⟨n, hn1, hn2, hn3⟩ := hw (h1.elim .inl fun h => .inr (.inl h))
      cases hs : o.nColumnsSet with
      | true =>
        refine key o (by rw [makeConfigOption, if_pos h1, if_pos hs]) ?_
        rw [afterMake, afterMake, lastValue_cons, if_neg hne, Option.or_none, hs, if_pos rfl, if_pos rfl]
      | false =>
        refine key { o with nColumns := wholeVal kv.2 } ?_ ?_
        · rw [makeConfigOption, if_pos h1, if_neg (by simp [hs]), hn3, repr_first n hn1, if_neg (by decide), atoi_repr n hn2, ok_bind, wholeVal_repr]
        · rw [afterMake, afterMake, lastColumns_cons, lastValue_cons, if_neg hne, if_pos hq, Option.or_none, hs, Option.map_or, or_getD]
          rfl
    have hq : ¬ isColumns kv = true := fun h => h1 (q.1 h)
    by_cases h2 : kv.1 = "NROWS".toList
    · obtain ⟨n, hn1, hn2, hn3⟩ := hw (.inr (.inr h2))
      cases hs : o.nRowsSet with
      | true =>
        refine key o (by rw [makeConfigOption, if_neg h1, if_pos h2, if_pos hs]) ?_
        rw [afterMake, afterMake, lastColumns_cons, if_neg hq, Option.or_none, hs, if_pos rfl, if_pos rfl]
      | false =>
        refine key { o with nRows := wholeVal kv.2 } ?_ ?_
        · rw [makeConfigOption, if_neg h1, if_pos h2, if_neg (by simp [hs]), hn3, repr_first n hn1, if_neg (by decide), atoi_repr n hn2, ok_bind, wholeVal_repr]
        · rw [afterMake, afterMake, lastColumns_cons, lastValue_cons, if_pos h2, if_neg hq, Option.or_none, hs, Option.map_or, or_getD]
          rfl
    · refine key o (by rw [makeConfigOption, if_neg h1, if_neg h2]) ?_
      rw [afterMake, afterMake, lastColumns_cons, lastValue_cons, if_neg hq, if_neg h2, Option.or_none, Option.or_none]

theorem find_mem {opts : List (Str × Str)} {q : Str × Str → Bool} {t : Str} (h : (opts.reverse.find? q).map (·.2) = some t) : ∃ kv ∈ opts, q kv = true ∧ kv.2 = t := by
  obtain ⟨kv, h1, h2⟩ := Option.map_eq_some_iff.1 h
  exact ⟨kv, by simpa using List.mem_of_find?_eq_some h1, List.find?_some h1, h2⟩

variable [FP α]

/-- What the sizes in the options are after the command line and the configuration file. -/
theorem sizes_after (num : Str → α) (cores : Int) (g : CmdGiven) (hf : MakeWellFormed g) (o : MakeOpts α) (ho : ObeysMake num cores g o) (opts : List (Str × Str))
    (hc : SizesWell opts) :
    ∃ x y : Option Int, x = ((g.first "ncols").map wholeVal).or ((lastColumns opts).map wholeVal) ∧ y = ((g.first "nrows").map wholeVal).or ((lastValue opts "NROWS").map wholeVal) ∧
      (afterMake opts o).nColumns = x.getD 0 ∧ (afterMake opts o).nRows = y.getD 0 ∧ (∀ c ∈ x, 1 ≤ c) ∧ (∀ r ∈ y, 1 ≤ r) ∧
      (o.noDims = false → x.isSome ∧ y.isSome) := by
  refine ⟨_, _, rfl, rfl, ?_, ?_, ?_, ?_, ?_⟩
  · simp only [afterMake, ho.nColumns.1, ho.nColumns.2]
    cases g.first "ncols" <;> simp
  · simp only [afterMake, ho.nRows.1, ho.nRows.2]
    cases g.first "nrows" <;> simp
  · intro c hx
    cases hg : g.first "ncols" with
    | some t =>
      rw [hg] at hx
      cases hx
      exact (whole_bounds (hf.ncols t (by simp [hg]))).1
    | none =>
      rw [hg] at hx
      simp only [Option.map_none, Option.none_or, Option.mem_def, Option.map_eq_some_iff] at hx
      obtain ⟨t, ht, rfl⟩ := hx
      obtain ⟨kv, h1, h2, rfl⟩ := find_mem ht
      have h2 := of_decide_eq_true h2
      exact (whole_bounds (hc kv h1 (h2.elim .inl fun h => .inr (.inl h)))).1
  · intro c hx
    cases hg : g.first "nrows" with
    | some t =>
      rw [hg] at hx
      cases hx
      exact (whole_bounds (hf.nrows t (by simp [hg]))).1
    | none =>
      rw [hg] at hx
      simp only [Option.map_none, Option.none_or, Option.mem_def, Option.map_eq_some_iff] at hx
      obtain ⟨t, ht, rfl⟩ := hx
      obtain ⟨kv, h1, h2, rfl⟩ := find_mem ht
      have h2 := of_decide_eq_true h2
      exact (whole_bounds (hc kv h1 (.inr (.inr h2)))).1
  · intro hd
    rw [ho.noDims] at hd
    cases h1 : g.first "ncols" <;> cases h2 : g.first "nrows" <;> simp_all

omit [FP α] in
/-- Both dimensions are known. -/
theorem makeSize_both (w : Disk β) (o : MakeOpts α) (c r : Int) (h1 : o.nColumns = c) (h2 : o.nRows = r) (hc : 1 ≤ c) (hr : 1 ≤ r) : makeSize w o = .ok (c, r) := by
  have hd : 0 < o.nColumns ∧ 0 < o.nRows := by omega
  unfold makeSize
  simp only [if_pos hd, Bool.false_eq_true, false_and, and_false, if_false, decide_false, Bool.and_false]
  rw [h1, h2, setupSize, if_pos ⟨hc, hr⟩]

/-- If an image is saved, it has the size asked for: that of the command line, or of the configuration file, or of the reference image; and if there is none of these, the program says
so and ends. Missing: values that are no numbers; runs that save no image (`C109_fluxes`, `C109_reference_false`, `C109_nosave_false`). -/
theorem C109_size_partial (num : Str → α) (cores : Int) (g : CmdGiven) (hf : MakeWellFormed g) (o : MakeOpts α) (ho : ObeysMake num cores g o) (hs : Saves g)
    (opts : List (Str × Str)) (hc : SizesWell opts) (w : Disk β) (hm : Small w.files) (hw : Calm w) (ref : Option (Int × Int)) (hr : RefIs w (g.first "refimage") ref) :
    (makeConfig opts o >>= makeSize w) = match askedSize g opts ref with
      | some s => .ok s
      | none => .error .exit := by
  rw [makeConfig_eq opts o hc, ok_bind]
  obtain ⟨x, y, hx, hy, h1, h2, h3, h4, h5⟩ := sizes_after num cores g hf o ho opts hc
  have hsave : (afterMake opts o).saveImage = true := by
    show o.saveImage = true
    rw [ho.saveImage, hs.1, hs.2.1, hs.2.2]; rfl
  have href : (afterMake opts o).refImage = g.first "refimage" := ho.refImage
  have hno : (afterMake opts o).noDims = o.noDims := rfl
  by_cases hb : x.isSome = true ∧ y.isSome = true
  · obtain ⟨c, rfl⟩ := Option.isSome_iff_exists.1 hb.1
    obtain ⟨r, rfl⟩ := Option.isSome_iff_exists.1 hb.2
    rw [askedSize, sizeFor, ← hx, ← hy]
    exact makeSize_both w _ c r h1 h2 (h3 c rfl) (h4 r rfl)
  · rw [askedSize, sizeFor_missing _ _ _ _ _ (by rw [← hx, ← hy]; exact hb)]
    have hd : ¬ (0 < (afterMake opts o).nColumns ∧ 0 < (afterMake opts o).nRows) := by
      rw [h1, h2]
      exact fun q => hb (both_of_pos _ _ q)
    have hn : o.noDims = true := by
      cases h : o.noDims with
      | true => rfl
      | false => exact absurd (h5 h) hb
    unfold makeSize
    simp only [if_neg hd, hno, hn, hsave, and_true, href]
    cases hg : g.first "refimage" with
    | none =>
      rw [hg] at hr
      rw [show ref = none from hr]
      rfl
    | some n =>
      rw [hg] at hr
      obtain ⟨c, r, px, q1, q2, q3, rfl⟩ := hr
      obtain ⟨w', e, -, -⟩ := C92_size w hm hw n c r px q3
      have hfl : fluxesOnly (afterMake opts o) = false := by simp [fluxesOnly, hsave]
      simp only [Option.isNone_some, Bool.false_eq_true, if_false, hfl, Bool.not_false, Bool.and_self, if_true, Option.getD_some, e, ok_bind]
      rw [setupSize, if_pos ⟨by omega, by omega⟩]

/-- If only fluxes are wanted, the sizes given are used; without them and without a reference image, two by two pixels. -/
theorem C109_fluxes (num : Str → α) (cores : Int) (g : CmdGiven) (hf : MakeWellFormed g) (o : MakeOpts α) (ho : ObeysMake num cores g o)
    (hs : g.has "print-fluxes" = true) (hp : g.has "printimage" = false) (opts : List (Str × Str)) (hc : SizesWell opts) (w : Disk β)
    (h : g.first "refimage" = none ∨ (askedSize g opts none).isSome) :
    (makeConfig opts o >>= makeSize w) = .ok ((askedSize g opts none).getD (2, 2)) := by
  rw [makeConfig_eq opts o hc, ok_bind]
  obtain ⟨x, y, hx, hy, h1, h2, h3, h4, h5⟩ := sizes_after num cores g hf o ho opts hc
  have hsave : (afterMake opts o).saveImage = false := by
    show o.saveImage = false
    rw [ho.saveImage, hs]; simp
  have href : (afterMake opts o).refImage = g.first "refimage" := ho.refImage
  have hno : (afterMake opts o).noDims = o.noDims := rfl
  have hfl : fluxesOnly (afterMake opts o) = true := by
    rw [fluxesOnly, hsave, show (afterMake opts o).printFluxes = true from ho.printFluxes.trans hs, show (afterMake opts o).printImages = false from ho.printImages.trans hp]
    rfl
  by_cases hb : x.isSome = true ∧ y.isSome = true
  · obtain ⟨c, rfl⟩ := Option.isSome_iff_exists.1 hb.1
    obtain ⟨r, rfl⟩ := Option.isSome_iff_exists.1 hb.2
    rw [askedSize, sizeFor, ← hx, ← hy]
    exact makeSize_both w _ c r h1 h2 (h3 c rfl) (h4 r rfl)
  · rw [askedSize, sizeFor_missing _ _ _ _ _ (by rw [← hx, ← hy]; exact hb)] at h ⊢
    have hn : o.noDims = true := by
      cases h : o.noDims with
      | true => rfl
      | false => exact absurd (h5 h) hb
    have hd : ¬ (0 < (afterMake opts o).nColumns ∧ 0 < (afterMake opts o).nRows) := by
      rw [h1, h2]
      exact fun q => hb (both_of_pos _ _ q)
    have hg : g.first "refimage" = none := h.resolve_right (by simp)
    unfold makeSize
    simp only [if_neg hd, hno, hn, hsave, href, hg, hfl]
    simp [setupSize]

/-! ## Where the code differs -/

/-- If only fluxes are wanted and a reference image is given instead of sizes, it is not read: the size is zero, which ends the program in an assertion. -/
theorem C109_reference_false (num : Str → α) (cores : Int) (g : CmdGiven) (hf : MakeWellFormed g) (o : MakeOpts α) (ho : ObeysMake num cores g o)
    (hs : g.has "print-fluxes" = true) (hp : g.has "printimage" = false) (opts : List (Str × Str)) (hc : SizesWell opts) (w : Disk β)
    (hr : (g.first "refimage").isSome) (h : askedSize g opts none = none) : (makeConfig opts o >>= makeSize w) = .error .assert := by
  rw [makeConfig_eq opts o hc, ok_bind]
  obtain ⟨x, y, hx, hy, h1, h2, h3, h4, h5⟩ := sizes_after num cores g hf o ho opts hc
  have hsave : (afterMake opts o).saveImage = false := by
    show o.saveImage = false
    rw [ho.saveImage, hs]; simp
  have href : (afterMake opts o).refImage = g.first "refimage" := ho.refImage
  have hno : (afterMake opts o).noDims = o.noDims := rfl
  have hfl : fluxesOnly (afterMake opts o) = true := by
    rw [fluxesOnly, hsave, show (afterMake opts o).printFluxes = true from ho.printFluxes.trans hs, show (afterMake opts o).printImages = false from ho.printImages.trans hp]
    rfl
  have hb : ¬ (x.isSome = true ∧ y.isSome = true) := by
    rintro ⟨p, q⟩
    obtain ⟨c, rfl⟩ := Option.isSome_iff_exists.1 p
    obtain ⟨r, rfl⟩ := Option.isSome_iff_exists.1 q
    rw [askedSize, sizeFor, ← hx, ← hy] at h
    cases h
  have hn : o.noDims = true := by
    cases h : o.noDims with
    | true => rfl
    | false => exact absurd (h5 h) hb
  have hd : ¬ (0 < (afterMake opts o).nColumns ∧ 0 < (afterMake opts o).nRows) := by
    rw [h1, h2]
    exact fun q => hb (both_of_pos _ _ q)
  obtain ⟨n, hg⟩ := Option.isSome_iff_exists.1 hr
  unfold makeSize
  simp only [if_neg hd, hno, hn, hsave, href, hg, hfl]
  have hd' : ¬ (1 ≤ (afterMake opts o).nColumns ∧ 1 ≤ (afterMake opts o).nRows) := fun q => hd ⟨by omega, by omega⟩
  simp [setupSize, hd']

set_option maxRecDepth 100000 in
/-- An image that is not saved needs no size, and the code has two by two pixels for it; but it looks for a reference image all the same, and ends since none was named. -/
theorem C109_nosave_false (num : Str → α) (cores : Int) (w : Disk β) (hw : w.files [] = none) :
    (makeInput num cores (makeLine ["m.dat", "--timing", "3"]) >>= makeSize w) = .error .exit ∧
    (makeInput num cores (makeLine ["m.dat", "--nosave"]) >>= makeSize w) = .error .exit := by
  have h : ∀ o : MakeOpts α, o.refImage = none → o.nColumns = 0 → o.noDims = true → fluxesOnly o = false → o.saveImage = false → makeSize w o = .error .exit := by
    intro o h1 h2 h3 h4 h5
    have e : getImageSize w [] = .ok (w.next, 0, 0, false) := by
      unfold getImageSize fitsOpen
      simp only [Bool.false_eq_true, if_false, hw]
      split
      · rename_i heq; split at heq <;> cases heq
      · rename_i heq; split at heq <;> cases heq <;> rfl
    unfold makeSize
    have hd : ¬ (0 < o.nColumns ∧ 0 < o.nRows) := by omega
    simp only [if_neg hd, h1, h3, h4, h5, Option.getD_none, e, ok_bind]
    simp
  have h' : ∀ as : List String, (makeInput num cores (makeLine as)).map (fun o => (o.refImage, o.nColumns, o.noDims, fluxesOnly o, o.saveImage)) = .ok (none, 0, true, false, false) →
      (makeInput num cores (makeLine as) >>= makeSize w) = .error .exit := by
    intro as ha
    cases hi : makeInput num cores (makeLine as) with
    | error e => rw [hi] at ha; cases ha
    | ok o =>
      rw [hi] at ha
      injection ha with ha
      simp only [Prod.mk.injEq] at ha
      rw [ok_bind]
      exact h o ha.1 ha.2.1 ha.2.2.1 ha.2.2.2.1 ha.2.2.2.2
  exact ⟨h' _ (by with_unfolding_all rfl), h' _ (by with_unfolding_all rfl)⟩

/-- Of two dimensions, one alone is ignored without a message if there is a reference image. -/
theorem C109_single_false (num : Str → α) (cores : Int) (g : CmdGiven) (hf : MakeWellFormed g) (o : MakeOpts α) (ho : ObeysMake num cores g o) (hs : Saves g)
    (w : Disk β) (hm : Small w.files) (hw : Calm w) (c r : Int) (hr : RefIs w (g.first "refimage") (some (c, r))) (t : Str) (_h1 : g.first "ncols" = some t)
    (h2 : g.first "nrows" = none) : (makeConfig [] o >>= makeSize w) = .ok (c, r) := by
  rw [C109_size_partial num cores g hf o ho hs [] (by intro kv hk; cases hk) w hm hw _ hr]
  rw [askedSize, sizeFor, h2, lastValue_nil]
  cases ((g.first "ncols").map wholeVal).or ((lastColumns []).map wholeVal) <;> rfl

/-- The sizes of the command line win over those of the configuration file. -/
example : ∃ o, makeInput (α := XR) (fun _ => 0) 4 ("makeimage".toList :: exMakeLine) = .ok o ∧
    (makeConfig [("NCOLS".toList, "7".toList), ("NROWS".toList, "8".toList)] o >>= makeSize (β := XR) ⟨fun _ => none, 0, []⟩) = .ok (100, 50) := by
  obtain ⟨o, h1, h2⟩ := C108_settings_partial (α := XR) (fun _ => 0) 4 "makeimage".toList exMakeLine exMakePlain (by decide) exMakeEvents exMakeMeaning exMakeWorking exMakeWell
  refine ⟨o, h1, ?_⟩
  rw [C109_size_partial (β := XR) (fun _ => 0) 4 _ exMakeWell o h2 ⟨by decide +kernel, by decide +kernel, by decide +kernel⟩ _ ?_ _ ?_ ?_ none ?_]
  · rw [show askedSize (cmdGiven makeDecls exMakeEvents) [("NCOLS".toList, "7".toList), ("NROWS".toList, "8".toList)] none = some (100, 50) by decide +kernel]
  · intro kv hk _
    simp only [List.mem_cons, List.not_mem_nil, or_false] at hk
    rcases hk with rfl | rfl
    · exact ⟨7, by decide, by decide, by decide +kernel⟩
    · exact ⟨8, by decide, by decide, by decide +kernel⟩
  · rintro n c r px ⟨f, hd, hf, -⟩
    cases hf
  · intro b hb; cases hb
  · rw [show (cmdGiven makeDecls exMakeEvents).first "refimage" = none by decide +kernel]
    rfl

end Imfit
