import Verif.Model.PrintMulti
import Verif.Spec.PrintMulti
import Verif.Props.C45
import Verif.Props.C34

/-!
# Lines of image-information files as they are written
-/

namespace Imfit

open Spec

variable {α : Type} [FP α]

/-- Key words that are written. -/
inductive RKey where
  | data | sky | gain | readNoise | mask | err | psf | overPsf | overScale | overRegion | pixelScale | imagePA | fluxScale | x0 | y0
  deriving DecidableEq

/-- The word. -/
def RKey.word : RKey → Str
  | .data => iData
  | .sky => iSky
  | .gain => iGain
  | .readNoise => iReadNoise
  | .mask => iMask
  | .err => iError
  | .psf => iPsf
  | .overPsf => iOverPsf
  | .overScale => iOverScale
  | .overRegion => iOverRegion
  | .pixelScale => iPixelScale
  | .imagePA => iImagePA
  | .fluxScale => iFluxScale
  | .x0 => iX0
  | .y0 => iY0

/-- What the line does. -/
def RKey.put (nl : NumLib α) (v : Str) (i : ImgInfo α) : RKey → ImgInfo α
  | .data => { i with data := some v }
  | .sky => { i with originalSky := nl.d.val v }
  | .gain => { i with gain := nl.d.val v }
  | .readNoise => { i with readNoise := nl.d.val v }
  | .mask => { i with mask := some v }
  | .err => { i with err := some v }
  | .psf => { i with psf := some v }
  | .overPsf => { i with overNames := i.overNames ++ [v] }
  | .overScale => { i with overScales := i.overScales ++ [nl.toInt v] }
  | .overRegion => { i with overRegions := i.overRegions ++ [v] }
  | .pixelScale => { i with pixelScale := nl.d.val v, pixelScaleLim := { i.pixelScaleLim with fixed := true } }
  | .imagePA => { i with rotation := nl.d.val v, rotationLim := { i.rotationLim with fixed := true } }
  | .fluxScale => { i with intensityScale := nl.d.val v, intensityScaleLim := ParInfo.zero }
  | .x0 => { i with x0 := nl.d.val v, x0Lim := ParInfo.zero }
  | .y0 => { i with y0 := nl.d.val v, y0Lim := ParInfo.zero }

/-- A line: key word, blanks, a value, and an error as a comment. -/
structure IRow where
  key : RKey
  sep : Str
  val : Str
  tail : Option Str

def IRow.text (r : IRow) : Str := r.key.word ++ (r.sep ++ (r.val ++ tailText (errTail r.tail)))

/-- No marker of a block in it. -/
def Unmarked (s : Str) : Prop := ¬ Has imageStart s ∧ ¬ Has functionsStart s

structure IRow.OK (nl : Strtod α) (r : IRow) : Prop where
  sepne : r.sep ≠ []
  sep : ∀ x ∈ r.sep, isBlank x = true ∧ x ≠ '\n'
  val : Word r.val
  unmarked : Unmarked r.val
  tail : ∀ e, r.tail = some e → NumWord nl e

theorem RKey.word_ok (k : RKey) : Word k.word := by cases k <;> (constructor <;> decide)

theorem RKey.unmarked (k : RKey) : Unmarked k.word := by cases k <;> (unfold Unmarked Has; decide +kernel)

theorem imageStart_word : Word imageStart := by constructor <;> decide
theorem functionsStart_word : Word functionsStart := by constructor <;> decide

omit [FP α] in
theorem num_unmarked {nl : Strtod α} {s : Str} (h : NumWord nl s) : Unmarked s := by
  constructor
  · intro hh
    have := h.2.1 'M' (hh.subset (by decide))
    exact absurd this (by decide)
  · intro hh
    have := h.2.1 'F' (hh.subset (by decide))
    exact absurd this (by decide)

omit [FP α] in
theorem tail_unmarked {nl : Strtod α} {t : Option Str} (h : ∀ e, t = some e → NumWord nl e) {k : Str} (hk : Word k) (hm : ∀ e, t = some e → ¬ Has k e)
    (hp : ¬ Has k ['+', '/', '-']) (a : Str) : Has k (a ++ tailText (errTail t)) ↔ Has k a := by
  cases t with
  | none => simp [errTail, tailText]
  | some e =>
    simp only [errTail, Option.map_some, tailText]
    rw [has_tail hk.2 (by simp; decide)]
    have e1 : [' ', '+', '/', '-', ' '] ++ e = [' '] ++ (['+', '/', '-'] ++ ' ' :: e) := rfl
    rw [e1, has_pad hk.1 hk.2 (by simp; decide), has_blank hk.2 (by decide)]
    have := hm e rfl
    tauto

omit [FP α] in
theorem irow_has {nl : Strtod α} {r : IRow} (h : r.OK nl) {k : Str} (hk : k = imageStart ∨ k = functionsStart) : ¬ Has k r.text := by
  have hw : Word k := by rcases hk with rfl | rfl; exact imageStart_word; exact functionsStart_word
  have h1 : ¬ Has k r.key.word := by have := r.key.unmarked; rcases hk with rfl | rfl; exact this.1; exact this.2
  have h2 : ¬ Has k r.val := by have := h.unmarked; rcases hk with rfl | rfl; exact this.1; exact this.2
  have h3 : ∀ e, r.tail = some e → ¬ Has k e := by
    intro e he
    have := num_unmarked (h.tail e he); rcases hk with rfl | rfl; exact this.1; exact this.2
  have h4 : ¬ Has k ['+', '/', '-'] := by rcases hk with rfl | rfl <;> (unfold Has; decide)
  obtain ⟨x, b, hs⟩ := List.exists_cons_of_ne_nil h.sepne
  have hx := h.sep x (by rw [hs]; simp)
  have hb : ∀ y ∈ b, isBlank y = true := fun y hy => (h.sep y (by rw [hs]; simp [hy])).1
  unfold IRow.text
  rw [hs, List.cons_append, has_blank hw.2 hx.1, has_pad hw.1 hw.2 hb, tail_unmarked h.tail hw h3 h4]
  tauto

omit [FP α] in
theorem irow_kept (r : IRow) : Kept r.text := by
  obtain ⟨c, cs, hc⟩ := List.exists_cons_of_ne_nil r.key.word_ok.1
  have := r.key.word_ok.2 c (by rw [hc]; simp)
  exact ⟨c, cs ++ (r.sep ++ (r.val ++ tailText (errTail r.tail))), by unfold IRow.text; rw [hc]; rfl, this.1, this.2⟩

omit [FP α] in
theorem irow_words {nl : Strtod α} {r : IRow} (h : r.OK nl) : Spec.words r.text = r.key.word :: r.val :: match r.tail with
    | none => []
    | some e => [['#'], ['+', '/', '-'], e] := by
  obtain ⟨x, b, hs⟩ := List.exists_cons_of_ne_nil h.sepne
  have hx := h.sep x (by rw [hs]; simp)
  have hb : ∀ y ∈ b, isBlank y = true := fun y hy => (h.sep y (by rw [hs]; simp [hy])).1
  unfold Spec.words IRow.text
  rw [hs, List.cons_append, tokens_cons isBlank _ (word_blank r.key.word_ok) r.key.word_ok.1 x hx.1, tokens_delims isBlank b _ hb]
  cases ht : r.tail with
  | none => simp [errTail, tailText, tokens_single isBlank r.val (word_blank h.val) h.val.1]
  | some e =>
    have he := (h.tail e ht).word
    simp only [errTail, Option.map_some, tailText]
    rw [show r.val ++ ([' '] ++ '#' :: ([' ', '+', '/', '-', ' '] ++ e)) = r.val ++ ' ' :: (['#'] ++ ' ' :: (['+', '/', '-'] ++ ' ' :: e)) by simp,
      tokens_cons isBlank _ (word_blank h.val) h.val.1 ' ' (by decide), tokens_cons isBlank ['#'] (by decide) (by decide) ' ' (by decide),
      tokens_cons isBlank ['+', '/', '-'] (by decide) (by decide) ' ' (by decide), tokens_single isBlank e (word_blank he) he.1]

omit [FP α] in
theorem irow_before {nl : Strtod α} {r : IRow} (h : r.OK nl) : Spec.words (before '#' r.text) = [r.key.word, r.val] := by
  obtain ⟨x, b, hs⟩ := List.exists_cons_of_ne_nil h.sepne
  have hx := h.sep x (by rw [hs]; simp)
  have hb : ∀ y ∈ b, isBlank y = true := fun y hy => (h.sep y (by rw [hs]; simp [hy])).1
  have h1 : '#' ∉ r.key.word ++ (r.sep ++ r.val) := by
    intro hm
    simp only [List.mem_append] at hm
    rcases hm with hm | hm | hm
    · exact word_hash r.key.word_ok hm
    · exact absurd (h.sep _ hm).1 (by decide)
    · exact word_hash h.val hm
  have e : r.text = (r.key.word ++ (r.sep ++ r.val)) ++ tailText (errTail r.tail) := by unfold IRow.text; simp
  have key : ∀ q : Str, (∀ y ∈ q, isBlank y = true) → Spec.words ((r.key.word ++ (r.sep ++ r.val)) ++ q) = [r.key.word, r.val] := by
    intro q hq
    have := tokens_two r.key.word_ok h.val hb x hx.1 q hq
    unfold Spec.words
    rw [hs]
    simpa using this
  rw [e, before_append, if_neg h1]
  cases ht : r.tail with
  | none => exact key _ (by simp [errTail, tailText, before])
  | some t =>
    refine key _ ?_
    simp only [errTail, Option.map_some, tailText]
    intro y hy
    have : before '#' ([' '] ++ '#' :: ([' ', '+', '/', '-', ' '] ++ t)) = [' '] := by simp [before]
    rw [this] at hy
    simp only [List.mem_singleton] at hy
    subst hy; decide

omit [FP α] in
theorem irow_line {nl : Strtod α} {r : IRow} (h : r.OK nl) : stripped r.text = r.text ∧ meaningful r.text = true ∧ '\n' ∉ r.text := by
  have nb : ∀ s : Str, Word s → '\n' ∉ s := fun s hs hc => by have := (hs.2 _ hc).1; exact absurd this (by decide)
  have hlast : ∀ z, r.text.getLast? = some z → isBlank z = false := by
    intro z hz
    unfold IRow.text at hz
    cases ht : r.tail with
    | none =>
      rw [ht, show r.key.word ++ (r.sep ++ (r.val ++ tailText (errTail none))) = (r.key.word ++ r.sep) ++ r.val by simp [errTail, tailText]] at hz
      exact getLast_word h.val hz
    | some e =>
      rw [ht, show r.key.word ++ (r.sep ++ (r.val ++ tailText (errTail (some e)))) =
        (r.key.word ++ (r.sep ++ (r.val ++ [' ', '#', ' ', '+', '/', '-', ' ']))) ++ e by simp [errTail, tailText]] at hz
      exact getLast_word (h.tail e ht).word hz
  have hlen : r.text.length ≠ 1 := by
    have h1 := List.length_pos_iff.2 r.key.word_ok.1
    have h2 := List.length_pos_iff.2 h.sepne
    unfold IRow.text
    simp; omega
  obtain ⟨c, cs, hc, h1, h2⟩ := irow_kept r
  have ht : trim r.text = r.text := trim_self (fun z hz => by rw [hc] at hz; simp at hz; rw [← hz]; exact h1) hlast
  refine ⟨by unfold stripped; rw [ht, if_neg hlen], by rw [hc]; simpa [meaningful] using h2, ?_⟩
  intro hm
  unfold IRow.text at hm
  simp only [List.mem_append] at hm
  rcases hm with hm | hm | hm | hm
  · exact nb _ r.key.word_ok hm
  · exact (h.sep _ hm).2 rfl
  · exact nb _ h.val hm
  · cases ht : r.tail with
    | none => rw [ht] at hm; simp [errTail, tailText] at hm
    | some e =>
      rw [ht] at hm
      simp only [errTail, Option.map_some, tailText, List.mem_append, List.mem_cons] at hm
      have := nb e (h.tail e ht).word
      simp at hm
      exact this hm

omit [FP α] in
theorem rd_one {β : Type} (a b : β) (l : List β) : rd (a :: b :: l) 1 = .ok b := rfl

theorem irow_limits {nl : NumLib α} {r : IRow} (h : r.OK nl.d) : getParameterAndLimits nl r.text = .ok (nl.d.val r.val, ParInfo.zero, 0) := by
  unfold getParameterAndLimits
  rw [split_kept (irow_kept r), ok_bind, irow_words h]
  cases r.tail with
  | none => rfl
  | some e => rfl

theorem store_row {nl : NumLib α} {r : IRow} (h : r.OK nl.d) (i : ImgInfo α) : storeInfo nl r.text i = .ok (r.key.put nl r.val i) := by
  have hl := irow_limits h
  unfold storeInfo withLimits second secondInts
  rw [split_kept (irow_kept r), ok_bind, irow_words h, rd_one, hl]
  simp only [ok_bind, rd, List.getElem?_cons_zero]
  cases hk : r.key <;> rfl

theorem add_rows {nl : NumLib α} (rs : List IRow) (h : ∀ r ∈ rs, r.OK nl.d) (k : ℕ) (i : ImgInfo α) :
    addInfoLoop nl k i (rs.map IRow.text) = .ok (rs.foldl (fun i r => r.key.put nl r.val i) i, 0) := by
  induction rs generalizing k i with
  | nil => rfl
  | cons r rs ih =>
    rw [List.map_cons]
    unfold addInfoLoop
    have hf : hasSub iFunctionsStart r.text = false := hasSub_no (irow_has (h r (by simp)) (Or.inr rfl))
    rw [hf, store_row (h r (by simp))]
    simp only [Bool.false_eq_true, if_false, ok_bind]
    rw [ih fun x hx => h x (by simp [hx])]
    rfl

theorem store_start (nl : NumLib α) (i : ImgInfo α) : storeInfo nl imageStart i = .ok i := by
  have hk : Kept imageStart := ⟨'I', _, rfl, by decide, by decide⟩
  have hw : Spec.words imageStart = [imageStart] := by decide +kernel
  unfold storeInfo
  rw [split_kept hk, hw, ok_bind]
  rfl

/-- A block of rows is read as what the rows say. -/
theorem read_block {nl : NumLib α} (rs : List IRow) (h : ∀ r ∈ rs, r.OK nl.d) :
    readImageBlock nl (imageStart :: rs.map IRow.text) = .ok (some (rs.foldl (fun i r => r.key.put nl r.val i) ImgInfo.init)) := by
  unfold readImageBlock addInfoFromLines addInfoLoop
  have hf : hasSub iFunctionsStart imageStart = false := by decide +kernel
  rw [hf, store_start]
  simp only [Bool.false_eq_true, if_false, ok_bind]
  rw [add_rows rs h]
  rfl

theorem read_blocks {nl : NumLib α} (bs : List (List IRow)) (h : ∀ b ∈ bs, ∀ r ∈ b, r.OK nl.d) :
    readImageBlocks nl (bs.map fun rs => imageStart :: rs.map IRow.text) =
      .ok (some (bs.map fun rs => rs.foldl (fun i r => r.key.put nl r.val i) ImgInfo.init)) := by
  induction bs with
  | nil => rfl
  | cons b bs ih =>
    rw [List.map_cons]
    unfold readImageBlocks
    rw [read_block b (h b (by simp)), ih fun x hx => h x (by simp [hx])]
    rfl

theorem start_line : stripped imageStart = imageStart ∧ meaningful imageStart = true ∧ '\n' ∉ imageStart := by decide +kernel

/-- A file whose lines that count are blocks of rows. -/
theorem read_file {nl : NumLib α} (k0 : Int) (file : Str) (bs : List (List IRow)) (hne : bs ≠ []) (h : ∀ b ∈ bs, ∀ r ∈ b, r.OK nl.d)
    (hu : usable file = (bs.map fun rs => imageStart :: rs.map IRow.text).flatten) :
    readImageParams nl k0 file = .ok (.good (bs.map fun rs => rs.foldl (fun i r => r.key.put nl r.val i) ImgInfo.init)) := by
  have hbl : IsBlocks (bs.map fun rs => imageStart :: rs.map IRow.text) := by
    intro b hb
    obtain ⟨rs, hrs, rfl⟩ := List.mem_map.1 hb
    refine ⟨_, _, rfl, List.infix_refl _, fun x hx => ?_⟩
    obtain ⟨r, hr, rfl⟩ := List.mem_map.1 hx
    exact irow_has (h rs hrs r hr) (Or.inl rfl)
  have hn : usable file ≠ [] := by
    obtain ⟨b, bs', rfl⟩ := List.exists_cons_of_ne_nil hne
    rw [hu]; simp
  unfold readImageParams
  rw [keepLines_usable, ok_bind]
  obtain ⟨e, he, -, h0⟩ := vetImageLoop_eq nl k0 (usable file) (usable_kept file)
  have he0 : e = [] := by
    refine h0.2 fun l hl hp => ?_
    rw [hu] at hl
    obtain ⟨b, hb, hl⟩ := List.mem_flatten.1 hl
    obtain ⟨rs, hrs, rfl⟩ := List.mem_map.1 hb
    rcases List.mem_cons.1 hl with rfl | hl
    · exact absurd (List.infix_refl _) hp.1
    · obtain ⟨r, hr, rfl⟩ := List.mem_map.1 hl
      rw [irow_before (h rs hrs r hr)]
      simp
  subst he0
  have hany : (usable file).any (hasSub iImageStart) = true := by
    obtain ⟨b, bs', rfl⟩ := List.exists_cons_of_ne_nil hne
    rw [hu]
    have : hasSub iImageStart imageStart = true := by decide +kernel
    simp [this]
  unfold vetInputLines
  rw [if_neg hn, he, ok_bind, if_pos hany, ok_bind, if_neg (by simp)]
  have := imageBlocks_eq _ hbl []
  simp only [List.nil_append, List.length_nil] at this
  rw [hu, this, read_blocks bs h]
  rfl

end Imfit
