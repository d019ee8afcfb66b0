import Verif.Props.C33
import Verif.Model.Print

/-!
# Lines of a printed parameter file

The lines come in a few kinds (`Row`). For each kind: what the reader makes of it.
-/

namespace Imfit

open Spec

variable {α : Type} [FP α]

/-- A word: not empty, no blanks, no `#`. -/
def Word (s : Str) : Prop := s ≠ [] ∧ ∀ c ∈ s, isBlank c = false ∧ c ≠ '#'

/-- Characters that `printf` uses for numbers. -/
def numChars : Str := "0123456789+-.einfa".toList

/-- The text of a number, accepted by `strtod` as a whole. -/
def NumWord (nl : Strtod α) (s : Str) : Prop := s ≠ [] ∧ (∀ c ∈ s, c ∈ numChars) ∧ isNumeric nl s = true

/-- What is assumed of `printf`: numbers are printed as such, `%7g` pads with blanks on the left. -/
structure NumFmt.OK (nl : Strtod α) (pr : NumFmt α) : Prop where
  f4 : ∀ v, NumWord nl (pr.f4 v)
  g7 : ∀ v, ∃ m w, pr.g7 v = List.replicate m ' ' ++ w ∧ NumWord nl w
  g5 : ∀ v, NumWord nl (pr.g5 v)

omit [FP α] in
theorem NumWord.word {nl : Strtod α} {s : Str} (h : NumWord nl s) : Word s := by
  refine ⟨h.1, fun c hc => ?_⟩
  have := h.2.1 c hc
  have key : ∀ c ∈ numChars, isBlank c = false ∧ c ≠ '#' := by decide
  exact key c this

inductive Kind where
  | x | y | p
  deriving DecidableEq

/-- A line of the file. -/
inductive Row where
  /-- name, blanks, number, and a comment after blanks -/
  | num (k : Kind) (u sp w : Str) (tail : Option (Str × Str))
  | fn (name label : Str)
  | ostart
  | oend
  | opt (k v : Str)

/-- Comment after blanks. -/
def tailText : Option (Str × Str) → Str
  | none => []
  | some (q, c) => q ++ '#' :: c

/-- The label as written. -/
def labelText (label : Str) : Str := if label = [] then [] else ' ' :: ' ' :: ' ' :: '#' :: ' ' :: (kLabel ++ ' ' :: label)

def Row.text : Row → Str
  | .num _ u sp w t => u ++ '\t' :: '\t' :: (sp ++ w ++ tailText t)
  | .fn name label => kFunction ++ ' ' :: (name ++ labelText label)
  | .ostart => kOptStart
  | .oend => kOptEnd
  | .opt k v => k ++ [' ', ' ', ' '] ++ v

/-- Keywords that a parameter name must not contain. -/
def lineKws : List Str := [kX0, kFunction, kOptStart, kOptEnd]

/-- No keyword in it. -/
def Free (s : Str) : Prop := ∀ k ∈ lineKws, ¬ Has k s

/-- A comment: on one line, not ending in a blank, without the keywords that mark lines. -/
def CommentOK (c : Str) : Prop :=
  (∀ z, ('#' :: c).getLast? = some z → isBlank z = false) ∧ '\n' ∉ c ∧ ∀ k ∈ [kFunction, kOptStart, kOptEnd], ¬ Has k c

def TailOK : Option (Str × Str) → Prop
  | none => True
  | some (q, c) => (∀ x ∈ q, isBlank x = true) ∧ '\n' ∉ q ∧ CommentOK c

/-- A label that survives: trimmed, not a single character, on one line. -/
def LabelOK (s : Str) : Prop := trim s = s ∧ s.length ≠ 1 ∧ '\n' ∉ s ∧ ¬ Has kX0 s

def Row.OK (nl : Strtod α) : Row → Prop
  | .num k u sp w t => Word u ∧ (∀ x ∈ sp, x = ' ') ∧ NumWord nl w ∧ TailOK t ∧
      (match k with
        | .x => u = kX0
        | .y => u = kY0
        | .p => Free u)
  | .fn name label => Word name ∧ ¬ Has kX0 name ∧ ¬ Has kLabel name ∧ LabelOK label
  | .ostart => True
  | .oend => True
  | .opt k v => Word k ∧ Word v ∧ Free k ∧ Free v

/-! ## Occurrences of keywords -/

theorem kws_ok : ∀ k ∈ [kX0, kY0, kFunction, kOptStart, kOptEnd, kLabel], k ≠ [] ∧ (∀ c ∈ k, isBlank c = false ∧ c ≠ '#') ∧ ∃ c ∈ k, c ∉ numChars := by
  decide +kernel

omit [FP α] in
theorem num_free {nl : Strtod α} {w : Str} (h : NumWord nl w) {k : Str} (hk : k ∈ [kX0, kY0, kFunction, kOptStart, kOptEnd, kLabel]) : ¬ Has k w := by
  obtain ⟨-, -, c, hc, hn⟩ := kws_ok k hk
  intro hh
  exact hn (h.2.1 c (hh.subset hc))

theorem has_blank {k a b : Str} {x : Char} (hk : ∀ c ∈ k, isBlank c = false ∧ c ≠ '#') (hx : isBlank x = true) :
    Has k (a ++ x :: b) ↔ Has k a ∨ Has k b := by
  unfold Has
  refine infix_append_cons fun h => ?_
  have := (hk x h).1
  rw [hx] at this; cases this

theorem has_hash {k a b : Str} (hk : ∀ c ∈ k, isBlank c = false ∧ c ≠ '#') : Has k (a ++ '#' :: b) ↔ Has k a ∨ Has k b := by
  unfold Has
  exact infix_append_cons fun h => (hk _ h).2 rfl

theorem has_pad {k sp a : Str} (hne : k ≠ []) (hk : ∀ c ∈ k, isBlank c = false ∧ c ≠ '#') (hs : ∀ x ∈ sp, isBlank x = true) : Has k (sp ++ a) ↔ Has k a := by
  induction sp with
  | nil => simp
  | cons x sp ih =>
    have := has_blank (a := []) (b := sp ++ a) hk (hs x (by simp))
    simp only [List.nil_append] at this
    rw [List.cons_append, this, ih fun y hy => hs y (by simp [hy])]
    have : ¬ Has k [] := by unfold Has; simpa using hne
    tauto

theorem has_tail {k q c a : Str} (hk : ∀ c ∈ k, isBlank c = false ∧ c ≠ '#') (hq : ∀ x ∈ q, isBlank x = true) :
    Has k (a ++ (q ++ '#' :: c)) ↔ Has k a ∨ Has k c := by
  rw [← List.append_assoc, has_hash hk]
  unfold Has
  rw [infix_blanks (fun c hc => (hk c hc).1) hq]

theorem word_blank {s : Str} (h : Word s) : ∀ c ∈ s, isBlank c = false := fun c hc => (h.2 c hc).1

theorem word_hash {s : Str} (h : Word s) : '#' ∉ s := fun hc => (h.2 _ hc).2 rfl

theorem sp_blank {sp : Str} (h : ∀ x ∈ sp, x = ' ') : ∀ x ∈ sp, isBlank x = true := fun x hx => by rw [h x hx]; decide

/-- The part before the comment. -/
theorem num_before {u sp w : Str} (hu : Word u) (hs : ∀ x ∈ sp, x = ' ') (hw : Word w) (t : Option (Str × Str)) (ht : TailOK t) :
    ∃ q, (∀ x ∈ q, isBlank x = true) ∧ before '#' (u ++ '\t' :: '\t' :: (sp ++ w ++ tailText t)) = u ++ '\t' :: '\t' :: (sp ++ w ++ q) := by
  have h1 : '#' ∉ u ++ '\t' :: '\t' :: (sp ++ w) := by
    intro h
    simp only [List.mem_append, List.mem_cons] at h
    rcases h with h | h | h | h | h
    · exact word_hash hu h
    · exact absurd h (by decide)
    · exact absurd h (by decide)
    · have := hs _ h; exact absurd this (by decide)
    · exact word_hash hw h
  have e : ∀ t : Str, u ++ '\t' :: '\t' :: (sp ++ w ++ t) = (u ++ '\t' :: '\t' :: (sp ++ w)) ++ t := by intro t; simp
  cases t with
  | none =>
    refine ⟨[], by simp, ?_⟩
    simp only [tailText]
    rw [e, before_append, if_neg h1]; simp [before]
  | some t =>
    obtain ⟨q, c⟩ := t
    refine ⟨q, ht.1, ?_⟩
    have h2 : '#' ∉ q := fun h => hash_not_blank (ht.1 _ h)
    simp only [tailText]
    rw [e, e, before_append, if_neg h1, before_append, if_neg h2]
    simp [before]

theorem tokens_two {u v b : Str} (hu : Word u) (hv : Word v) (hb : ∀ x ∈ b, isBlank x = true) (x : Char) (hx : isBlank x = true) (q : Str)
    (hq : ∀ x ∈ q, isBlank x = true) : tokens isBlank (u ++ x :: (b ++ v ++ q)) = [u, v] := by
  rw [tokens_cons isBlank u (word_blank hu) hu.1 x hx, List.append_assoc, tokens_delims isBlank b _ hb, tokens_blanks_after v q hq,
    tokens_single isBlank v (word_blank hv) hv.1]

omit [FP α] in
theorem num_facts {nl : Strtod α} {k : Kind} {u sp w : Str} {t : Option (Str × Str)} (h : (Row.num k u sp w t).OK nl) :
    Kept (Row.num k u sp w t).text ∧ pieces (Row.num k u sp w t).text = [u, w] ∧
    (∀ k' ∈ [kX0, kY0, kFunction, kOptStart, kOptEnd, kLabel], Has k' (before '#' (Row.num k u sp w t).text) ↔ Has k' u) ∧
    (∀ k' ∈ [kFunction, kOptStart, kOptEnd], Has k' (Row.num k u sp w t).text ↔ Has k' u) := by
  obtain ⟨hu, hs, hw, ht, -⟩ := h
  have hb2 : ∀ x ∈ '\t' :: sp, isBlank x = true := by
    intro x hx
    rcases List.mem_cons.1 hx with rfl | h
    · decide
    · exact sp_blank hs x h
  obtain ⟨q, hq, hbf⟩ := num_before hu hs hw.word t ht
  have hk : Kept (Row.num k u sp w t).text := by
    obtain ⟨c, cs, rfl⟩ := List.exists_cons_of_ne_nil hu.1
    exact ⟨c, cs ++ '\t' :: '\t' :: (sp ++ w ++ tailText t), rfl, (hu.2 c (by simp)).1, (hu.2 c (by simp)).2⟩
  refine ⟨hk, ?_, ?_, ?_⟩
  · rw [pieces_kept hk]
    simp only [Row.text]
    rw [hbf]
    exact tokens_two hu hw.word hb2 '\t' (by decide) q hq
  · intro k' hk'
    obtain ⟨hne, hkb, -⟩ := kws_ok k' hk'
    simp only [Row.text]
    rw [hbf, has_blank hkb (by decide), show '\t' :: (sp ++ w ++ q) = ('\t' :: sp) ++ (w ++ q) by simp, has_pad hne hkb hb2]
    have h1 : Has k' (w ++ q) ↔ Has k' w := by unfold Has; exact infix_blanks (fun c hc => (hkb c hc).1) hq
    rw [h1]
    have := num_free hw hk'
    tauto
  · intro k' hk'
    have hk2 : k' ∈ [kX0, kY0, kFunction, kOptStart, kOptEnd, kLabel] := by
      simp only [List.mem_cons, List.not_mem_nil, or_false] at hk' ⊢
      rcases hk' with h | h | h <;> simp [h]
    obtain ⟨hne, hkb, -⟩ := kws_ok k' hk2
    simp only [Row.text]
    rw [has_blank hkb (by decide), show '\t' :: (sp ++ w ++ tailText t) = ('\t' :: sp) ++ (w ++ tailText t) by simp, has_pad hne hkb hb2]
    have hnw := num_free hw hk2
    have h1 : ¬ Has k' (w ++ tailText t) := by
      cases t with
      | none => simpa [tailText] using hnw
      | some t =>
        obtain ⟨q, c⟩ := t
        simp only [tailText]
        rw [has_tail hkb ht.1]
        have := ht.2.2.2.2 k' hk'
        tauto
    tauto

/-! ## The function line -/

theorem findSub_skip {k : Str} (hk : k ≠ []) {a : Str} {x : Char} (hx : x ∉ k) (ha : ¬ Has k a) (w : Str) :
    findSub k (a ++ x :: (k ++ w)) 0 = some (a.length + 1) := by
  induction a with
  | nil =>
    unfold findSub
    have h1 : ¬ k <+: [] ++ x :: (k ++ w) := by
      intro h
      obtain ⟨y, ys, e⟩ := List.exists_cons_of_ne_nil hk
      have hx' := hx
      rw [e] at h hx'
      obtain ⟨t, ht⟩ := h
      simp only [List.nil_append, List.cons_append, List.cons.injEq] at ht
      exact hx' (by rw [ht.1]; simp)
    rw [if_neg h1]
    simp only [List.nil_append]
    have : findSub k (k ++ w) 0 = some 0 := by
      cases hkw : k ++ w with
      | nil => simp at hkw; exact absurd hkw.1 hk
      | cons c cs =>
        unfold findSub
        rw [if_pos ⟨w, hkw⟩]
    rw [this]; rfl
  | cons c a ih =>
    have ha' : ¬ Has k a := fun h => ha (h.trans (List.suffix_cons c a).isInfix)
    have h1 : ¬ k <+: (c :: a) ++ x :: (k ++ w) := by
      intro h
      have h2 : k <:+: (c :: a) ++ x :: (k ++ w) := h.isInfix
      -- an occurrence at the front would contain `x` or lie within `c :: a`
      rcases List.prefix_or_prefix_of_prefix h (List.prefix_append (c :: a) (x :: (k ++ w))) with hp | hp
      · exact ha hp.isInfix
      · obtain ⟨t, ht⟩ := hp
        obtain ⟨s, hs⟩ := h
        rw [← ht, List.append_assoc] at hs
        have hs' := List.append_cancel_left hs
        cases t with
        | nil => exact ha (by rw [← ht, List.append_nil]; exact List.infix_refl _)
        | cons z t =>
          rw [List.cons_append, List.cons.injEq] at hs'
          exact hx (by rw [← ht, ← hs'.1]; simp)
    rw [List.cons_append]
    unfold findSub
    rw [if_neg (by simpa using h1)]
    simp only
    rw [ih ha']
    simp

theorem kFunction_word : Word kFunction := by constructor <;> decide

theorem space_not_label : ' ' ∉ kLabel := by decide

omit [FP α] in
theorem fn_facts {nl : Strtod α} {name label : Str} (h : (Row.fn name label).OK nl) :
    Kept (Row.fn name label).text ∧ pieces (Row.fn name label).text = [kFunction, name] ∧ functionLabel (Row.fn name label).text = .ok label ∧
    Has kFunction (Row.fn name label).text ∧ ¬ Has kX0 (Row.fn name label).text := by
  obtain ⟨hn, hx, hl, ht, h1, hnl, hlx⟩ := h
  have hkf := kFunction_word
  have hsp : isBlank ' ' = true := by decide
  obtain ⟨ne0, kb0, -⟩ := kws_ok kX0 (by simp)
  obtain ⟨neL, kbL, -⟩ := kws_ok kLabel (by simp)
  have x0f : ¬ Has kX0 kFunction := by rw [← hasSub_iff]; decide +kernel
  have x0l : ¬ Has kX0 kLabel := by rw [← hasSub_iff]; decide +kernel
  have lbf : ¬ Has kLabel kFunction := by rw [← hasSub_iff]; decide +kernel
  have hkept : Kept (Row.fn name label).text := ⟨'F', ['U', 'N', 'C', 'T', 'I', 'O', 'N'] ++ ' ' :: (name ++ labelText label), rfl, by decide, by decide⟩
  have hf : Has kFunction (Row.fn name label).text := ⟨[], _, rfl⟩
  refine ⟨hkept, ?_, ?_, hf, ?_⟩
  · rw [pieces_kept hkept]
    have h2 : '#' ∉ kFunction ++ ' ' :: name := by
      intro h
      simp only [List.mem_append, List.mem_cons] at h
      rcases h with h | h | h
      · exact word_hash hkf h
      · exact absurd h (by decide)
      · exact word_hash hn h
    have e : (Row.fn name label).text = (kFunction ++ ' ' :: name) ++ labelText label := by simp [Row.text]
    rw [e, before_append, if_neg h2]
    obtain ⟨q, hq, hb⟩ : ∃ q, (∀ x ∈ q, isBlank x = true) ∧ before '#' (labelText label) = q := by
      unfold labelText
      split
      · exact ⟨[], by simp, rfl⟩
      · exact ⟨[' ', ' ', ' '], by decide, rfl⟩
    rw [hb]
    have := tokens_two hkf hn (b := []) (by simp) ' ' hsp q hq
    rw [List.nil_append] at this
    rw [List.append_assoc]
    exact this
  · unfold functionLabel
    by_cases hlab : label = []
    · rw [findSub_none]
      · rw [hlab]
      · change ¬ Has kLabel _
        simp only [Row.text, labelText, hlab, if_true, List.append_nil]
        rw [has_blank kbL hsp]
        tauto
    · have e : (Row.fn name label).text = (kFunction ++ ' ' :: (name ++ [' ', ' ', ' ', '#'])) ++ ' ' :: (kLabel ++ ' ' :: label) := by
        simp [Row.text, labelText, hlab]
      have hno : ¬ Has kLabel (kFunction ++ ' ' :: (name ++ [' ', ' ', ' ', '#'])) := by
        rw [has_blank kbL hsp, show name ++ [' ', ' ', ' ', '#'] = name ++ ([' ', ' ', ' '] ++ '#' :: []) from rfl, has_tail kbL (by decide)]
        have : ¬ Has kLabel [] := by unfold Has; simpa using neL
        tauto
      rw [e, findSub_skip neL space_not_label hno]
      simp only [substr]
      have hlen : (kFunction ++ ' ' :: (name ++ [' ', ' ', ' ', '#'])).length + 1 + 5 =
          ((kFunction ++ ' ' :: (name ++ [' ', ' ', ' ', '#'])) ++ ' ' :: kLabel).length := by
        rw [List.length_append (bs := ' ' :: kLabel)]; rfl
      have e2 : (kFunction ++ ' ' :: (name ++ [' ', ' ', ' ', '#'])) ++ ' ' :: (kLabel ++ ' ' :: label) =
          ((kFunction ++ ' ' :: (name ++ [' ', ' ', ' ', '#'])) ++ ' ' :: kLabel) ++ ' ' :: label := by simp
      rw [e2, hlen, if_neg (Nat.not_lt.2 (List.IsPrefix.length_le (List.prefix_append _ _))), List.drop_left, ok_bind, trimWhitespace_eq]
      have htr : trim (' ' :: label) = label := by
        have := trim_pad [' '] label [] (by decide) (by simp)
        rw [List.append_nil] at this
        rw [← ht]
        conv_rhs => rw [← this]
        rw [ht]; rfl
      rw [htr, if_neg h1]
  · simp only [Row.text]
    rw [has_blank kb0 hsp]
    have : ¬ Has kX0 (name ++ labelText label) := by
      unfold labelText
      split
      · simpa using hx
      · rw [show name ++ ' ' :: ' ' :: ' ' :: '#' :: ' ' :: (kLabel ++ ' ' :: label) = name ++ ([' ', ' ', ' '] ++ '#' :: ([' '] ++ (kLabel ++ ' ' :: label))) from rfl,
          has_tail kb0 (by decide), has_pad ne0 kb0 (by decide), has_blank kb0 hsp]
        tauto
    tauto

omit [FP α] in
theorem opt_facts {nl : Strtod α} {k v : Str} (h : (Row.opt k v).OK nl) :
    Kept (Row.opt k v).text ∧ pieces (Row.opt k v).text = [k, v] ∧ before '#' (Row.opt k v).text = (Row.opt k v).text ∧ Free (Row.opt k v).text := by
  obtain ⟨hk, hv, fk, fv⟩ := h
  have hh : '#' ∉ (Row.opt k v).text := by
    intro h
    simp only [Row.text, List.mem_append, List.mem_cons, List.not_mem_nil, or_false] at h
    rcases h with (h | h | h | h) | h
    · exact word_hash hk h
    · exact absurd h (by decide)
    · exact absurd h (by decide)
    · exact absurd h (by decide)
    · exact word_hash hv h
  have hkept : Kept (Row.opt k v).text := by
    obtain ⟨c, cs, rfl⟩ := List.exists_cons_of_ne_nil hk.1
    exact ⟨c, cs ++ [' ', ' ', ' '] ++ v, rfl, (hk.2 c (by simp)).1, (hk.2 c (by simp)).2⟩
  have e : (Row.opt k v).text = k ++ ' ' :: ([' ', ' '] ++ v ++ []) := by simp [Row.text]
  refine ⟨hkept, ?_, before_self _ _ hh, ?_⟩
  · rw [pieces_kept hkept, before_self _ _ hh, e]
    exact tokens_two hk hv (by decide) ' ' (by decide) [] (by simp)
  · intro k' hk'
    obtain ⟨hne, hkb, -⟩ := kws_ok k' (by
      simp only [lineKws, List.mem_cons, List.not_mem_nil, or_false] at hk' ⊢
      rcases hk' with h | h | h | h <;> simp [h])
    rw [e, has_blank hkb (by decide), List.append_nil, has_pad hne hkb (by decide)]
    have := fk k' hk'
    have := fv k' hk'
    tauto

/-! ## Sequences of rows -/

/-- Rows in an order the reader accepts: `w` says that a `Y0` line is due, `o` that optional parameters are being read, `f` that there has been a
function. -/
def Fits : Bool → Bool → Bool → List Row → Prop
  | w, o, _, [] => w = false ∧ o = false
  | w, o, f, .num .x _ _ _ _ :: rs => w = false ∧ o = false ∧ Fits true false f rs
  | w, o, f, .num .y _ _ _ _ :: rs => w = true ∧ o = false ∧ Fits false false f rs
  | w, o, f, .num .p _ _ _ _ :: rs => w = false ∧ o = false ∧ Fits false false f rs
  | w, o, _, .fn _ _ :: rs => w = false ∧ o = false ∧ Fits false false true rs
  | w, o, f, .ostart :: rs => w = false ∧ o = false ∧ f = true ∧ Fits false true f rs
  | w, o, f, .oend :: rs => w = false ∧ o = true ∧ Fits false false f rs
  | w, o, f, .opt _ _ :: rs => w = false ∧ o = true ∧ f = true ∧ Fits false true f rs

omit [FP α] in
theorem hasSub_no {k l : Str} (h : ¬ Has k l) : hasSub k l = false := by
  rw [← Bool.not_eq_true, hasSub_iff]; exact h

omit [FP α] in
theorem hasSub_yes {k l : Str} (h : Has k l) : hasSub k l = true := (hasSub_iff k l).2 h

theorem start_free : ¬ Has kFunction kOptStart ∧ ¬ Has kX0 kOptStart ∧ ¬ Has kFunction kOptEnd ∧ ¬ Has kX0 kOptEnd ∧ ¬ Has kOptStart kOptEnd ∧
    Has kOptStart kOptStart ∧ Has kOptEnd kOptEnd ∧ ¬ Has kOptEnd kOptStart := by
  simp only [← hasSub_iff]; decide +kernel

theorem xy_free : (∀ k ∈ [kFunction, kOptStart, kOptEnd], ¬ Has k kX0) ∧ (∀ k ∈ [kFunction, kOptStart, kOptEnd], ¬ Has k kY0) ∧ Has kX0 kX0 ∧ Has kY0 kY0 ∧
    ¬ Has kX0 kY0 := by
  simp only [← hasSub_iff]; decide +kernel

omit [FP α] in
/-- A parameter line never contains a marker. -/
theorem num_marker {nl : Strtod α} {k : Kind} {u sp w : Str} {t : Option (Str × Str)} (h : (Row.num k u sp w t).OK nl) :
    ∀ k' ∈ [kFunction, kOptStart, kOptEnd], ¬ Has k' u := by
  obtain ⟨-, -, -, -, hk⟩ := h
  intro k' hk'
  cases k with
  | x => rw [show u = kX0 from hk]; exact xy_free.1 k' hk'
  | y => rw [show u = kY0 from hk]; exact xy_free.2.1 k' hk'
  | p => exact hk k' (List.mem_cons_of_mem _ hk')

omit [FP α] in
theorem validParameterLine_two {nl : Strtod α} {l u w : Str} (h : pieces l = [u, w]) (opt : Bool) (hv : opt = false → isNumeric nl w = true) :
    validParameterLine nl l opt = .ok (true, before '#' l) := by
  have hp : splitString (before '#' l) isBlank = .ok (pieces l) := splitString_eq _ _
  unfold validParameterLine
  rw [chopAt_eq, ok_bind, hp, ok_bind, h]
  rw [if_pos (by simp)]
  cases opt with
  | true => rfl
  | false =>
    unfold validTokens
    simp [rd, hv rfl]

omit [FP α] in
theorem vet_rows (nl : Strtod α) (rs : List Row) (hok : ∀ r ∈ rs, r.OK nl) (w o f : Bool) (hf : Fits w o f rs) :
    vetLines nl o (rs.map Row.text) = .ok (some ((rs.map Row.text).map vetted)) := by
  induction rs generalizing w o f with
  | nil => rfl
  | cons r rs ih =>
    have hr := hok r (by simp)
    have ih' := ih fun r hr => hok r (by simp [hr])
    rw [List.map_cons, List.map_cons]
    unfold vetLines
    cases r with
    | num k u sp wd t =>
      obtain ⟨hk, hp, h1, h2⟩ := num_facts hr
      have hm := num_marker hr
      have e1 := hasSub_no (fun h => hm kFunction (by simp) ((h2 kFunction (by simp)).1 h))
      have e2 := hasSub_no (fun h => hm kOptStart (by simp) ((h2 kOptStart (by simp)).1 h))
      have e3 := hasSub_no (fun h => hm kOptEnd (by simp) ((h2 kOptEnd (by simp)).1 h))
      have ho : o = false ∧ ∃ w', Fits w' false f rs := by
        cases k
        · exact ⟨hf.2.1, _, hf.2.2⟩
        · exact ⟨hf.2.1, _, hf.2.2⟩
        · exact ⟨hf.2.1, _, hf.2.2⟩
      obtain ⟨rfl, w', hf'⟩ := ho
      have hv : vetted (Row.num k u sp wd t).text = before '#' (Row.num k u sp wd t).text := by
        unfold vetted; rw [e1, e2, e3]; rfl
      rw [e1, e2, e3, hv, validParameterLine_two hp false (fun _ => hr.2.2.1.2.2)]
      simp only [Bool.false_eq_true, if_false, ok_bind, if_true]
      rw [ih' w' false f hf']
      rfl
    | fn name label =>
      obtain ⟨hk, hp, hl, hfn, hx⟩ := fn_facts hr
      obtain ⟨-, rfl, hf'⟩ := hf
      have e1 := hasSub_yes hfn
      have hv : vetted (Row.fn name label).text = (Row.fn name label).text := by unfold vetted; rw [e1]; rfl
      rw [e1, hv, ih' _ _ _ hf']
      rfl
    | ostart =>
      obtain ⟨-, -, -, hf'⟩ := hf
      have e1 := hasSub_no start_free.1
      have e2 := hasSub_yes start_free.2.2.2.2.2.1
      have hv : vetted Row.ostart.text = Row.ostart.text := by unfold vetted Row.text; rw [e1, e2]; rfl
      rw [hv]
      simp only [Row.text, e1, e2, if_true, Bool.false_eq_true, if_false]
      rw [ih' _ _ _ hf']
      rfl
    | oend =>
      obtain ⟨-, -, hf'⟩ := hf
      have e1 := hasSub_no start_free.2.2.1
      have e2 := hasSub_no start_free.2.2.2.2.1
      have e3 := hasSub_yes start_free.2.2.2.2.2.2.1
      have hv : vetted Row.oend.text = Row.oend.text := by unfold vetted Row.text; rw [e1, e2, e3]; rfl
      rw [hv]
      simp only [Row.text, e1, e2, e3, if_true, Bool.false_eq_true, if_false]
      rw [ih' _ _ _ hf']
      rfl
    | opt k v =>
      obtain ⟨-, rfl, -, hf'⟩ := hf
      obtain ⟨hk, hp, hb, hfree⟩ := opt_facts hr
      have e1 := hasSub_no (hfree kFunction (by simp [lineKws]))
      have e2 := hasSub_no (hfree kOptStart (by simp [lineKws]))
      have e3 := hasSub_no (hfree kOptEnd (by simp [lineKws]))
      have hv : vetted (Row.opt k v).text = before '#' (Row.opt k v).text := by unfold vetted; rw [e1, e2, e3]; rfl
      rw [e1, e2, e3, hv, validParameterLine_two hp true (fun h => by cases h)]
      simp only [Bool.false_eq_true, if_false, ok_bind, if_true]
      rw [ih' _ _ _ hf']
      rfl

/-- What a row does to the reader's results. -/
def rowStep (nl : Strtod α) (st : PState0 α) : Row → PState0 α
  | .num .x _ _ w _ => { st with starts := st.starts ++ [st.nFun], vals := st.vals ++ [nl.val w], lims := st.lims ++ [ParInfo.zero] }
  | .num _ _ _ w _ => { st with vals := st.vals ++ [nl.val w], lims := st.lims ++ [ParInfo.zero] }
  | .fn name label => { st with names := st.names ++ [name], labels := st.labels ++ [label], opts := st.opts ++ [[]], nFun := st.nFun + 1 }
  | .ostart => { st with inOpt := true }
  | .oend => { st with inOpt := false }
  | .opt k v => { st with opts := st.opts.set (st.nFun - 1) (mapPut (st.opts.getD (st.nFun - 1) []) k v) }

theorem stepParam_two {nl : Strtod α} {check : Bool} {l u w : Str} (h : pieces l = [u, w]) (st : PState0 α) :
    stepParam nl check st l = .ok (some { st with vals := st.vals ++ [nl.val w], lims := st.lims ++ [ParInfo.zero] }) := by
  unfold stepParam addParam
  rw [chopSplit_eq, ok_bind, h]
  simp [rd, pushParam]

omit [FP α] in
theorem rdI_pred {β : Type} {l : List β} {n : Nat} (h : 0 < n) (hl : n ≤ l.length) (d : β) : rdI l ((n : Int) - 1) = .ok (l.getD (n - 1) d) := by
  have e : ((n : Int) - 1) = ((n - 1 : Nat) : Int) := by omega
  unfold rdI
  rw [e, if_neg (by omega), Int.toNat_natCast, rd_ok (by omega)]
  rw [List.getD_eq_getElem?_getD, List.getElem?_eq_getElem (by omega)]
  rfl

omit [FP α] in
theorem wrI_pred {β : Type} {l : List β} {n : Nat} (h : 0 < n) (hl : n ≤ l.length) (x : β) : wrI l ((n : Int) - 1) x = .ok (l.set (n - 1) x) := by
  have e : ((n : Int) - 1) = ((n - 1 : Nat) : Int) := by omega
  unfold wrI
  rw [e, if_neg (by omega), Int.toNat_natCast, wr_ok (by omega)]

/-- The reader follows the rows. -/
theorem parse_rows (nl : Strtod α) (check : Bool) (rs : List Row) (hok : ∀ r ∈ rs, r.OK nl) (w o f : Bool) (st : PState0 α) (hf : Fits w o f rs)
    (ho : st.inOpt = o) (hn : st.opts.length = st.nFun) (hpos : f = true → 0 < st.nFun) :
    parseLoop nl true check w st ((rs.map Row.text).map vetted) = .ok (some (rs.foldl (rowStep nl) st)) := by
  induction rs generalizing w o f st with
  | nil =>
    obtain ⟨rfl, -⟩ := hf
    rfl
  | cons r rs ih =>
    have hr := hok r (by simp)
    have ih' := ih fun r hr => hok r (by simp [hr])
    rw [List.map_cons, List.map_cons, List.foldl_cons]
    cases r with
    | num k u sp wd t =>
      obtain ⟨hk, hp, h1, h2⟩ := num_facts hr
      have hm := num_marker hr
      have e1 := hasSub_no (fun h => hm kFunction (by simp) ((h2 kFunction (by simp)).1 h))
      have e2 := hasSub_no (fun h => hm kOptStart (by simp) ((h2 kOptStart (by simp)).1 h))
      have e3 := hasSub_no (fun h => hm kOptEnd (by simp) ((h2 kOptEnd (by simp)).1 h))
      have hv : vetted (Row.num k u sp wd t).text = before '#' (Row.num k u sp wd t).text := by
        unfold vetted; rw [e1, e2, e3]; rfl
      have hp' : pieces (before '#' (Row.num k u sp wd t).text) = [u, wd] := by rw [pieces_chop, hp]
      have f1 := hasSub_no (fun h => hm kFunction (by simp) ((h1 kFunction (by simp)).1 h))
      have f2 := hasSub_no (fun h => hm kOptStart (by simp) ((h1 kOptStart (by simp)).1 h))
      have f3 := hasSub_no (fun h => hm kOptEnd (by simp) ((h1 kOptEnd (by simp)).1 h))
      have hkind := hr.2.2.2.2
      rw [hv]
      cases k with
      | x =>
        obtain ⟨rfl, rfl, hf'⟩ := hf
        have hu : u = kX0 := hkind
        have g := hasSub_yes ((h1 kX0 (by simp)).2 (by rw [hu]; exact xy_free.2.2.1))
        unfold parseLoop
        rw [g, if_pos rfl, stepParam_two hp', ok_bind]
        exact ih' _ _ _ _ hf' ho hn hpos
      | y =>
        obtain ⟨rfl, rfl, hf'⟩ := hf
        have hu : u = kY0 := hkind
        have g := hasSub_yes ((h1 kY0 (by simp)).2 (by rw [hu]; exact xy_free.2.2.2.1))
        unfold parseLoop
        rw [g, if_pos rfl, stepParam_two hp', ok_bind]
        exact ih' _ _ _ _ hf' ho hn hpos
      | p =>
        obtain ⟨rfl, rfl, hf'⟩ := hf
        have hu : Free u := hkind
        have g := hasSub_no (fun h => hu kX0 (by simp [lineKws]) ((h1 kX0 (by simp)).1 h))
        unfold parseLoop
        rw [g, f1, f2, f3, ho]
        simp only [Bool.false_eq_true, if_false]
        rw [stepParam_two hp', ok_bind]
        exact ih' _ _ _ _ hf' ho hn hpos
    | fn name label =>
      obtain ⟨hk, hp, hl, hfn, hx⟩ := fn_facts hr
      obtain ⟨rfl, rfl, hf'⟩ := hf
      have e1 := hasSub_yes hfn
      have e0 := hasSub_no hx
      have hv : vetted (Row.fn name label).text = (Row.fn name label).text := by unfold vetted; rw [e1]; rfl
      rw [hv]
      unfold parseLoop
      rw [e0, e1]
      simp only [Bool.false_eq_true, if_false, if_true]
      unfold addFunction
      rw [hl, ok_bind, chopSplit_eq, ok_bind, hp]
      simp only [rd, List.getElem?_cons_succ, List.getElem?_cons_zero, ok_bind]
      exact ih' _ _ _ _ hf' ho (by simp [hn]) (fun _ => Nat.succ_pos _)
    | ostart =>
      obtain ⟨rfl, rfl, rfl, hf'⟩ := hf
      have e1 := hasSub_no start_free.1
      have e2 := hasSub_yes start_free.2.2.2.2.2.1
      have e0 := hasSub_no start_free.2.1
      have hv : vetted Row.ostart.text = kOptStart := by unfold vetted Row.text; rw [e1, e2]; rfl
      rw [hv]
      unfold parseLoop
      rw [e0, e1, e2]
      simp only [Bool.false_eq_true, if_false, if_true]
      exact ih' _ _ _ _ hf' rfl hn hpos
    | oend =>
      obtain ⟨rfl, rfl, hf'⟩ := hf
      have e1 := hasSub_no start_free.2.2.1
      have e2 := hasSub_no start_free.2.2.2.2.1
      have e3 := hasSub_yes start_free.2.2.2.2.2.2.1
      have e0 := hasSub_no start_free.2.2.2.1
      have hv : vetted Row.oend.text = kOptEnd := by unfold vetted Row.text; rw [e1, e2, e3]; rfl
      rw [hv]
      unfold parseLoop
      rw [e0, e1, e2, e3]
      simp only [Bool.false_eq_true, if_false, if_true]
      exact ih' _ _ _ _ hf' rfl hn hpos
    | opt k v =>
      obtain ⟨rfl, rfl, rfl, hf'⟩ := hf
      obtain ⟨hk, hp, hb, hfree⟩ := opt_facts hr
      have e0 := hasSub_no (hfree kX0 (by simp [lineKws]))
      have e1 := hasSub_no (hfree kFunction (by simp [lineKws]))
      have e2 := hasSub_no (hfree kOptStart (by simp [lineKws]))
      have e3 := hasSub_no (hfree kOptEnd (by simp [lineKws]))
      have hv : vetted (Row.opt k v).text = (Row.opt k v).text := by unfold vetted; rw [e1, e2, e3]; exact hb
      rw [hv]
      unfold parseLoop
      rw [e0, e1, e2, e3, ho]
      simp only [Bool.false_eq_true, if_false, if_true]
      unfold addOptional
      rw [rdI_pred (hpos rfl) (by omega) [], ok_bind, chopSplit_eq, ok_bind, hp]
      simp only [rd, List.getElem?_cons_succ, List.getElem?_cons_zero, ok_bind]
      rw [wrI_pred (hpos rfl) (by omega)]
      simp only [ok_bind]
      exact ih' _ _ _ _ hf' ho (by simp [hn]) hpos

/-! ## The lines that count -/

omit [FP α] in
theorem getLast_word {s : Str} (h : Word s) {z : Char} {a : Str} (hz : (a ++ s).getLast? = some z) : isBlank z = false := by
  rw [List.getLast?_append_of_ne_nil _ h.1] at hz
  exact (h.2 z (List.mem_of_getLast? hz)).1

omit [FP α] in
/-- A row is trimmed, not a comment, on one line, and longer than one character. -/
theorem row_line {nl : Strtod α} {r : Row} (h : r.OK nl) : stripped r.text = r.text ∧ meaningful r.text = true ∧ '\n' ∉ r.text := by
  have key : ∀ l : Str, Kept l → (∀ z, l.getLast? = some z → isBlank z = false) → l.length ≠ 1 → stripped l = l ∧ meaningful l = true := by
    rintro l ⟨c, cs, rfl, h1, h2⟩ h3 h4
    have : trim (c :: cs) = c :: cs := trim_self (fun z hz => by simp at hz; rw [← hz]; exact h1) h3
    refine ⟨by unfold stripped; rw [this, if_neg h4], ?_⟩
    simpa [meaningful] using h2
  have nb : ∀ s : Str, Word s → '\n' ∉ s := fun s hs hc => by have := (hs.2 _ hc).1; exact absurd this (by decide)
  cases r with
  | num k u sp w t =>
    obtain ⟨hk, -, -, -⟩ := num_facts h
    obtain ⟨hu, hs, hw, ht, -⟩ := h
    refine (fun ⟨a, b⟩ c => ⟨a, b, c⟩) (key _ hk ?_ ?_) ?_
    · intro z hz
      simp only [Row.text] at hz
      cases t with
      | none =>
        rw [show u ++ '\t' :: '\t' :: (sp ++ w ++ tailText none) = (u ++ '\t' :: '\t' :: sp) ++ w by simp [tailText]] at hz
        exact getLast_word hw.word hz
      | some t =>
        obtain ⟨q, c⟩ := t
        rw [show u ++ '\t' :: '\t' :: (sp ++ w ++ tailText (some (q, c))) = (u ++ '\t' :: '\t' :: (sp ++ w ++ q)) ++ '#' :: c by simp [tailText]] at hz
        rw [List.getLast?_append_of_ne_nil _ (by simp)] at hz
        exact ht.2.2.1 z hz
    · have := List.length_pos_iff.2 hu.1
      simp [Row.text]; omega
    · intro hc
      simp only [Row.text, List.mem_append, List.mem_cons] at hc
      rcases hc with hc | hc | hc | (hc | hc) | hc
      · exact nb u hu hc
      · exact absurd hc (by decide)
      · exact absurd hc (by decide)
      · exact absurd (hs _ hc) (by decide)
      · exact nb w hw.word hc
      · cases t with
        | none => simp [tailText] at hc
        | some t =>
          obtain ⟨q, c⟩ := t
          simp only [tailText, List.mem_append, List.mem_cons] at hc
          rcases hc with hc | hc | hc
          · exact ht.2.1 hc
          · exact absurd hc (by decide)
          · exact ht.2.2.2.1 hc
  | fn name label =>
    obtain ⟨hk, -, -, -, -⟩ := fn_facts h
    obtain ⟨hn, hx, hl, htr, h1, hnl, hlx⟩ := h
    refine (fun ⟨a, b⟩ c => ⟨a, b, c⟩) (key _ hk ?_ ?_) ?_
    · intro z hz
      simp only [Row.text, labelText] at hz
      by_cases hlab : label = []
      · rw [if_pos hlab, List.append_nil, show kFunction ++ ' ' :: name = (kFunction ++ [' ']) ++ name by simp] at hz
        exact getLast_word hn hz
      · rw [if_neg hlab, show kFunction ++ ' ' :: (name ++ ' ' :: ' ' :: ' ' :: '#' :: ' ' :: (kLabel ++ ' ' :: label)) =
          (kFunction ++ ' ' :: (name ++ ' ' :: ' ' :: ' ' :: '#' :: ' ' :: (kLabel ++ [' ']))) ++ label by simp,
          List.getLast?_append_of_ne_nil _ hlab] at hz
        rw [← htr] at hz
        exact trim_last hz
    · have := List.length_pos_iff.2 hn.1
      simp [Row.text, kFunction]
    · intro hc
      simp only [Row.text, labelText, List.mem_append, List.mem_cons] at hc
      rcases hc with hc | hc | hc | hc
      · exact nb _ kFunction_word hc
      · exact absurd hc (by decide)
      · exact nb _ hn hc
      · split at hc
        · cases hc
        · simp only [List.mem_append, List.mem_cons] at hc
          have hlb : '\n' ∉ kLabel := by decide
          rcases hc with hc | hc | hc | hc | hc | hc | hc | hc
          · exact absurd hc (by decide)
          · exact absurd hc (by decide)
          · exact absurd hc (by decide)
          · exact absurd hc (by decide)
          · exact absurd hc (by decide)
          · exact hlb hc
          · exact absurd hc (by decide)
          · exact hnl hc
  | ostart => refine ⟨?_, ?_, ?_⟩ <;> decide +kernel
  | oend => refine ⟨?_, ?_, ?_⟩ <;> decide +kernel
  | opt k v =>
    obtain ⟨hkept, -, -, -⟩ := opt_facts h
    obtain ⟨hk, hv, -, -⟩ := h
    refine (fun ⟨a, b⟩ c => ⟨a, b, c⟩) (key _ hkept ?_ ?_) ?_
    · intro z hz
      exact getLast_word hv hz
    · have := List.length_pos_iff.2 hk.1
      simp [Row.text]; omega
    · intro hc
      simp only [Row.text, List.mem_append, List.mem_cons, List.not_mem_nil, or_false] at hc
      rcases hc with (hc | hc | hc | hc) | hc
      · exact nb k hk hc
      · exact absurd hc (by decide)
      · exact absurd hc (by decide)
      · exact absurd hc (by decide)
      · exact nb v hv hc

end Imfit
