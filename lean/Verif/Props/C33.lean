import Verif.Props.C32

/-!
# C33 — comments and blank lines do not matter

Inserting blank lines or comment lines anywhere, and blanks before or after any line, never changes anything (`C33_insert`, `C33_pad`). Appending a
trailing comment changes nothing if the comment contains no keyword, the line is not a single character, and a function line has no label yet
(`C33_trailing_partial`); otherwise it can (`C33_false`).
-/

namespace Imfit

open Spec

variable {α : Type} [FP α]

/-- A file made of lines. -/
def unlines (ls : List Str) : Str := (ls.map (· ++ ['\n'])).flatten

theorem splitOnP_unlines (ls : List Str) (h : ∀ l ∈ ls, '\n' ∉ l) : (unlines ls).splitOnP (· == '\n') = ls ++ [[]] := by
  induction ls with
  | nil => simp [unlines]
  | cons l ls ih =>
    have e : unlines (l :: ls) = l ++ '\n' :: unlines ls := by simp [unlines]
    rw [e, List.splitOnP_append_cons_of_forall_mem (fun c hc => by
      rw [beq_eq_false_iff_ne]; rintro rfl; exact h l (by simp) hc) '\n' (by simp), ih fun x hx => h x (by simp [hx])]
    rfl

theorem usable_unlines (ls : List Str) (h : ∀ l ∈ ls, '\n' ∉ l) : usable (unlines ls) = (ls.map stripped).filter meaningful := by
  unfold usable
  rw [splitOnP_unlines ls h, List.map_append, List.filter_append]
  simp [stripped, meaningful, trim]

/-- A blank line or a comment line. -/
def Ignorable (l : Str) : Prop := trim l = [] ∨ ∃ c, trim l = '#' :: c

theorem ignorable_dropped {l : Str} (h : Ignorable l) : meaningful (stripped l) = false := by
  unfold stripped
  rcases h with h | ⟨c, h⟩
  · rw [h]; rfl
  · rw [h]
    split
    · rfl
    · simp [meaningful]

/-- Inserting a blank line or a comment line anywhere changes nothing. -/
theorem C33_insert (nl : Strtod α) (mode2D check : Bool) (opts : List (List (Str × Str))) (a b : List Str) (l : Str) (hl : Ignorable l)
    (hn : ∀ x ∈ a ++ l :: b, '\n' ∉ x) :
    readConfig nl mode2D check opts (unlines (a ++ l :: b)) = readConfig nl mode2D check opts (unlines (a ++ b)) := by
  rw [readConfig_usable, readConfig_usable, usable_unlines _ hn, usable_unlines _ fun x hx => hn x (by
    rcases List.mem_append.1 hx with h | h
    · simp [h]
    · simp [h])]
  simp [List.filter_append, ignorable_dropped hl]

theorem trim_pad (p l q : Str) (hp : ∀ c ∈ p, isBlank c = true) (hq : ∀ c ∈ q, isBlank c = true) : trim (p ++ l ++ q) = trim l := by
  unfold trim
  rw [List.append_assoc, List.dropWhile_append_of_pos hp]
  by_cases hl : ∀ c ∈ l, isBlank c = true
  · rw [List.dropWhile_append_of_pos hl, List.dropWhile_eq_nil_iff.2 hq, List.dropWhile_eq_nil_iff.2 hl]
  · have : (l ++ q).dropWhile isBlank = l.dropWhile isBlank ++ q := by
      rw [List.dropWhile_append]
      have hne : l.dropWhile isBlank ≠ [] := fun h => hl (List.dropWhile_eq_nil_iff.1 h)
      simp [hne]
    rw [this, List.reverse_append, List.dropWhile_append_of_pos (by simpa using hq)]

/-- Blanks before and after a line change nothing. -/
theorem C33_pad (nl : Strtod α) (mode2D check : Bool) (opts : List (List (Str × Str))) (a b : List Str) (p l q : Str)
    (hp : ∀ c ∈ p, isBlank c = true) (hq : ∀ c ∈ q, isBlank c = true) (hn : ∀ x ∈ a ++ (p ++ l ++ q) :: b, '\n' ∉ x) :
    readConfig nl mode2D check opts (unlines (a ++ (p ++ l ++ q) :: b)) = readConfig nl mode2D check opts (unlines (a ++ l :: b)) := by
  have hn' : ∀ x ∈ a ++ l :: b, '\n' ∉ x := by
    intro x hx
    rcases List.mem_append.1 hx with h | h
    · exact hn x (by simp [h])
    · rcases List.mem_cons.1 h with rfl | h
      · have := hn (p ++ x ++ q) (by simp)
        intro hx; exact this (by simp [hx])
      · exact hn x (by simp [h])
  rw [readConfig_usable, readConfig_usable, usable_unlines _ hn, usable_unlines _ hn']
  have : stripped (p ++ l ++ q) = stripped l := by
    unfold stripped; rw [trim_pad p l q hp hq]
  simp only [List.map_append, List.map_cons, this]

/-! ## Trailing comments -/

/-- Two lines the parser cannot tell apart. -/
structure Alike (l m : Str) : Prop where
  kws : ∀ k ∈ [kX0, kY0, kFunction, kOptStart, kOptEnd], hasSub k l = hasSub k m
  words : pieces l = pieces m
  label : hasSub kFunction l = true → functionLabel l = functionLabel m

theorem parseLoop_alike (nl : Strtod α) (mode2D check : Bool) (ls ms : List Str) (h : List.Forall₂ Alike ls ms) (w : Bool) (st : PState0 α) :
    parseLoop nl mode2D check w st ls = parseLoop nl mode2D check w st ms := by
  induction h generalizing w st with
  | nil => rfl
  | @cons l m ls ms hlm _ ih =>
    have k1 := hlm.kws kX0 (by simp)
    have k2 := hlm.kws kY0 (by simp)
    have k3 := hlm.kws kFunction (by simp)
    have k4 := hlm.kws kOptStart (by simp)
    have k5 := hlm.kws kOptEnd (by simp)
    have hp : ∀ st, stepParam nl check st l = stepParam nl check st m := by
      intro st
      unfold stepParam addParam
      rw [chopSplit_eq, chopSplit_eq, hlm.words]
    have ho : addOptional st l = addOptional st m := by
      unfold addOptional
      rw [chopSplit_eq, chopSplit_eq, hlm.words]
    have hf : hasSub kFunction l = true → addFunction st l = addFunction st m := by
      intro h
      unfold addFunction
      rw [chopSplit_eq, chopSplit_eq, hlm.words, hlm.label h]
    cases w with
    | true =>
      unfold parseLoop
      simp only [← k2, ← hp, ih]
    | false =>
      unfold parseLoop
      by_cases h3 : hasSub kFunction l = true
      · simp only [← k1, ← k3, ← k4, ← k5, ← hp, ← hf h3, ← ho, ih]
      · rw [Bool.not_eq_true] at h3
        simp only [← k1, ← k3, ← k4, ← k5, ← hp, h3, ← ho, ih, Bool.false_eq_true, if_false]

/-- Two lines the checks and the parser cannot tell apart. -/
structure Alike2 (l m : Str) : Prop where
  raw : Alike l m
  chopped : ∀ k ∈ [kX0, kY0, kFunction, kOptStart, kOptEnd], hasSub k (before '#' l) = hasSub k (before '#' m)

omit [FP α] in
theorem validParameterLine_alike (nl : Strtod α) (l m : Str) (h : pieces l = pieces m) (opt : Bool) : ∃ b,
    validParameterLine nl l opt = .ok (b, before '#' l) ∧ validParameterLine nl m opt = .ok (b, before '#' m) := by
  obtain ⟨b, hb, -⟩ := validParameterLine_ok nl l opt
  refine ⟨b, hb, ?_⟩
  have hl : splitString (before '#' l) isBlank = .ok (pieces l) := splitString_eq _ _
  have hm : splitString (before '#' m) isBlank = .ok (pieces m) := splitString_eq _ _
  unfold validParameterLine at hb ⊢
  rw [chopAt_eq, ok_bind, hl, ok_bind] at hb
  rw [chopAt_eq, ok_bind, hm, ok_bind, ← h]
  split at hb
  · rename_i h2
    rw [if_pos h2]
    cases opt with
    | true => simp only [if_true] at hb ⊢; cases hb; rfl
    | false =>
      simp only [Bool.false_eq_true, if_false] at hb ⊢
      rcases hv : validTokens nl (pieces l) with e | v
      · rw [hv] at hb; cases hb
      · rw [hv, ok_bind] at hb; cases hb; rfl
  · rename_i h2
    rw [if_neg h2]
    cases hb; rfl

/-- The outcomes of checking agree. -/
def SameVet : Option (List Str) → Option (List Str) → Prop
  | none, none => True
  | some a, some b => List.Forall₂ Alike a b
  | _, _ => False

omit [FP α] in
theorem vetLines_alike (nl : Strtod α) (ls ms : List Str) (h : List.Forall₂ Alike2 ls ms) (opt : Bool) : ∃ a b,
    vetLines nl opt ls = .ok a ∧ vetLines nl opt ms = .ok b ∧ SameVet a b := by
  induction h generalizing opt with
  | nil => exact ⟨_, _, rfl, rfl, List.Forall₂.nil⟩
  | @cons l m ls ms hlm _ ih =>
    have k3 := hlm.raw.kws kFunction (by simp)
    have k4 := hlm.raw.kws kOptStart (by simp)
    have k5 := hlm.raw.kws kOptEnd (by simp)
    have step : ∀ opt', ∀ l' m', Alike l' m' → ∃ a b, (do
          match ← vetLines nl opt' ls with
          | none => .ok none
          | some r => .ok (some (l' :: r)) : Res (Option (List Str))) = .ok a ∧ (do
          match ← vetLines nl opt' ms with
          | none => .ok none
          | some r => .ok (some (m' :: r)) : Res (Option (List Str))) = .ok b ∧ SameVet a b := by
      intro opt' l' m' hlm'
      obtain ⟨a, b, ha, hb, hab⟩ := ih opt'
      rw [ha, hb, ok_bind, ok_bind]
      cases a with
      | none =>
        cases b with
        | none => exact ⟨_, _, rfl, rfl, trivial⟩
        | some b => exact absurd hab id
      | some a =>
        cases b with
        | none => exact absurd hab id
        | some b => exact ⟨_, _, rfl, rfl, List.Forall₂.cons hlm' hab⟩
    unfold vetLines
    rw [← k3, ← k4, ← k5]
    by_cases h3 : hasSub kFunction l = true
    · simp only [h3, if_true]; exact step _ _ _ hlm.raw
    · rw [Bool.not_eq_true] at h3
      simp only [h3, Bool.false_eq_true, if_false]
      by_cases h4 : hasSub kOptStart l = true
      · simp only [h4, if_true]; exact step _ _ _ hlm.raw
      · rw [Bool.not_eq_true] at h4
        simp only [h4, Bool.false_eq_true, if_false]
        by_cases h5 : hasSub kOptEnd l = true
        · simp only [h5, if_true]; exact step _ _ _ hlm.raw
        · rw [Bool.not_eq_true] at h5
          simp only [h5, Bool.false_eq_true, if_false]
          obtain ⟨b, hb1, hb2⟩ := validParameterLine_alike nl l m hlm.raw.words opt
          rw [hb1, hb2, ok_bind, ok_bind]
          cases b with
          | false => exact ⟨_, _, rfl, rfl, trivial⟩
          | true =>
            simp only [if_true]
            refine step _ _ _ ⟨hlm.chopped, by rw [pieces_chop, pieces_chop]; exact hlm.raw.words, fun hf => ?_⟩
            exact absurd (has_before ((hasSub_iff _ _).1 hf)) (not_has h3)

theorem readOptions_alike (ls ms : List Str) (h : List.Forall₂ Alike2 ls ms) : readOptions ls = readOptions ms := by
  induction h with
  | nil => rfl
  | @cons l m ls ms hlm _ ih =>
    unfold readOptions
    rw [chopSplit_eq, chopSplit_eq, hlm.raw.words, ih]

theorem findIdx_alike (ls ms : List Str) (h : List.Forall₂ Alike2 ls ms) : ls.findIdx? (hasSub kX0) = ms.findIdx? (hasSub kX0) := by
  induction h with
  | nil => rfl
  | @cons l m ls ms hlm _ ih => rw [List.findIdx?_cons, List.findIdx?_cons, hlm.raw.kws kX0 (by simp), ih]

theorem any_alike (ls ms : List Str) (h : List.Forall₂ Alike2 ls ms) : ls.any (hasSub kFunction) = ms.any (hasSub kFunction) := by
  induction h with
  | nil => rfl
  | @cons l m ls ms hlm _ ih => rw [List.any_cons, List.any_cons, hlm.raw.kws kFunction (by simp), ih]

theorem get_alike (ls ms : List Str) (h : List.Forall₂ Alike2 ls ms) (k : Nat) :
    (ls[k]? = none ∧ ms[k]? = none) ∨ ∃ l m, ls[k]? = some l ∧ ms[k]? = some m ∧ Alike2 l m := by
  induction h generalizing k with
  | nil => left; exact ⟨rfl, rfl⟩
  | @cons l m ls ms hlm _ ih =>
    cases k with
    | zero => right; exact ⟨l, m, rfl, rfl, hlm⟩
    | succ k => simpa using ih k

theorem readKept_alike (nl : Strtod α) (mode2D check : Bool) (opts : List (List (Str × Str))) (ls ms : List Str) (h : List.Forall₂ Alike2 ls ms) :
    readKept nl mode2D check opts ls = readKept nl mode2D check opts ms := by
  unfold readKept vetConfigFile
  rw [← findIdx_alike ls ms h]
  cases hk : ls.findIdx? (hasSub kX0) with
  | none => rfl
  | some k =>
    simp only
    have hy : yFollows ls k = yFollows ms k := by
      unfold yFollows
      rcases get_alike ls ms h (k + 1) with ⟨h1, h2⟩ | ⟨l, m, h1, h2, hlm⟩
      · rw [h1, h2]
      · rw [h1, h2]; exact hlm.raw.kws kY0 (by simp)
    have hd := List.forall₂_drop k h
    rw [← hy, ← any_alike _ _ hd]
    split
    · rfl
    · split
      · rfl
      · obtain ⟨a, b, ha, hb, hab⟩ := vetLines_alike nl _ _ hd false
        rw [ha, hb, ok_bind, ok_bind]
        cases a with
        | none =>
          cases b with
          | none => rfl
          | some b => exact absurd hab id
        | some a =>
          cases b with
          | none => exact absurd hab id
          | some b =>
            simp only [ok_bind, readSections]
            rw [readOptions_alike _ _ (List.forall₂_take k h)]
            unfold parseFunctionSection
            rw [parseLoop_alike nl mode2D check a b hab]

theorem Alike2.refl (l : Str) : Alike2 l l := ⟨⟨fun _ _ => rfl, rfl, fun _ => rfl⟩, fun _ _ => rfl⟩

/-- A word without the character `x` does not reach across it. -/
theorem infix_append_cons {k a b : Str} {x : Char} (hx : x ∉ k) : k <:+: a ++ x :: b ↔ k <:+: a ∨ k <:+: b := by
  constructor
  · rintro ⟨s, t, h⟩
    rw [List.append_assoc] at h
    rcases List.append_eq_append_iff.1 h with ⟨a', ha, hb⟩ | ⟨c', hs, hc⟩
    · -- a = s ++ a'
      rcases List.append_eq_append_iff.1 hb with ⟨u, hu, ht⟩ | ⟨u, hu, ht⟩
      · left
        exact ⟨s, u, by rw [ha, hu, List.append_assoc]⟩
      · cases u with
        | nil => left; exact ⟨s, [], by rw [ha]; simp at hu; simp [hu]⟩
        | cons y u =>
          simp at ht
          exact absurd (by rw [hu, ht.1]; simp) hx
    · cases c' with
      | nil =>
        simp at hc
        cases k with
        | nil => left; exact List.nil_infix
        | cons y k => simp at hc; exact absurd (by rw [hc.1]; simp) hx
      | cons y c' =>
        simp at hc
        right
        exact ⟨c', t, by rw [hc.2, List.append_assoc]⟩
  · rintro (h | h)
    · exact h.trans (List.prefix_append _ _).isInfix
    · exact h.trans ((List.suffix_cons _ _).trans (List.suffix_append _ _)).isInfix

theorem infix_blanks {k a q : Str} (hk : ∀ c ∈ k, isBlank c = false) (hq : ∀ c ∈ q, isBlank c = true) : k <:+: a ++ q ↔ k <:+: a := by
  induction q generalizing a with
  | nil => rw [List.append_nil]
  | cons x q ih =>
    have hx : x ∉ k := fun h => by have := hk x h; rw [hq x (by simp)] at this; cases this
    rw [infix_append_cons hx]
    constructor
    · rintro (h | h)
      · exact h
      · have := (ih (a := []) fun c hc => hq c (by simp [hc])).1 (by simpa using h)
        rw [List.infix_nil.1 this]; exact List.nil_infix
    · exact Or.inl

theorem kws_plain : ∀ k ∈ [kX0, kY0, kFunction, kOptStart, kOptEnd, kLabel], '#' ∉ k ∧ ∀ c ∈ k, isBlank c = false := by decide +kernel

theorem findSub_none {k s : Str} (h : ¬ k <:+: s) : findSub k s 0 = none := by
  induction s with
  | nil =>
    unfold findSub
    rw [if_neg fun hp => h hp.isInfix]
  | cons c cs ih =>
    unfold findSub
    rw [if_neg fun hp => h hp.isInfix]
    simp only
    rw [ih fun hp => h (hp.trans (List.suffix_cons _ _).isInfix)]
    rfl

theorem kws_more (k : Str) (h : k ∈ [kX0, kY0, kFunction, kOptStart, kOptEnd]) : k ∈ [kX0, kY0, kFunction, kOptStart, kOptEnd, kLabel] :=
  List.mem_append_left [kLabel] h

theorem hash_not_blank : ¬ isBlank '#' = true := by decide

theorem before_append (c : Char) (a b : Str) : before c (a ++ b) = if c ∈ a then before c a else a ++ before c b := by
  induction a with
  | nil => simp
  | cons x a ih =>
    by_cases hx : x = c
    · subst hx; simp [before]
    · rw [List.cons_append, before_cons _ _ _ hx, ih, before_cons _ _ _ hx]
      have : c ∈ x :: a ↔ c ∈ a := by simp [Ne.symm hx]
      simp only [this]
      split <;> rfl

theorem before_self (c : Char) (a : Str) (h : c ∉ a) : before c a = a := by
  have := before_append c a []
  rw [if_neg h, List.append_nil] at this
  rw [this]; simp [before]

theorem tokens_blanks_after (t q : Str) (hq : ∀ x ∈ q, isBlank x = true) : tokens isBlank (t ++ q) = tokens isBlank t := by
  induction q generalizing t with
  | nil => rw [List.append_nil]
  | cons x q ih =>
    rw [tokens_append_cons isBlank t q x (hq x (by simp)), tokens_all isBlank q fun c hc => hq c (by simp [hc]), List.append_nil]

/-- A line and the same line with blanks and a comment appended. -/
theorem alike_comment (t q c : Str) (hk : Kept t) (hq : ∀ x ∈ q, isBlank x = true)
    (hc : ∀ k ∈ [kX0, kY0, kFunction, kOptStart, kOptEnd, kLabel], ¬ Has k c) (hl : Has kFunction t → ¬ Has kLabel t) :
    Alike2 t (t ++ q ++ '#' :: c) := by
  have hkw : ∀ k ∈ [kX0, kY0, kFunction, kOptStart, kOptEnd, kLabel], Has k (t ++ q ++ '#' :: c) ↔ Has k t := by
    intro k hm
    obtain ⟨h1, h2⟩ := kws_plain k hm
    unfold Has
    rw [infix_append_cons h1, infix_blanks h2 hq]
    exact ⟨fun h => h.resolve_right (hc k hm), Or.inl⟩
  have hq' : '#' ∉ q := fun h => hash_not_blank (hq _ h)
  have hbef : before '#' (t ++ q ++ '#' :: c) = before '#' t ∨ (before '#' t = t ∧ before '#' (t ++ q ++ '#' :: c) = t ++ q) := by
    rw [List.append_assoc, before_append, before_append]
    by_cases h : '#' ∈ t
    · left; rw [if_pos h]
    · right
      rw [if_neg h, if_neg hq']
      exact ⟨before_self _ _ h, by simp [before]⟩
  have hkm : Kept (t ++ q ++ '#' :: c) := by
    obtain ⟨x, xs, rfl, h1, h2⟩ := hk
    exact ⟨x, xs ++ q ++ '#' :: c, by simp, h1, h2⟩
  refine ⟨⟨fun k hm => ?_, ?_, fun hf => ?_⟩, fun k hm => ?_⟩
  · rw [Bool.eq_iff_iff, hasSub_iff, hasSub_iff]
    exact (hkw k (kws_more k hm)).symm
  · rw [pieces_kept hk, pieces_kept hkm]
    rcases hbef with h | ⟨h1, h2⟩
    · rw [h]
    · rw [h1, h2, tokens_blanks_after t q hq]
  · have h1 := hl ((hasSub_iff _ _).1 hf)
    have h2 : ¬ Has kLabel (t ++ q ++ '#' :: c) := fun h => h1 ((hkw kLabel (by simp)).1 h)
    unfold functionLabel
    rw [findSub_none h1, findSub_none h2]
  · rcases hbef with h | ⟨h1, h2⟩
    · rw [h]
    · rw [h1, h2, Bool.eq_iff_iff, hasSub_iff, hasSub_iff]
      exact (infix_blanks (kws_plain k (kws_more k hm)).2 hq).symm

/-- A line is its trimmed text between blanks. -/
theorem trim_decomp (l : Str) : ∃ p q, l = p ++ trim l ++ q ∧ (∀ c ∈ p, isBlank c = true) ∧ ∀ c ∈ q, isBlank c = true := by
  refine ⟨l.takeWhile isBlank, ((l.dropWhile isBlank).reverse.takeWhile isBlank).reverse, ?_, fun c hc => List.mem_takeWhile_imp hc, fun c hc => ?_⟩
  · unfold trim
    rw [List.append_assoc, ← List.reverse_append, List.takeWhile_append_dropWhile, List.reverse_reverse, List.takeWhile_append_dropWhile]
  · rw [List.mem_reverse] at hc
    exact List.mem_takeWhile_imp hc

/-- Text ending in something that is not blank, and not starting with a blank, is trimmed. -/
theorem trim_self {s : Str} (h1 : ∀ c, s.head? = some c → isBlank c = false) (h2 : ∀ c, s.getLast? = some c → isBlank c = false) : trim s = s := by
  unfold trim
  have e1 : s.dropWhile isBlank = s := by
    cases s with
    | nil => rfl
    | cons c cs => rw [List.dropWhile_cons_of_neg (by simp [h1 c rfl])]
  have e2 : s.reverse.dropWhile isBlank = s.reverse := by
    cases hs : s.reverse with
    | nil => rfl
    | cons c cs =>
      have : s.getLast? = some c := by rw [← List.head?_reverse, hs]; rfl
      rw [List.dropWhile_cons_of_neg (by simp [h2 c this])]
  rw [e1, e2, List.reverse_reverse]

theorem trim_last {s : Str} {c : Char} (h : (trim s).getLast? = some c) : isBlank c = false := by
  unfold trim at h
  rw [List.getLast?_reverse] at h
  cases hd : (s.dropWhile isBlank).reverse.dropWhile isBlank with
  | nil => rw [hd] at h; cases h
  | cons x xs =>
    rw [hd] at h
    have hne : (s.dropWhile isBlank).reverse.dropWhile isBlank ≠ [] := by rw [hd]; simp
    have := List.head_dropWhile_not isBlank hne
    simp only [hd, List.head_cons] at this
    cases h
    simpa using this

/-- The trimmed line with a comment appended. -/
theorem trim_comment (l sp c : Str) (hsp : ∀ x ∈ sp, isBlank x = true) (hne : trim l ≠ []) :
    ∃ q c', trim (l ++ sp ++ '#' :: c) = trim l ++ q ++ '#' :: c' ∧ (∀ x ∈ q, isBlank x = true) ∧ c' <+: c := by
  obtain ⟨p, q, hl, hp, hq⟩ := trim_decomp l
  obtain ⟨p2, q2, hc, hp2, hq2⟩ := trim_decomp ('#' :: c)
  obtain ⟨x, xs, hx⟩ := List.exists_cons_of_ne_nil hne
  have hp2n : p2 = [] := by
    cases p2 with
    | nil => rfl
    | cons y p2 =>
      rw [List.cons_append, List.cons_append, List.cons.injEq] at hc
      have := hp2 y (by simp)
      rw [← hc.1] at this
      exact absurd this hash_not_blank
  rw [hp2n, List.nil_append] at hc
  obtain ⟨y, ys, hy⟩ : ∃ y ys, trim ('#' :: c) = y :: ys := by
    apply List.exists_cons_of_ne_nil
    intro h0
    rw [h0, List.nil_append] at hc
    exact absurd (hq2 '#' (by rw [← hc]; simp)) hash_not_blank
  have hy' : y = '#' ∧ c = ys ++ q2 := by
    rw [hy, List.cons_append, List.cons.injEq] at hc
    exact ⟨hc.1.symm, hc.2⟩
  obtain ⟨rfl, hcq⟩ := hy'
  refine ⟨q ++ sp, ys, ?_, ?_, ?_⟩
  · have e : l ++ sp ++ '#' :: c = p ++ (trim l ++ (q ++ sp) ++ '#' :: ys) ++ q2 := by
      conv_lhs => rw [hl, hcq]
      simp
    rw [e, trim_pad _ _ _ hp hq2]
    apply trim_self
    · intro z hz
      rw [hx] at hz
      simp at hz
      rw [← hz]; exact trim_head hx
    · intro z hz
      have hz' : (trim ('#' :: c)).getLast? = some z := by
        rw [hy, ← hz]
        simp [List.getLast?_append, List.getLast?_cons]
      exact trim_last hz'
  · intro z hz
    rcases List.mem_append.1 hz with h | h
    · exact hq z h
    · exact hsp z h
  · rw [hcq]; exact List.prefix_append _ _

/-- Appending a trailing comment to a line changes nothing, if the comment contains no keyword, the line is not one single character, and it is not a
function line that already has a label. -/
theorem C33_trailing_partial (nl : Strtod α) (mode2D check : Bool) (opts : List (List (Str × Str))) (a b : List Str) (l sp c : Str)
    (hsp : ∀ x ∈ sp, isBlank x = true) (hone : (trim l).length ≠ 1)
    (hc : ∀ k ∈ [kX0, kY0, kFunction, kOptStart, kOptEnd, kLabel], ¬ Has k c) (hl : Has kFunction l → ¬ Has kLabel l)
    (hn : ∀ x ∈ a ++ (l ++ sp ++ '#' :: c) :: b, '\n' ∉ x) :
    readConfig nl mode2D check opts (unlines (a ++ (l ++ sp ++ '#' :: c) :: b)) = readConfig nl mode2D check opts (unlines (a ++ l :: b)) := by
  have hn' : ∀ x ∈ a ++ l :: b, '\n' ∉ x := by
    intro x hx
    rcases List.mem_append.1 hx with h | h
    · exact hn x (by simp [h])
    · rcases List.mem_cons.1 h with rfl | h
      · have := hn (x ++ sp ++ '#' :: c) (by simp)
        intro hx; exact this (by simp [hx])
      · exact hn x (by simp [h])
  rw [readConfig_usable, readConfig_usable, usable_unlines _ hn, usable_unlines _ hn']
  by_cases hne : trim l = []
  · -- a blank line becomes a comment line
    have h1 : meaningful (stripped l) = false := ignorable_dropped (Or.inl hne)
    have hb : ∀ x ∈ l, isBlank x = true := by
      obtain ⟨p, q, he, hp, hq⟩ := trim_decomp l
      rw [hne] at he
      intro x hx
      rw [he, List.append_nil] at hx
      rcases List.mem_append.1 hx with h | h
      · exact hp x h
      · exact hq x h
    have h2 : meaningful (stripped (l ++ sp ++ '#' :: c)) = false := by
      refine ignorable_dropped (Or.inr ?_)
      have : trim (l ++ sp ++ '#' :: c) = trim ('#' :: c) := by
        have := trim_pad (l ++ sp) ('#' :: c) [] (fun x hx => (List.mem_append.1 hx).elim (hb x) (hsp x)) (by simp)
        rwa [List.append_nil] at this
      rw [this]
      obtain ⟨p2, q2, hcc, hp2, hq2⟩ := trim_decomp ('#' :: c)
      cases p2 with
      | cons y p2 =>
        rw [List.cons_append, List.cons_append, List.cons.injEq] at hcc
        have := hp2 y (by simp)
        rw [← hcc.1] at this
        exact absurd this hash_not_blank
      | nil =>
        rw [List.nil_append] at hcc
        cases ht : trim ('#' :: c) with
        | nil =>
          rw [ht, List.nil_append] at hcc
          exact absurd (hq2 '#' (by rw [← hcc]; simp)) hash_not_blank
        | cons y ys =>
          rw [ht, List.cons_append, List.cons.injEq] at hcc
          exact ⟨ys, by rw [hcc.1]⟩
    simp only [List.map_append, List.map_cons, List.filter_append, List.filter_cons, h1, h2, Bool.false_eq_true, if_false]
  · obtain ⟨q, c', ht, hq, hc'⟩ := trim_comment l sp c hsp hne
    have hs1 : stripped l = trim l := if_neg hone
    have hs2 : stripped (l ++ sp ++ '#' :: c) = trim l ++ q ++ '#' :: c' := by
      unfold stripped
      rw [ht, if_neg]
      have := List.length_pos_iff.2 hne
      simp; omega
    simp only [List.map_append, List.map_cons, hs1, hs2, List.filter_append, List.filter_cons]
    obtain ⟨x, xs, hx⟩ := List.exists_cons_of_ne_nil hne
    by_cases hh : x = '#'
    · -- already a comment line
      have m1 : meaningful (trim l) = false := by rw [hx, hh]; rfl
      have m2 : meaningful (trim l ++ q ++ '#' :: c') = false := by rw [hx, hh]; rfl
      rw [m1, m2]
      simp
    · have m1 : meaningful (trim l) = true := by rw [hx]; simpa [meaningful] using hh
      have m2 : meaningful (trim l ++ q ++ '#' :: c') = true := by rw [hx]; simpa [meaningful] using hh
      rw [m1, m2]
      simp only [if_true]
      refine (readKept_alike nl mode2D check opts _ _ ?_).symm
      have hsub : ∀ k, Has k (trim l) → Has k l := by
        intro k hk
        obtain ⟨p, q, he, -, -⟩ := trim_decomp l
        rw [he]
        exact hk.trans ⟨p, q, rfl⟩
      have hr : ∀ ls : List Str, List.Forall₂ Alike2 ls ls := fun ls => by
        induction ls with
        | nil => exact .nil
        | cons x ls ih => exact .cons (Alike2.refl x) ih
      refine List.rel_append (hr _) (List.Forall₂.cons ?_ (hr _))
      · refine alike_comment _ q c' ⟨x, xs, hx, trim_head hx, hh⟩ hq (fun k hk h => hc k hk (h.trans hc'.isInfix)) fun hf h => ?_
        exact hl (hsub _ hf) (hsub _ h)

/-- Comments that do matter. (1) A comment with `X0` on an option line starts the function section there. (2) A comment with `X0` on a function line
turns it into a position line. (3) A comment after a labelled function becomes part of the label. (4) A comment after a line of one character brings
that line (otherwise ignored) to life. -/
theorem C33_false :
    ((do let r ← readConfig natStrtod true true [] (unlines ["GAIN 1".toList, "X0 1".toList, "Y0 1".toList, "FUNCTION F".toList]); .ok r.isSome) =
        (.ok true : Res _) ∧
      (do let r ← readConfig natStrtod true true [] (unlines ["GAIN 1 # X0".toList, "X0 1".toList, "Y0 1".toList, "FUNCTION F".toList]); .ok r.isSome) =
        (.ok false : Res _)) ∧
    ((do let r ← readConfig natStrtod true true [] (unlines ["X0 1".toList, "Y0 1".toList, "FUNCTION F".toList, "PA 1".toList]); .ok r.isSome) =
        (.ok true : Res _) ∧
      (do let r ← readConfig natStrtod true true [] (unlines ["X0 1".toList, "Y0 1".toList, "FUNCTION F # X0".toList, "PA 1".toList]); .ok r.isSome) =
        (.ok false : Res _)) ∧
    ((do let r ← readConfig natStrtod true true [] (unlines ["X0 1".toList, "Y0 1".toList, "FUNCTION F # LABEL ab".toList])
         .ok (r.map Config.labels)) = (.ok (some ["ab".toList]) : Res _) ∧
      (do let r ← readConfig natStrtod true true [] (unlines ["X0 1".toList, "Y0 1".toList, "FUNCTION F # LABEL ab # c".toList])
          .ok (r.map Config.labels)) = (.ok (some ["ab # c".toList]) : Res _)) ∧
    ((do let r ← readConfig natStrtod true true [] (unlines ["X0 1".toList, "Y0 1".toList, "FUNCTION F".toList, "z".toList]); .ok r.isSome) =
        (.ok true : Res _) ∧
      (do let r ← readConfig natStrtod true true [] (unlines ["X0 1".toList, "Y0 1".toList, "FUNCTION F".toList, "z #".toList]); .ok r.isSome) =
        (.ok false : Res _)) := by
  refine ⟨⟨?_, ?_⟩, ⟨?_, ?_⟩, ⟨?_, ?_⟩, ⟨?_, ?_⟩⟩ <;> decide +kernel

/-- Non-vacuous: a comment with ordinary text on a position line. -/
example : readConfig natStrtod true true [] (unlines (["X0 1".toList] ++ ("Y0 1".toList ++ [' '] ++ '#' :: " the centre".toList) :: ["FUNCTION F".toList])) =
    readConfig natStrtod true true [] (unlines (["X0 1".toList] ++ "Y0 1".toList :: ["FUNCTION F".toList])) := by
  have d : ∀ k l : Str, Has k l ↔ hasSub k l = true := fun k l => (hasSub_iff k l).symm
  refine C33_trailing_partial natStrtod true true [] ["X0 1".toList] ["FUNCTION F".toList] "Y0 1".toList [' '] " the centre".toList (by decide) (by decide +kernel)
    ?_ (fun h => absurd h (not_has (by decide +kernel))) (by decide +kernel)
  intro k hk
  rw [d]
  revert k
  decide +kernel

end Imfit
