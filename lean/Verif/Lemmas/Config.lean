import Verif.Lemmas.Text
import Verif.Model.Config
import Verif.Spec.Config

/-! # The configuration-file parser: closed forms, faults, invariants -/

namespace Imfit

open Spec

variable {α : Type} [FP α]

/-- What `chopSplit` delivers. -/
def pieces (l : Str) : List Str :=
  if ((before '#' l).dropWhile isBlank).any isBlank then tokens isBlank (before '#' l) else [before '#' l]

theorem chopSplit_eq (l : Str) : chopSplit l = .ok (pieces l) := by
  unfold chopSplit pieces
  rw [chopAt_eq, ok_bind, splitString_eq]

/-- A line as kept: starts with something that is neither blank nor `#`. -/
def Kept (l : Str) : Prop := ∃ c cs, l = c :: cs ∧ isBlank c = false ∧ c ≠ '#'

theorem before_cons (c d : Char) (cs : Str) (h : d ≠ c) : before c (d :: cs) = d :: before c cs := by
  unfold before
  rw [List.takeWhile_cons_of_pos (by simpa using h)]

theorem Kept.chop {l : Str} (h : Kept l) : Kept (before '#' l) := by
  obtain ⟨c, cs, rfl, h1, h2⟩ := h
  exact ⟨c, before '#' cs, before_cons _ _ _ h2, h1, h2⟩

theorem tokens_self (d : Char → Bool) (s : Str) (hne : s ≠ []) (h : s.any d = false) : tokens d s = [s] :=
  tokens_single d s (fun c hc => by simpa using List.any_eq_false.1 h c hc) hne

theorem pieces_kept {l : Str} (h : Kept l) : pieces l = tokens isBlank (before '#' l) := by
  obtain ⟨c, cs, hb, h1, -⟩ := h.chop
  unfold pieces
  rw [hb, List.dropWhile_cons_of_neg (by simp [h1])]
  split
  · rfl
  · rename_i hn
    rw [Bool.not_eq_true] at hn
    exact (tokens_self _ _ (by simp) hn).symm

theorem before_before (c : Char) (s : Str) : before c (before c s) = before c s := by
  unfold before; exact List.takeWhile_idem

theorem pieces_chop (l : Str) : pieces (before '#' l) = pieces l := by
  unfold pieces; rw [before_before]

/-! ## Faults -/

/-- A value, or an out-of-range read. -/
def OkOob {β : Type} (r : Res β) : Prop := (∃ x, r = .ok x) ∨ r = .error .oob

theorem OkOob.ok {β : Type} (x : β) : OkOob (.ok x : Res β) := Or.inl ⟨x, rfl⟩

theorem OkOob.oob {β : Type} : OkOob (.error .oob : Res β) := Or.inr rfl

theorem OkOob.bind {β γ : Type} {a : Res β} {f : β → Res γ} (ha : OkOob a) (hf : ∀ x, a = .ok x → OkOob (f x)) : OkOob (a >>= f) := by
  rcases ha with ⟨x, rfl⟩ | rfl
  · exact hf x rfl
  · exact OkOob.oob

theorem OkOob.rd {β : Type} (l : List β) (i : Nat) : OkOob (rd l i) := by
  by_cases h : i < l.length
  · exact Or.inl ⟨_, rd_ok h⟩
  · exact Or.inr (rd_oob (by omega))

theorem OkOob.rdI {β : Type} (l : List β) (i : Int) : OkOob (rdI l i) := by
  unfold Imfit.rdI
  split
  · exact OkOob.oob
  · exact OkOob.rd _ _

theorem OkOob.wrI {β : Type} (l : List β) (i : Int) (x : β) : OkOob (wrI l i x) := by
  unfold Imfit.wrI
  split
  · exact OkOob.oob
  · unfold wr
    split
    · exact OkOob.ok _
    · exact OkOob.oob

theorem readLimits_oob (nl : Strtod α) (v : α) (e : Str) : OkOob (readLimits nl v e) := by
  unfold readLimits
  split
  · exact OkOob.ok _
  · split
    · rw [splitString_eq, ok_bind]
      refine (OkOob.rd _ _).bind fun a _ => (OkOob.rd _ _).bind fun b _ => ?_
      simp only
      split
      · exact OkOob.ok _
      · split <;> exact OkOob.ok _
    · exact OkOob.ok _

theorem addParam_oob (nl : Strtod α) (l : Str) : OkOob (addParam nl l) := by
  unfold addParam
  rw [chopSplit_eq, ok_bind]
  refine (OkOob.rd _ _).bind fun a _ => ?_
  simp only
  split
  · refine (OkOob.rd _ _).bind fun b _ => (readLimits_oob _ _ _).bind fun c _ => OkOob.ok _
  · exact OkOob.ok _

theorem stepParam_oob (nl : Strtod α) (check : Bool) (st : PState0 α) (l : Str) : OkOob (stepParam nl check st l) :=
  (addParam_oob nl l).bind fun _ _ => OkOob.ok _

omit [FP α] in
theorem addOptional_oob (st : PState0 α) (l : Str) : OkOob (addOptional st l) := by
  unfold addOptional
  refine (OkOob.rdI _ _).bind fun m _ => ?_
  rw [chopSplit_eq, ok_bind]
  exact (OkOob.rd _ _).bind fun k _ => (OkOob.rd _ _).bind fun v _ => (OkOob.wrI _ _ _).bind fun o _ => OkOob.ok _

theorem findSub_lt {k s : Str} {n m : Nat} (h : findSub k s n = some m) : m + k.length ≤ s.length := by
  induction s generalizing n m with
  | nil =>
    cases n with
    | zero =>
      unfold findSub at h
      split at h
      · rename_i hp; cases h; simpa using hp.length_le
      · cases h
    | succ n => cases h
  | cons c cs ih =>
    cases n with
    | zero =>
      unfold findSub at h
      split at h
      · rename_i hp; cases h; simpa using hp.length_le
      · simp only [Option.map_eq_some_iff] at h
        obtain ⟨j, hj, rfl⟩ := h
        have := ih hj
        simp; omega
    | succ n =>
      unfold findSub at h
      simp only [Option.map_eq_some_iff] at h
      obtain ⟨j, hj, rfl⟩ := h
      have := ih hj
      simp; omega

/-- The label never fails. -/
theorem functionLabel_ok (l : Str) : ∃ t, functionLabel l = .ok t := by
  unfold functionLabel
  cases h : findSub kLabel l 0 with
  | none => exact ⟨_, rfl⟩
  | some k =>
    have := findSub_lt h
    have hk : kLabel.length = 5 := rfl
    simp only [substr]
    rw [if_neg (by omega), ok_bind, trimWhitespace_eq]
    exact ⟨_, rfl⟩

omit [FP α] in
theorem addFunction_oob (st : PState0 α) (l : Str) : OkOob (addFunction st l) := by
  unfold addFunction
  obtain ⟨t, ht⟩ := functionLabel_ok l
  rw [ht, ok_bind, chopSplit_eq, ok_bind]
  exact (OkOob.rd _ _).bind fun k _ => OkOob.ok _

theorem parseLoop_oob (nl : Strtod α) (mode2D check : Bool) (ls : List Str) (w : Bool) (st : PState0 α) :
    OkOob (parseLoop nl mode2D check w st ls) := by
  induction ls generalizing w st with
  | nil =>
    cases w
    · exact OkOob.ok _
    · exact OkOob.oob
  | cons l ls ih =>
    cases w with
    | true =>
      unfold parseLoop
      split
      · refine (stepParam_oob _ _ _ _).bind fun s1 _ => ?_
        cases s1 with
        | none => exact OkOob.ok _
        | some s1 => exact ih _ _
      · exact OkOob.ok _
    | false =>
      unfold parseLoop
      split
      · refine (stepParam_oob _ _ _ _).bind fun s1 _ => ?_
        cases s1 with
        | none => exact OkOob.ok _
        | some s1 => exact ih _ _
      · split
        · exact (addFunction_oob _ _).bind fun s1 _ => ih _ _
        · split
          · exact ih _ _
          · split
            · exact ih _ _
            · split
              · exact (addOptional_oob _ _).bind fun s1 _ => ih _ _
              · refine (stepParam_oob _ _ _ _).bind fun s1 _ => ?_
                cases s1 with
                | none => exact OkOob.ok _
                | some s1 => exact ih _ _

omit [FP α] in
/-- Checking a line never reads out of range. -/
theorem validParameterLine_ok (nl : Strtod α) (l : Str) (opt : Bool) : ∃ b, validParameterLine nl l opt = .ok (b, before '#' l) ∧
    (b = true → 2 ≤ (pieces l).length) := by
  have hp : splitString (before '#' l) isBlank = .ok (pieces l) := splitString_eq _ _
  unfold validParameterLine
  rw [chopAt_eq, ok_bind, hp, ok_bind]
  by_cases h2 : (pieces l).length ≥ 2
  · rw [if_pos h2]
    cases opt with
    | true => exact ⟨true, rfl, fun _ => h2⟩
    | false =>
      obtain ⟨b, hb⟩ : ∃ b, validTokens nl (pieces l) = .ok b := by
        unfold validTokens
        rw [rd_ok (by omega), ok_bind]
        split
        · exact ⟨_, rfl⟩
        · split
          · rename_i h3
            rw [rd_ok h3, ok_bind]
            split
            · exact ⟨_, rfl⟩
            · unfold validLimits
              rw [splitString_eq, ok_bind]
              generalize (if ((pieces l)[2].dropWhile (· == ',')).any (· == ',') then tokens (· == ',') (pieces l)[2] else [(pieces l)[2]]) = qs
              split
              · exact ⟨_, rfl⟩
              · rename_i hn
                have hn := not_not.1 hn
                rw [rd_ok (by omega), rd_ok (by omega), ok_bind, ok_bind]
                exact ⟨_, rfl⟩
          · exact ⟨_, rfl⟩
      simp only [Bool.false_eq_true, if_false, hb, ok_bind]
      exact ⟨b, rfl, fun _ => h2⟩
  · rw [if_neg h2]
    exact ⟨false, rfl, by simp⟩

/-- What checking does to a line. -/
def vetted (l : Str) : Str :=
  if hasSub kFunction l || hasSub kOptStart l || hasSub kOptEnd l then l else before '#' l

omit [FP α] in
/-- Checking returns; accepted lines are left with their comments removed, keyword lines as they were, and other lines have two tokens. -/
theorem vetLines_ok (nl : Strtod α) (ls : List Str) (opt : Bool) : vetLines nl opt ls = .ok none ∨
    (vetLines nl opt ls = .ok (some (ls.map vetted)) ∧
      ∀ l ∈ ls, hasSub kFunction l = false → hasSub kOptStart l = false → hasSub kOptEnd l = false → 2 ≤ (pieces l).length) := by
  induction ls generalizing opt with
  | nil => right; exact ⟨rfl, by simp⟩
  | cons l ls ih =>
    unfold vetLines
    by_cases h1 : hasSub kFunction l = true
    · simp only [h1, if_true]
      rcases ih opt with h | ⟨h, h'⟩
      · left; rw [h]; rfl
      · right; rw [h]
        refine ⟨by simp [vetted, h1, ok_bind], fun x hx => ?_⟩
        rcases List.mem_cons.1 hx with rfl | hx
        · simp [h1]
        · exact h' x hx
    · rw [Bool.not_eq_true] at h1
      simp only [h1, Bool.false_eq_true, if_false]
      by_cases h2 : hasSub kOptStart l = true
      · simp only [h2, if_true]
        rcases ih true with h | ⟨h, h'⟩
        · left; rw [h]; rfl
        · right; rw [h]
          refine ⟨by simp [vetted, h2, ok_bind], fun x hx => ?_⟩
          rcases List.mem_cons.1 hx with rfl | hx
          · simp [h2]
          · exact h' x hx
      · rw [Bool.not_eq_true] at h2
        simp only [h2, Bool.false_eq_true, if_false]
        by_cases h3 : hasSub kOptEnd l = true
        · simp only [h3, if_true]
          rcases ih false with h | ⟨h, h'⟩
          · left; rw [h]; rfl
          · right; rw [h]
            refine ⟨by simp [vetted, h3, ok_bind], fun x hx => ?_⟩
            rcases List.mem_cons.1 hx with rfl | hx
            · simp [h3]
            · exact h' x hx
        · rw [Bool.not_eq_true] at h3
          simp only [h3, Bool.false_eq_true, if_false]
          obtain ⟨b, hb, hb2⟩ := validParameterLine_ok nl l opt
          rw [hb, ok_bind]
          cases b with
          | false => left; rfl
          | true =>
            simp only [if_true]
            rcases ih opt with h | ⟨h, h'⟩
            · left; rw [h]; rfl
            · right; rw [h]
              refine ⟨by simp [vetted, h1, h2, h3, ok_bind], fun x hx => ?_⟩
              rcases List.mem_cons.1 hx with rfl | hx
              · exact fun _ _ _ => hb2 rfl
              · exact h' x hx

omit [FP α] in
/-- `VetConfigFile` returns for every file. -/
theorem vetConfigFile_ok (nl : Strtod α) (mode2D : Bool) (lines : List Str) :
    (∃ c, vetConfigFile nl mode2D lines = .ok (.bad c)) ∨
    ∃ k, lines.findIdx? (hasSub kX0) = some k ∧ (mode2D = true → yFollows lines k = true) ∧ (lines.drop k).any (hasSub kFunction) = true ∧
      (∀ l ∈ lines.drop k, hasSub kFunction l = false → hasSub kOptStart l = false → hasSub kOptEnd l = false → 2 ≤ (pieces l).length) ∧
      vetConfigFile nl mode2D lines = .ok (.good k ((lines.drop k).map vetted)) := by
  unfold vetConfigFile
  cases h : lines.findIdx? (hasSub kX0) with
  | none => left; exact ⟨_, rfl⟩
  | some k =>
    simp only
    by_cases h1 : (mode2D && !yFollows lines k) = true
    · left; rw [if_pos h1]; exact ⟨_, rfl⟩
    · rw [if_neg h1]
      by_cases h2 : (lines.drop k).any (hasSub kFunction) = true
      · simp only [h2, Bool.not_true, Bool.false_eq_true, if_false]
        rcases vetLines_ok nl (lines.drop k) false with hv | ⟨hv, hv'⟩
        · left; rw [hv]; exact ⟨_, rfl⟩
        · right
          refine ⟨k, rfl, ?_, h2, hv', by rw [hv]; rfl⟩
          intro hm
          subst hm
          simpa using h1
      · left
        rw [Bool.not_eq_true] at h2
        simp only [h2, Bool.not_false, if_true]
        exact ⟨_, rfl⟩

/-- Options of the first part. -/
theorem readOptions_ok (ls : List Str) : ∃ r, readOptions ls = .ok r := by
  induction ls with
  | nil => exact ⟨_, rfl⟩
  | cons l ls ih =>
    obtain ⟨r, hr⟩ := ih
    unfold readOptions
    rw [chopSplit_eq, ok_bind, hr, ok_bind]
    split <;> exact ⟨_, rfl⟩

/-- The trimmed line, with the single-character defect of `TrimWhitespace`. -/
def trimmed (l : Str) : Str := if (trim l).length = 1 then [] else trim l

/-- Is the line kept? -/
def keep (l : Str) : Bool :=
  match trimmed l with
  | [] => false
  | c :: _ => c != '#'

theorem keepLines_eq (ls : List Str) : keepLines ls = .ok ((ls.filter keep).map trimmed) := by
  induction ls with
  | nil => rfl
  | cons l ls ih =>
    have ht : trimWhitespace l = .ok (trimmed l) := trimWhitespace_eq l
    unfold keepLines
    rw [ht, ok_bind, ih, ok_bind]
    cases h : trimmed l with
    | nil => simp [keep, h]
    | cons c cs =>
      by_cases hc : c = '#'
      · simp [keep, h, hc]
      · simp [keep, h, hc]

theorem trim_head {s : Str} {c : Char} {cs : Str} (h : trim s = c :: cs) : isBlank c = false := by
  unfold trim at h
  have hne : s.dropWhile isBlank ≠ [] := by
    intro h0; rw [h0] at h; simp at h
  obtain ⟨d, ds, hd⟩ := List.exists_cons_of_ne_nil hne
  have hdb : isBlank d = false := by
    have := List.head_dropWhile_not isBlank hne
    simpa [hd] using this
  have hr := List.dropWhile_suffix isBlank (l := (s.dropWhile isBlank).reverse)
  have hp : ((s.dropWhile isBlank).reverse.dropWhile isBlank).reverse <+: s.dropWhile isBlank := by
    have := List.reverse_prefix.2 hr
    simpa using this
  rw [h, hd] at hp
  have := (List.cons_prefix_cons.1 hp).1
  rw [this]; exact hdb

theorem kept_of_keep {l : Str} (h : keep l = true) : Kept (trimmed l) := by
  unfold keep at h
  cases ht : trimmed l with
  | nil => rw [ht] at h; cases h
  | cons c cs =>
    rw [ht] at h
    refine ⟨c, cs, rfl, ?_, by simpa using h⟩
    unfold trimmed at ht
    split at ht
    · cases ht
    · exact trim_head ht

/-! ## Invariants of the parser -/

/-- What an accepted run of the parser has done with its first line. -/
inductive Did (nl : Strtod α) (mode2D check : Bool) (l : Str) : Bool → PState0 α → Bool → PState0 α → Prop where
  | y (st st1) (hy : hasSub kY0 l = true) (hs : stepParam nl check st l = .ok (some st1)) : Did nl mode2D check l true st false st1
  | x (st st1) (hx : hasSub kX0 l = true) (hs : stepParam nl check { st with starts := st.starts ++ [st.nFun] } l = .ok (some st1)) :
      Did nl mode2D check l false st mode2D st1
  | fn (st st1) (hx : hasSub kX0 l = false) (hf : hasSub kFunction l = true) (hs : addFunction st l = .ok st1) :
      Did nl mode2D check l false st false st1
  | start (st) (hx : hasSub kX0 l = false) (hf : hasSub kFunction l = false) (ho : hasSub kOptStart l = true) :
      Did nl mode2D check l false st false { st with inOpt := true }
  | stop (st) (hx : hasSub kX0 l = false) (hf : hasSub kFunction l = false) (ho : hasSub kOptStart l = false) (he : hasSub kOptEnd l = true) :
      Did nl mode2D check l false st false { st with inOpt := false }
  | opt (st st1) (hx : hasSub kX0 l = false) (hf : hasSub kFunction l = false) (ho : hasSub kOptStart l = false) (he : hasSub kOptEnd l = false)
      (hi : st.inOpt = true) (hs : addOptional st l = .ok st1) : Did nl mode2D check l false st false st1
  | par (st st1) (hx : hasSub kX0 l = false) (hf : hasSub kFunction l = false) (ho : hasSub kOptStart l = false) (he : hasSub kOptEnd l = false)
      (hi : st.inOpt = false) (hs : stepParam nl check st l = .ok (some st1)) : Did nl mode2D check l false st false st1

theorem parseLoop_cons (nl : Strtod α) (mode2D check : Bool) (w : Bool) (st r : PState0 α) (l : Str) (ls : List Str)
    (h : parseLoop nl mode2D check w st (l :: ls) = .ok (some r)) :
    ∃ w1 st1, Did nl mode2D check l w st w1 st1 ∧ parseLoop nl mode2D check w1 st1 ls = .ok (some r) := by
  have hm : ∀ (s : PState0 α) (w' : Bool), (do
      match ← stepParam nl check s l with
      | none => .ok none
      | some st1 => parseLoop nl mode2D check w' st1 ls) = .ok (some r) →
      ∃ st1, stepParam nl check s l = .ok (some st1) ∧ parseLoop nl mode2D check w' st1 ls = .ok (some r) := by
    intro s w' h
    rcases hs : stepParam nl check s l with e | s1
    · rw [hs] at h; cases h
    · rw [hs, ok_bind] at h
      cases s1 with
      | none => cases h
      | some s1 => exact ⟨s1, rfl, h⟩
  cases w with
  | true =>
    unfold parseLoop at h
    split at h
    · rename_i hy
      obtain ⟨st1, h1, h2⟩ := hm _ _ h
      exact ⟨_, _, .y st st1 hy h1, h2⟩
    · cases h
  | false =>
    unfold parseLoop at h
    split at h
    · rename_i hx
      obtain ⟨st1, h1, h2⟩ := hm _ _ h
      exact ⟨_, _, .x st st1 hx h1, h2⟩
    · rename_i hx
      rw [Bool.not_eq_true] at hx
      split at h
      · rename_i hf
        rcases hs : addFunction st l with e | s1
        · rw [hs] at h; cases h
        · rw [hs, ok_bind] at h
          exact ⟨_, _, .fn st s1 hx hf hs, h⟩
      · rename_i hf
        rw [Bool.not_eq_true] at hf
        split at h
        · rename_i ho
          exact ⟨_, _, .start st hx hf ho, h⟩
        · rename_i ho
          rw [Bool.not_eq_true] at ho
          split at h
          · rename_i he
            exact ⟨_, _, .stop st hx hf ho he, h⟩
          · rename_i he
            rw [Bool.not_eq_true] at he
            split at h
            · rename_i hi
              rcases hs : addOptional st l with e | s1
              · rw [hs] at h; cases h
              · rw [hs, ok_bind] at h
                exact ⟨_, _, .opt st s1 hx hf ho he hi hs, h⟩
            · rename_i hi
              rw [Bool.not_eq_true] at hi
              obtain ⟨st1, h1, h2⟩ := hm _ _ h
              exact ⟨_, _, .par st st1 hx hf ho he hi h1, h2⟩

/-- A property kept by every action of the parser holds at the end. -/
theorem parseLoop_inv (nl : Strtod α) (mode2D check : Bool) (P : PState0 α → Prop)
    (hstart : ∀ st, P st → P { st with starts := st.starts ++ [st.nFun] })
    (hparam : ∀ st l st', P st → stepParam nl check st l = .ok (some st') → P st')
    (hfun : ∀ st l st', P st → addFunction st l = .ok st' → P st')
    (hopt : ∀ st l st', P st → addOptional st l = .ok st' → P st')
    (hflag : ∀ st b, P st → P { st with inOpt := b }) (ls : List Str) (w : Bool) (st r : PState0 α) (h0 : P st)
    (h : parseLoop nl mode2D check w st ls = .ok (some r)) : P r := by
  induction ls generalizing w st with
  | nil =>
    cases w
    · cases h; exact h0
    · cases h
  | cons l ls ih =>
    obtain ⟨w1, st1, hd, h'⟩ := parseLoop_cons nl mode2D check w st r l ls h
    refine ih w1 st1 ?_ h'
    cases hd with
    | y _ _ hs => exact hparam _ _ _ h0 (by assumption)
    | x _ _ hs => exact hparam _ _ _ (hstart _ h0) (by assumption)
    | fn _ _ hx hf hs => exact hfun _ _ _ h0 (by assumption)
    | start => exact hflag _ _ h0
    | stop => exact hflag _ _ h0
    | opt => exact hopt _ _ _ h0 (by assumption)
    | par => exact hparam _ _ _ h0 (by assumption)

omit [FP α] in
theorem addFunction_some {st st' : PState0 α} {l : Str} (h : addFunction st l = .ok st') : ∃ n lab, functionLabel l = .ok lab ∧
    (pieces l)[1]? = some n ∧
    st' = { st with names := st.names ++ [n], labels := st.labels ++ [lab], opts := st.opts ++ [[]], nFun := st.nFun + 1 } := by
  unfold addFunction at h
  obtain ⟨t, ht⟩ := functionLabel_ok l
  rw [ht, ok_bind, chopSplit_eq, ok_bind] at h
  rcases OkOob.rd (pieces l) 1 with ⟨x, hx⟩ | hx
  · rw [hx, ok_bind] at h
    refine ⟨x, t, ht, List.getElem?_eq_some_iff.2 (rd_eq_ok_iff.1 hx), ?_⟩
    cases h; rfl
  · rw [hx] at h; cases h

omit [FP α] in
theorem addOptional_some {st st' : PState0 α} {l : Str} (h : addOptional st l = .ok st') : ∃ o, o.length = st.opts.length ∧
    st' = { st with opts := o } := by
  unfold addOptional at h
  rcases OkOob.rdI st.opts ((st.nFun : Int) - 1) with ⟨m, hm⟩ | hm
  · rw [hm, ok_bind, chopSplit_eq, ok_bind] at h
    rcases OkOob.rd (pieces l) 0 with ⟨k, hk⟩ | hk
    · rw [hk, ok_bind] at h
      rcases OkOob.rd (pieces l) 1 with ⟨v, hv⟩ | hv
      · rw [hv, ok_bind] at h
        rcases ho : wrI st.opts ((st.nFun : Int) - 1) (mapPut m k v) with e | o
        · rw [ho] at h; cases h
        · rw [ho, ok_bind] at h
          refine ⟨o, ?_, ?_⟩
          · unfold wrI at ho
            split at ho
            · cases ho
            · unfold wr at ho
              split at ho
              · cases ho; simp
              · cases ho
          · cases h; rfl
      · rw [hv] at h; cases h
    · rw [hk] at h; cases h
  · rw [hm] at h; cases h

/-- What a stored parameter looks like. -/
theorem stepParam_some {nl : Strtod α} {check : Bool} {st st' : PState0 α} {l : Str} (h : stepParam nl check st l = .ok (some st')) :
    ∃ v : α, (∃ f, ∃ r : ParInfo α, addParam nl l = .ok (v, some r, f) ∧
        st' = { st with vals := st.vals ++ [v], lims := st.lims ++ [r], found := st.found || f }) ∨
      (check = false ∧ ∃ f, addParam nl l = .ok (v, none, f) ∧ st' = { st with vals := st.vals ++ [v] }) := by
  unfold stepParam at h
  rcases ha : addParam nl l with e | ⟨v, r, f⟩
  · rw [ha] at h; cases h
  · rw [ha, ok_bind] at h
    refine ⟨v, ?_⟩
    cases r with
    | none =>
      right
      unfold pushParam at h
      cases check with
      | true => cases h
      | false => cases h; exact ⟨rfl, f, rfl, rfl⟩
    | some r =>
      left
      unfold pushParam at h
      cases h
      exact ⟨f, r, rfl, rfl⟩

/-- A record is consistent with the value. -/
def LimOK (v : α) (r : ParInfo α) : Prop :=
  (r.lim0 = r.lim1) ∧ (r.fixed = true → r.lim0 = false) ∧
  (r.lim0 = true → FP.fle r.hi r.lo = false ∧ FP.flt v r.lo = false ∧ FP.flt r.hi v = false)

theorem addParam_limOK {nl : Strtod α} {l : Str} {v : α} {r : ParInfo α} {f : Bool} (h : addParam nl l = .ok (v, some r, f)) : LimOK v r := by
  unfold addParam at h
  rw [chopSplit_eq, ok_bind] at h
  rcases OkOob.rd (pieces l) 1 with ⟨t, ht⟩ | ht
  · rw [ht, ok_bind] at h
    simp only at h
    split at h
    · rcases OkOob.rd (pieces l) 2 with ⟨e, he⟩ | he
      · rw [he, ok_bind] at h
        rcases hr : readLimits nl (nl.val t) e with x | o
        · rw [hr] at h; cases h
        · rw [hr, ok_bind] at h
          cases h
          unfold readLimits at hr
          split at hr
          · cases hr; exact ⟨rfl, fun _ => rfl, by simp [ParInfo.zero]⟩
          · split at hr
            · rw [splitString_eq, ok_bind] at hr
              generalize hps : (if (e.dropWhile (· == ',')).any (· == ',') then tokens (· == ',') e else [e]) = ps at hr
              rcases OkOob.rd ps 0 with ⟨a, ha⟩ | ha
              · rw [ha, ok_bind] at hr
                rcases OkOob.rd ps 1 with ⟨b, hb⟩ | hb
                · rw [hb, ok_bind] at hr
                  simp only at hr
                  split at hr
                  · cases hr
                  · rename_i hle
                    split at hr
                    · cases hr
                    · rename_i hin
                      rw [Bool.not_eq_true] at hle hin
                      rw [Bool.or_eq_false_iff] at hin
                      cases hr
                      exact ⟨rfl, by simp, fun _ => ⟨hle, hin.1, hin.2⟩⟩
                · rw [hb] at hr; cases hr
              · rw [ha] at hr; cases hr
            · cases hr; exact ⟨rfl, by simp [ParInfo.zero], by simp [ParInfo.zero]⟩
      · rw [he] at h; cases h
    · cases h; exact ⟨rfl, by simp [ParInfo.zero], by simp [ParInfo.zero]⟩
  · rw [ht] at h; cases h

/-! ## Lines -/

theorem splitOnP_nl (c : Char) (cs : Str) : (c :: cs).splitOnP (· == '\n') =
    if c = '\n' then [] :: cs.splitOnP (· == '\n') else (cs.splitOnP (· == '\n')).modifyHead (c :: ·) := by
  rw [List.splitOnP_cons_eq_if_modifyHead]
  by_cases h : c = '\n'
  · simp [h]
  · simp [h]

/-- `getline` delivers the pieces between newlines, except for an empty one at the end. -/
theorem textLines_eq (s : Str) : s.splitOnP (· == '\n') = textLines s ∨ s.splitOnP (· == '\n') = textLines s ++ [[]] := by
  induction s with
  | nil => right; simp [textLines]
  | cons c cs ih =>
    rw [splitOnP_nl]
    by_cases h : c = '\n'
    · simp only [h, if_true, textLines]
      rcases ih with ih | ih
      · left; rw [ih]
      · right; rw [ih]; rfl
    · simp only [h, if_false, textLines]
      rcases ih with ih | ih
      · left
        rw [ih]
        cases ht : textLines cs with
        | nil =>
          rw [ht] at ih
          exact absurd ih (List.splitOnP_ne_nil _ _)
        | cons l ls => rfl
      · rw [ih]
        cases ht : textLines cs with
        | nil => left; rfl
        | cons l ls => right; rfl

theorem stripped_eq (l : Str) : stripped l = trimmed l := rfl

theorem meaningful_eq (l : Str) : meaningful (trimmed l) = keep l := by
  unfold meaningful keep
  rfl

theorem filter_map_trimmed (ls : List Str) : (ls.map stripped).filter meaningful = (ls.filter keep).map trimmed := by
  induction ls with
  | nil => rfl
  | cons l ls ih =>
    rw [List.map_cons, List.filter_cons, List.filter_cons, stripped_eq, meaningful_eq, ih]
    split <;> rfl

/-- The lines kept are the ones that count. -/
theorem keepLines_usable (file : Str) : keepLines (textLines file) = .ok (usable file) := by
  rw [keepLines_eq, ← filter_map_trimmed]
  unfold usable
  rcases textLines_eq file with h | h
  · rw [h]
  · rw [h, List.map_append, List.filter_append]
    simp [stripped, meaningful, trim]

theorem usable_kept (file : Str) : ∀ l ∈ usable file, Kept l := by
  intro l hl
  have := keepLines_usable file
  rw [keepLines_eq] at this
  have he : usable file = ((textLines file).filter keep).map trimmed := by
    injection this with this; exact this.symm
  rw [he] at hl
  obtain ⟨x, hx, rfl⟩ := List.mem_map.1 hl
  exact kept_of_keep (List.mem_filter.1 hx).2

theorem readConfig_usable (nl : Strtod α) (mode2D check : Bool) (opts : List (List (Str × Str))) (file : Str) :
    readConfig nl mode2D check opts file = readKept nl mode2D check opts (usable file) := by
  unfold readConfig
  rw [keepLines_usable, ok_bind]

theorem hasSub_iff (k l : Str) : hasSub k l = true ↔ Has k l := by simp [hasSub, Has]

/-- An accepted file has been through the checks and the parser. -/
theorem readKept_some {nl : Strtod α} {mode2D check : Bool} {opts : List (List (Str × Str))} {lines : List Str} {r : Config α}
    (h : readKept nl mode2D check opts lines = .ok (some r)) :
    ∃ k os st, lines.findIdx? (hasSub kX0) = some k ∧ (mode2D = true → yFollows lines k = true) ∧ (lines.drop k).any (hasSub kFunction) = true ∧
      (∀ l ∈ lines.drop k, hasSub kFunction l = false → hasSub kOptStart l = false → hasSub kOptEnd l = false → 2 ≤ (pieces l).length) ∧
      readOptions (lines.take k) = .ok os ∧
      parseFunctionSection nl mode2D check opts ((lines.drop k).map vetted) = .ok (some st) ∧
      r = ⟨os, st.names, st.labels, st.vals, st.lims, st.starts, st.found, st.opts⟩ := by
  unfold readKept at h
  rcases vetConfigFile_ok nl mode2D lines with ⟨c, hc⟩ | ⟨k, h1, h2, h3, h4, hv⟩
  · rw [hc, ok_bind] at h
    unfold readSections at h
    cases h
  · rw [hv, ok_bind] at h
    unfold readSections at h
    simp only at h
    obtain ⟨os, ho⟩ := readOptions_ok (lines.take k)
    rw [ho, ok_bind] at h
    rcases hp : parseFunctionSection nl mode2D check opts ((lines.drop k).map vetted) with e | st
    · rw [hp] at h; cases h
    · rw [hp, ok_bind] at h
      cases st with
      | none => cases h
      | some st =>
        cases h
        exact ⟨k, os, st, h1, h2, h3, h4, ho, hp, rfl⟩

end Imfit
