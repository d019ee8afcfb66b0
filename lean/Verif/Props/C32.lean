import Verif.Props.C31

/-!
# C32 — configuration parsing is memory-safe and total

For every text the reader ends with acceptance, an error code, or an out-of-range vector access — nothing else (`C32_only_oob`); the checking pass never
goes out of range (`C32_vet`). Out-of-range accesses do happen (`C32_false`). They do not for files meeting `Guarded` (`C32_safe_partial`).
-/

namespace Imfit

open Spec

variable {α : Type} [FP α]

/-- Every text: the reader returns, or reads outside a vector. It never throws, diverges, overflows or follows a null pointer. -/
theorem C32_only_oob (nl : Strtod α) (mode2D check : Bool) (opts : List (List (Str × Str))) (file : Str) :
    (∃ r, readConfig nl mode2D check opts file = .ok r) ∨ readConfig nl mode2D check opts file = .error .oob := by
  rw [readConfig_usable]
  unfold readKept
  rcases vetConfigFile_ok nl mode2D (usable file) with ⟨c, hc⟩ | ⟨k, -, -, -, -, hv⟩
  · rw [hc]; exact Or.inl ⟨_, rfl⟩
  · rw [hv, ok_bind]
    unfold readSections
    simp only
    obtain ⟨os, ho⟩ := readOptions_ok ((usable file).take k)
    rw [ho, ok_bind]
    refine (parseLoop_oob nl mode2D check _ _ _).bind fun s _ => ?_
    cases s with
    | none => exact OkOob.ok _
    | some s => exact OkOob.ok _

omit [FP α] in
/-- Every list of lines: the checking pass returns. -/
theorem C32_vet (nl : Strtod α) (mode2D : Bool) (lines : List Str) : ∃ v, vetConfigFile nl mode2D lines = .ok v := by
  rcases vetConfigFile_ok nl mode2D lines with ⟨c, hc⟩ | ⟨k, -, -, -, -, hv⟩
  · exact ⟨_, hc⟩
  · exact ⟨_, hv⟩

/-- Texts that make the reader go out of range: an `X0` line at the end; `FUNCTION` without a name; optional parameters before the first function; a `Y0`
line that also says `FUNCTION`; and bad limits on an `X0` line inside an optional-parameter section. -/
theorem C32_false :
    (∀ f ∈ ["X0 1\nY0 1\nFUNCTION F\nX0 1", "X0 1\nY0 1\nFUNCTION", "X0 1\nY0 1\nOPTIONAL_PARAMS_START\na b\nOPTIONAL_PARAMS_END\nFUNCTION F",
      "X0 1\nY0FUNCTION", "X0 1\nY0 1\nFUNCTION F\nOPTIONAL_PARAMS_START\nX0 1 ,\nY0 1"],
      (do let r ← readConfig natStrtod true true [] f.toList; .ok r.isSome) = (.error .oob : Res Bool)) := by
  decide +kernel

/-- The words of a line, without its comment. -/
def words (l : Str) : List Str := tokens isBlank (before '#' l)

/-- The pieces between commas. -/
def commaPieces (t : Str) : List Str := if (t.dropWhile (· == ',')).any (· == ',') then tokens (· == ',') t else [t]

theorem readLimits_ok (nl : Strtod α) (v : α) (e : Str) (h : e ≠ kFixed → ',' ∈ e → 2 ≤ (commaPieces e).length) :
    ∃ r, readLimits nl v e = .ok r := by
  unfold readLimits
  split
  · exact ⟨_, rfl⟩
  · rename_i h1
    split
    · rename_i h2
      have h3 := h h1 h2
      have hs : splitString e (· == ',') = .ok (commaPieces e) := splitString_eq _ _
      rw [hs, ok_bind, rd_ok (by omega), ok_bind, rd_ok (by omega), ok_bind]
      simp only
      split
      · exact ⟨_, rfl⟩
      · split <;> exact ⟨_, rfl⟩
    · exact ⟨_, rfl⟩

/-- A line on which `AddParameterAndLimit` stays within its vectors. -/
def ParamSafe (l : Str) : Prop := 2 ≤ (pieces l).length ∧ ∀ t, (pieces l)[2]? = some t → t ≠ kFixed → ',' ∈ t → 2 ≤ (commaPieces t).length

theorem stepParam_ok (nl : Strtod α) (check : Bool) (st : PState0 α) (l : Str) (h : ParamSafe l) : ∃ r, stepParam nl check st l = .ok r := by
  have : ∃ x, addParam nl l = .ok x := by
    unfold addParam
    rw [chopSplit_eq, ok_bind, rd_ok (by have := h.1; omega), ok_bind]
    simp only
    split
    · rename_i h3
      rw [rd_ok h3, ok_bind]
      obtain ⟨r, hr⟩ := readLimits_ok nl (nl.val (pieces l)[1]) (pieces l)[2] (h.2 _ (List.getElem?_eq_getElem h3))
      rw [hr, ok_bind]
      exact ⟨_, rfl⟩
    · exact ⟨_, rfl⟩
  obtain ⟨x, hx⟩ := this
  unfold stepParam
  rw [hx, ok_bind]
  exact ⟨_, rfl⟩

omit [FP α] in
/-- The check in ordinary mode makes a line safe. -/
theorem paramSafe_of_valid {nl : Strtod α} {l c : Str} (h : validParameterLine nl l false = .ok (true, c)) : ParamSafe l := by
  have hp : splitString (before '#' l) isBlank = .ok (pieces l) := splitString_eq _ _
  unfold validParameterLine at h
  rw [chopAt_eq, ok_bind, hp, ok_bind] at h
  split at h
  · rename_i h2
    refine ⟨h2, fun t ht hfix _ => ?_⟩
    simp only [Bool.false_eq_true, if_false] at h
    obtain ⟨h3, ht⟩ := List.getElem?_eq_some_iff.1 ht
    unfold validTokens at h
    rw [rd_ok (by omega), ok_bind] at h
    split at h
    · cases h
    · rw [rd_ok h3, ok_bind, ht, if_neg hfix] at h
      unfold validLimits at h
      have hs : splitString t (· == ',') = .ok (commaPieces t) := splitString_eq _ _
      rw [hs, ok_bind] at h
      split at h
      · cases h
      · rename_i hn; have := not_not.1 hn; omega
  · cases h

theorem paramSafe_chop {l : Str} (h : ParamSafe l) : ParamSafe (before '#' l) := by
  unfold ParamSafe
  rw [pieces_chop]
  exact h

/-- What keeps the reader within its vectors, for the lines from the first `X0` line on. -/
structure Guarded (mode2D : Bool) (ls : List Str) : Prop where
  /-- every function has a name -/
  named : ∀ l ∈ ls, Has kFunction l → 2 ≤ (words l).length
  /-- position lines carry no other keyword -/
  alone : ∀ l ∈ ls, Has kX0 l ∨ Has kY0 l → ¬ Has kFunction l ∧ ¬ Has kOptStart l ∧ ¬ Has kOptEnd l
  /-- a third word with a comma on a position line consists of two pieces -/
  limits : ∀ l ∈ ls, Has kX0 l ∨ Has kY0 l → ∀ t, (words l)[2]? = some t → ',' ∈ t → 2 ≤ (commaPieces t).length
  /-- the last line is no `X0` line -/
  last : mode2D = true → ∀ l, ls.getLast? = some l → ¬ Has kX0 l
  /-- optional parameters belong to a function -/
  owner : ∀ a x b, ls = a ++ x :: b → Has kOptStart x → ∃ f ∈ a, Has kFunction f

theorem hasSub_false {k l : Str} (h : ¬ Has k l) : hasSub k l = false := by
  rw [← Bool.not_eq_true, hasSub_iff]; exact h

omit [FP α] in
theorem addFunction_ok (st : PState0 α) (l : Str) (h : 2 ≤ (pieces l).length) : ∃ n lab, addFunction st l =
    .ok { st with names := st.names ++ [n], labels := st.labels ++ [lab], opts := st.opts ++ [[]], nFun := st.nFun + 1 } := by
  unfold addFunction
  obtain ⟨t, ht⟩ := functionLabel_ok l
  rw [ht, ok_bind, chopSplit_eq, ok_bind, rd_ok (by omega), ok_bind]
  exact ⟨_, _, rfl⟩

omit [FP α] in
theorem addOptional_ok (st : PState0 α) (l : Str) (h : 2 ≤ (pieces l).length) (h1 : 0 < st.nFun) (h2 : st.nFun ≤ st.opts.length) :
    ∃ o, o.length = st.opts.length ∧ addOptional st l = .ok { st with opts := o } := by
  have hi : ((st.nFun : Int) - 1) = ((st.nFun - 1 : Nat) : Int) := by omega
  have : ∃ st', addOptional st l = .ok st' := by
    unfold addOptional
    unfold rdI
    rw [hi, if_neg (by omega), Int.toNat_natCast, rd_ok (by omega), ok_bind, chopSplit_eq, ok_bind, rd_ok (by omega), ok_bind, rd_ok (by omega), ok_bind]
    unfold wrI
    rw [if_neg (by omega), Int.toNat_natCast, wr_ok (by omega), ok_bind]
    exact ⟨_, rfl⟩
  obtain ⟨st', hs⟩ := this
  obtain ⟨o, ho, rfl⟩ := addOptional_some hs
  exact ⟨o, ho, hs⟩

theorem parse_safe (nl : Strtod α) (mode2D check : Bool) (ls r : List Str) (w : Bool) (st : PState0 α) (hk : ∀ l ∈ ls, Kept l)
    (hv : vetLines nl st.inOpt ls = .ok (some r))
    (named : ∀ l ∈ ls, Has kFunction l → 2 ≤ (words l).length)
    (alone : ∀ l ∈ ls, Has kX0 l ∨ Has kY0 l → ¬ Has kFunction l ∧ ¬ Has kOptStart l ∧ ¬ Has kOptEnd l)
    (limits : ∀ l ∈ ls, Has kX0 l ∨ Has kY0 l → ∀ t, (words l)[2]? = some t → ',' ∈ t → 2 ≤ (commaPieces t).length)
    (last : mode2D = true → ∀ l, ls.getLast? = some l → ¬ Has kX0 l) (hw : w = true → ls ≠ [])
    (owner : 0 < st.nFun ∨ ∀ a x b, ls = a ++ x :: b → Has kOptStart x → ∃ f ∈ a, Has kFunction f) (hin : st.inOpt = true → 0 < st.nFun)
    (hlen : st.nFun ≤ st.opts.length) : ∃ x, parseLoop nl mode2D check w st r = .ok x := by
  induction ls generalizing w st r with
  | nil =>
    cases hv
    cases w with
    | true => exact absurd rfl (hw rfl)
    | false => exact ⟨_, rfl⟩
  | cons l ls ih =>
    have hkl := hk l (by simp)
    have hpw : pieces l = words l := pieces_kept hkl
    have named' : ∀ l ∈ ls, Has kFunction l → 2 ≤ (words l).length := fun x hx => named x (by simp [hx])
    have alone' : ∀ l ∈ ls, Has kX0 l ∨ Has kY0 l → ¬ Has kFunction l ∧ ¬ Has kOptStart l ∧ ¬ Has kOptEnd l := fun x hx => alone x (by simp [hx])
    have limits' : ∀ l ∈ ls, Has kX0 l ∨ Has kY0 l → ∀ t, (words l)[2]? = some t → ',' ∈ t → 2 ≤ (commaPieces t).length :=
      fun x hx => limits x (by simp [hx])
    have hk' : ∀ l ∈ ls, Kept l := fun x hx => hk x (by simp [hx])
    have last' : mode2D = true → ∀ x, ls.getLast? = some x → ¬ Has kX0 x := by
      intro hm x hx
      exact last hm x (by rw [List.getLast?_cons, hx]; rfl)
    have lastX : mode2D = true → Has kX0 l → ls ≠ [] := by
      rintro hm hx rfl
      exact last hm l rfl hx
    have owner' : ¬ Has kFunction l → (0 < st.nFun ∨ ∀ a x b, ls = a ++ x :: b → Has kOptStart x → ∃ f ∈ a, Has kFunction f) := by
      intro hf
      refine owner.imp_right fun h a x b he hx => ?_
      obtain ⟨f, hfm, hff⟩ := h (l :: a) x b (by rw [he]; rfl) hx
      rcases List.mem_cons.1 hfm with rfl | hfm
      · exact absurd hff hf
      · exact ⟨f, hfm, hff⟩
    unfold vetLines at hv
    by_cases hf : hasSub kFunction l = true
    · -- a function line: left as it is
      simp only [hf, if_true] at hv
      rcases hvt : vetLines nl st.inOpt ls with e | o
      · rw [hvt] at hv; cases hv
      rw [hvt, ok_bind] at hv
      cases o with
      | none => cases hv
      | some r' =>
        cases hv
        have hF := (hasSub_iff _ _).1 hf
        have hx : hasSub kX0 l = false := hasSub_false fun h => (alone l (by simp) (Or.inl h)).1 hF
        have hy : hasSub kY0 l = false := hasSub_false fun h => (alone l (by simp) (Or.inr h)).1 hF
        unfold parseLoop
        cases w with
        | true => simp only [hy, Bool.false_eq_true, if_false]; exact ⟨_, rfl⟩
        | false =>
          simp only [hx, Bool.false_eq_true, if_false, hf, if_true]
          obtain ⟨n, lab, ha⟩ := addFunction_ok st l (by rw [hpw]; exact named l (by simp) hF)
          rw [ha, ok_bind]
          refine ih r' false _ hk' hvt named' alone' limits' last' (by simp) (Or.inl (Nat.succ_pos _)) (fun _ => Nat.succ_pos _) ?_
          simp only [List.length_append, List.length_cons, List.length_nil]
          omega
    · rw [Bool.not_eq_true] at hf
      have hnF := not_has hf
      simp only [hf, Bool.false_eq_true, if_false] at hv
      by_cases ho : hasSub kOptStart l = true
      · simp only [ho, if_true] at hv
        rcases hvt : vetLines nl true ls with e | o
        · rw [hvt] at hv; cases hv
        rw [hvt, ok_bind] at hv
        cases o with
        | none => cases hv
        | some r' =>
          cases hv
          have hO := (hasSub_iff _ _).1 ho
          have hx : hasSub kX0 l = false := hasSub_false fun h => (alone l (by simp) (Or.inl h)).2.1 hO
          have hy : hasSub kY0 l = false := hasSub_false fun h => (alone l (by simp) (Or.inr h)).2.1 hO
          unfold parseLoop
          cases w with
          | true => simp only [hy, Bool.false_eq_true, if_false]; exact ⟨_, rfl⟩
          | false =>
            simp only [hx, Bool.false_eq_true, if_false, hf, ho, if_true]
            have hn : 0 < st.nFun := by
              rcases owner with h | h
              · exact h
              · obtain ⟨f, hfm, -⟩ := h [] l ls rfl hO; simp at hfm
            exact ih r' false _ hk' hvt named' alone' limits' last' (by simp) (Or.inl hn) (fun _ => hn) hlen
      · rw [Bool.not_eq_true] at ho
        simp only [ho, Bool.false_eq_true, if_false] at hv
        by_cases he : hasSub kOptEnd l = true
        · simp only [he, if_true] at hv
          rcases hvt : vetLines nl false ls with e | o
          · rw [hvt] at hv; cases hv
          rw [hvt, ok_bind] at hv
          cases o with
          | none => cases hv
          | some r' =>
            cases hv
            have hE := (hasSub_iff _ _).1 he
            have hx : hasSub kX0 l = false := hasSub_false fun h => (alone l (by simp) (Or.inl h)).2.2 hE
            have hy : hasSub kY0 l = false := hasSub_false fun h => (alone l (by simp) (Or.inr h)).2.2 hE
            unfold parseLoop
            cases w with
            | true => simp only [hy, Bool.false_eq_true, if_false]; exact ⟨_, rfl⟩
            | false =>
              simp only [hx, Bool.false_eq_true, if_false, hf, ho, he, if_true]
              exact ih r' false { st with inOpt := false } hk' hvt named' alone' limits' last' (by simp) (owner' hnF) (by simp) hlen
        · rw [Bool.not_eq_true] at he
          simp only [he, Bool.false_eq_true, if_false] at hv
          obtain ⟨b, hb, hb2⟩ := validParameterLine_ok nl l st.inOpt
          rw [hb, ok_bind] at hv
          cases b with
          | false => cases hv
          | true =>
            simp only [if_true] at hv
            rcases hvt : vetLines nl st.inOpt ls with e | o
            · rw [hvt] at hv; cases hv
            rw [hvt, ok_bind] at hv
            cases o with
            | none => cases hv
            | some r' =>
              cases hv
              have h2 := hb2 rfl
              -- the line as seen by the parser
              set c := before '#' l with hc
              have hfc : hasSub kFunction c = false := hasSub_false fun h => hnF (has_before h)
              have hoc : hasSub kOptStart c = false := hasSub_false fun h => not_has ho (has_before h)
              have hec : hasSub kOptEnd c = false := hasSub_false fun h => not_has he (has_before h)
              have hpos : Has kX0 l ∨ Has kY0 l → ParamSafe c := by
                intro h
                refine paramSafe_chop ⟨h2, fun t ht _ hcm => limits l (by simp) h t ?_ hcm⟩
                rw [← hpw]; exact ht
              unfold parseLoop
              cases w with
              | true =>
                simp only
                split
                · rename_i hy
                  obtain ⟨o, hs⟩ := stepParam_ok nl check st c (hpos (Or.inr (has_before ((hasSub_iff _ _).1 hy))))
                  rw [hs, ok_bind]
                  cases o with
                  | none => exact ⟨_, rfl⟩
                  | some st1 =>
                    obtain ⟨v, ⟨f, r, -, rfl⟩ | ⟨-, f, -, rfl⟩⟩ := stepParam_some hs <;>
                    exact ih r' false _ hk' hvt named' alone' limits' last' (by simp) (owner' hnF) hin hlen
                · exact ⟨_, rfl⟩
              | false =>
                simp only
                split
                · rename_i hx
                  have hX := has_before ((hasSub_iff _ _).1 hx)
                  obtain ⟨o, hs⟩ := stepParam_ok nl check { st with starts := st.starts ++ [st.nFun] } c (hpos (Or.inl hX))
                  rw [hs, ok_bind]
                  cases o with
                  | none => exact ⟨_, rfl⟩
                  | some st1 =>
                    obtain ⟨v, ⟨f, r, -, rfl⟩ | ⟨-, f, -, rfl⟩⟩ := stepParam_some hs <;>
                    exact ih r' mode2D _ hk' hvt named' alone' limits' last' (fun hm => lastX hm hX) (owner' hnF) hin hlen
                · simp only [hfc, hoc, hec, Bool.false_eq_true, if_false]
                  cases hi : st.inOpt with
                  | true =>
                    simp only [if_true]
                    obtain ⟨o, hol, hs⟩ := addOptional_ok st c (by rw [hc, pieces_chop]; exact h2) (hin hi) hlen
                    rw [hs, ok_bind]
                    exact ih r' false { st with opts := o } hk' hvt named' alone' limits' last' (by simp) (owner' hnF) hin (by rw [hol]; exact hlen)
                  | false =>
                    simp only [Bool.false_eq_true, if_false]
                    rw [hi] at hb
                    obtain ⟨o, hs⟩ := stepParam_ok nl check st c (paramSafe_chop (paramSafe_of_valid hb))
                    rw [hs, ok_bind]
                    cases o with
                    | none => exact ⟨_, rfl⟩
                    | some st1 =>
                      obtain ⟨v, ⟨f, r, -, rfl⟩ | ⟨-, f, -, rfl⟩⟩ := stepParam_some hs <;>
                      exact ih r' false _ hk' hvt named' alone' limits' last' (by simp) (owner' hnF) hin hlen

/-- Files that meet `Guarded` (from their first `X0` line on) are read without any out-of-range access. -/
theorem C32_safe_partial (nl : Strtod α) (mode2D check : Bool) (opts : List (List (Str × Str))) (file : Str)
    (h : ∀ a x b, usable file = a ++ x :: b → (∀ l ∈ a, ¬ Has kX0 l) → Has kX0 x → Guarded mode2D (x :: b)) :
    ∃ r, readConfig nl mode2D check opts file = .ok r := by
  rw [readConfig_usable]
  unfold readKept vetConfigFile
  set lines := usable file with hl
  cases hi : lines.findIdx? (hasSub kX0) with
  | none => exact ⟨_, rfl⟩
  | some k =>
    simp only
    split
    · exact ⟨_, rfl⟩
    · split
      · exact ⟨_, rfl⟩
      · obtain ⟨hlt, hX, hbefore⟩ := List.findIdx?_eq_some_iff_getElem.1 hi
        have hd : lines.drop k = lines[k] :: lines.drop (k + 1) := (List.getElem_cons_drop hlt).symm
        have hg : Guarded mode2D (lines.drop k) := by
          rw [hd]
          refine h (lines.take k) lines[k] (lines.drop (k + 1)) ?_ ?_ ((hasSub_iff _ _).1 hX)
          · rw [← hd, List.take_append_drop]
          · intro l hl hx
            obtain ⟨j, hj, rfl⟩ := List.mem_iff_getElem.1 hl
            rw [List.getElem_take] at hx
            have := hbefore j (by simp at hj; omega)
            rw [(hasSub_iff _ _).2 hx] at this
            simp at this
        have hk : ∀ l ∈ lines.drop k, Kept l := fun l hl' => usable_kept file l (List.mem_of_mem_drop hl')
        rcases vetLines_ok nl (lines.drop k) false with hv | ⟨hv, -⟩
        · rw [hv]; exact ⟨_, rfl⟩
        · rw [hv]
          simp only [ok_bind]
          unfold readSections
          simp only
          obtain ⟨os, ho⟩ := readOptions_ok (lines.take k)
          rw [ho, ok_bind]
          obtain ⟨s, hs⟩ : ∃ s, parseFunctionSection nl mode2D check opts ((lines.drop k).map vetted) = .ok s :=
            parse_safe nl mode2D check (lines.drop k) _ false ⟨[], [], [], [], [], false, opts, 0, false⟩ hk hv hg.named hg.alone hg.limits hg.last
              (by simp) (Or.inr hg.owner) (by simp) (Nat.zero_le _)
          rw [hs, ok_bind]
          cases s with
          | none => exact ⟨_, rfl⟩
          | some s => exact ⟨_, rfl⟩

/-- Non-vacuous: the example of C31 is read. -/
example : (do let r ← readConfig natStrtod true true [] exampleFile; .ok r.isSome) = (.ok true : Res _) := by decide +kernel

/-- Non-vacuous: a guarded list of lines. -/
example : Guarded true ["X0 1".toList, "Y0 1".toList, "FUNCTION F".toList] := by
  have d : ∀ k l : Str, Has k l ↔ hasSub k l = true := fun k l => (hasSub_iff k l).symm
  have hw : ∀ l ∈ ["X0 1".toList, "Y0 1".toList, "FUNCTION F".toList], (words l).length = 2 := by decide +kernel
  have ho : ∀ l ∈ ["X0 1".toList, "Y0 1".toList, "FUNCTION F".toList], hasSub kOptStart l = false := by decide +kernel
  refine ⟨fun l hl _ => (hw l hl).ge, ?_, ?_, ?_, ?_⟩
  · intro l hl
    simp only [d]
    revert l
    decide +kernel
  · intro l hl _ t ht
    have := (List.getElem?_eq_some_iff.1 ht).1
    have := hw l hl
    omega
  · intro _ l hl
    simp only [List.getLast?_cons_cons, List.getLast?_singleton, Option.some.injEq] at hl
    subst hl
    exact not_has (by decide +kernel)
  · intro a x b he hx
    exact absurd hx (not_has (ho x (by rw [he]; simp)))

end Imfit
