import Verif.Lemmas.Config

/-!
# C31 — accepted configuration files describe a consistent model

For every text file that is accepted: one label and one optional-parameter map per function, one limit record per value, start indices in order and
not beyond the number of functions, limits consistent (`C31_counts`, `C31_limits`). That there is a function, that the indices start at 0, increase
strictly and lie within the list needs more: comments without keywords, lines with one keyword, and a function in every set (`C31_sets_partial`).
Without these the claim is false (`C31_false`).
-/

namespace Imfit

open Spec

variable {α : Type} [FP α]

/-- What holds of the parser's vectors all the time. -/
structure Shape (n0 : Nat) (st : PState0 α) : Prop where
  names : st.names.length = st.nFun
  labels : st.labels.length = st.nFun
  opts : st.opts.length = n0 + st.nFun
  sorted : st.starts.Pairwise (· ≤ ·)
  bound : ∀ s ∈ st.starts, s ≤ st.nFun

theorem shape_parse (nl : Strtod α) (mode2D check : Bool) (n0 : Nat) (ls : List Str) (w : Bool) (st r : PState0 α) (h0 : Shape n0 st)
    (h : parseLoop nl mode2D check w st ls = .ok (some r)) : Shape n0 r := by
  refine parseLoop_inv nl mode2D check (Shape n0) ?_ ?_ ?_ ?_ ?_ ls w st r h0 h
  · intro st h
    refine ⟨h.names, h.labels, h.opts, ?_, ?_⟩
    · rw [List.pairwise_append]
      exact ⟨h.sorted, by simp, fun a ha b hb => by simp at hb; subst hb; exact h.bound a ha⟩
    · intro s hs
      rcases List.mem_append.1 hs with hs | hs
      · exact h.bound s hs
      · simp at hs; rw [hs]
  · intro st l st' h hs
    obtain ⟨v, ⟨f, r, -, rfl⟩ | ⟨-, f, -, rfl⟩⟩ := stepParam_some hs
    · exact ⟨h.names, h.labels, h.opts, h.sorted, h.bound⟩
    · exact ⟨h.names, h.labels, h.opts, h.sorted, h.bound⟩
  · intro st l st' h hs
    obtain ⟨n, lab, -, -, rfl⟩ := addFunction_some hs
    refine ⟨by simp [h.names], by simp [h.labels], by simp [h.opts]; omega, h.sorted, fun s hs => ?_⟩
    have := h.bound s hs
    show s ≤ st.nFun + 1
    omega
  · intro st l st' h hs
    obtain ⟨o, ho, rfl⟩ := addOptional_some hs
    exact ⟨h.names, h.labels, by rw [← h.opts, ← ho], h.sorted, h.bound⟩
  · intro st b h
    exact ⟨h.names, h.labels, h.opts, h.sorted, h.bound⟩

/-- What holds of values and limit records. -/
def LimShape (st : PState0 α) : Prop := st.lims.length = st.vals.length ∧ ∀ p ∈ st.vals.zip st.lims, LimOK p.1 p.2

theorem limShape_parse (nl : Strtod α) (mode2D : Bool) (ls : List Str) (w : Bool) (st r : PState0 α) (h0 : LimShape st)
    (h : parseLoop nl mode2D true w st ls = .ok (some r)) : LimShape r := by
  refine parseLoop_inv nl mode2D true LimShape (fun st h => h) ?_ ?_ ?_ (fun st b h => h) ls w st r h0 h
  · intro st l st' h hs
    obtain ⟨v, ⟨f, r, ha, rfl⟩ | ⟨hc, -⟩⟩ := stepParam_some hs
    · refine ⟨by simp [h.1], ?_⟩
      simp only
      rw [List.zip_append h.1.symm]
      intro p hp
      rcases List.mem_append.1 hp with hp | hp
      · exact h.2 p hp
      · simp at hp; subst hp; exact addParam_limOK ha
    · cases hc
  · intro st l st' h hs
    obtain ⟨n, lab, -, -, rfl⟩ := addFunction_some hs
    exact h
  · intro st l st' h hs
    obtain ⟨o, ho, rfl⟩ := addOptional_some hs
    exact h

/-- Counts and order of the start indices, for every accepted text file (1-D or 2-D, limits checked or ignored). -/
theorem C31_counts (nl : Strtod α) (mode2D check : Bool) (opts : List (List (Str × Str))) (file : Str) (r : Config α)
    (h : readConfig nl mode2D check opts file = .ok (some r)) :
    r.labels.length = r.names.length ∧ r.opts.length = opts.length + r.names.length ∧ r.starts.Pairwise (· ≤ ·) ∧
      ∀ s ∈ r.starts, s ≤ r.names.length := by
  rw [readConfig_usable] at h
  obtain ⟨k, os, st, -, -, -, -, -, hp, rfl⟩ := readKept_some h
  have hs := shape_parse nl mode2D check opts.length _ _ _ _ ⟨rfl, rfl, rfl, List.Pairwise.nil, by simp⟩ hp
  exact ⟨by rw [hs.labels, hs.names], by rw [hs.opts, hs.names], hs.sorted, by rw [hs.names]; exact hs.bound⟩

/-- Limit records, for every accepted text file: one per value; both limits or none; never limits on a fixed parameter; and for limited parameters none
of the comparisons that would contradict `lower < upper` and `lower <= value <= upper` holds. -/
theorem C31_limits (nl : Strtod α) (mode2D : Bool) (opts : List (List (Str × Str))) (file : Str) (r : Config α)
    (h : readConfig nl mode2D true opts file = .ok (some r)) :
    r.lims.length = r.vals.length ∧ ∀ p ∈ r.vals.zip r.lims, p.2.lim0 = p.2.lim1 ∧ (p.2.fixed = true → p.2.lim0 = false) ∧
      (p.2.lim0 = true → FP.fle p.2.hi p.2.lo = false ∧ FP.flt p.1 p.2.lo = false ∧ FP.flt p.2.hi p.1 = false) := by
  rw [readConfig_usable] at h
  obtain ⟨k, os, st, -, -, -, -, -, hp, rfl⟩ := readKept_some h
  exact limShape_parse nl mode2D _ _ _ _ ⟨rfl, by simp⟩ hp

/-- With real numbers (no NaN): `lower < upper`, and the starting value lies between. -/
theorem C31_limits_exact (nl : Strtod XR) (mode2D : Bool) (opts : List (List (Str × Str))) (file : Str) (r : Config XR)
    (h : readConfig nl mode2D true opts file = .ok (some r)) (v lo hi : ℝ) (f l1 : Bool)
    (hp : (XR.fin v, (⟨f, true, l1, .fin lo, .fin hi⟩ : ParInfo XR)) ∈ r.vals.zip r.lims) : lo < hi ∧ lo ≤ v ∧ v ≤ hi := by
  have := (C31_limits nl mode2D opts file r h).2 _ hp
  have := this.2.2 rfl
  simpa using this

/-- The next function comes before the next `X0` line. -/
def FunFirst (ls : List Str) : Prop := ∃ m f c, ls = m ++ f :: c ∧ (∀ l ∈ m, ¬ Has kX0 l) ∧ Has kFunction f

/-- A file written as intended: keywords do not occur in comments, a `FUNCTION` line is not an `X0` or `Y0` line, every set has a function. -/
structure Tidy (ls : List Str) : Prop where
  comments : ∀ l ∈ ls, ∀ k ∈ [kX0, kY0, kFunction], Has k l → Has k (before '#' l)
  single : ∀ l ∈ ls, Has kFunction l → ¬ Has kX0 l ∧ ¬ Has kY0 l
  sets : ∀ a x b, ls = a ++ x :: b → Has kX0 x → FunFirst b

theorem not_has {k l : Str} (h : hasSub k l = false) : ¬ Has k l := by
  rw [← hasSub_iff, h]; simp

theorem funFirst_cons {l : Str} {ls : List Str} (h : FunFirst (l :: ls)) (hf : ¬ Has kFunction l) : FunFirst ls := by
  obtain ⟨m, f, c, he, hm, hc⟩ := h
  cases m with
  | nil => simp at he; rw [he.1] at hf; exact absurd hc hf
  | cons x m =>
    simp at he
    exact ⟨m, f, c, he.2, fun y hy => hm y (by simp [hy]), hc⟩

theorem strict_parse (nl : Strtod α) (mode2D check : Bool) (ls : List Str) (w : Bool) (st r : PState0 α)
    (hone : ∀ l ∈ ls, Has kFunction l → ¬ Has kX0 l ∧ ¬ Has kY0 l) (hsets : ∀ a x b, ls = a ++ x :: b → Has kX0 x → FunFirst b)
    (hst : st.starts.Pairwise (· < ·)) (hle : ∀ s ∈ st.starts, s ≤ st.nFun) (hp : (∀ s ∈ st.starts, s < st.nFun) ∨ FunFirst ls)
    (h : parseLoop nl mode2D check w st ls = .ok (some r)) : r.starts.Pairwise (· < ·) ∧ ∀ s ∈ r.starts, s < r.nFun := by
  induction ls generalizing w st with
  | nil =>
    cases w with
    | true => cases h
    | false =>
      cases h
      refine ⟨hst, ?_⟩
      rcases hp with hp | ⟨m, f, c, he, -⟩
      · exact hp
      · simp at he
  | cons l ls ih =>
    obtain ⟨w1, st1, hd, h'⟩ := parseLoop_cons nl mode2D check w st r l ls h
    have hone' : ∀ l ∈ ls, Has kFunction l → ¬ Has kX0 l ∧ ¬ Has kY0 l := fun x hx => hone x (by simp [hx])
    have hsets' : ∀ a x b, ls = a ++ x :: b → Has kX0 x → FunFirst b := fun a x b he => hsets (l :: a) x b (by rw [he]; rfl)
    have keep : ∀ st1 : PState0 α, st1.starts = st.starts → st1.nFun = st.nFun → ¬ Has kFunction l →
        parseLoop nl mode2D check w1 st1 ls = .ok (some r) → r.starts.Pairwise (· < ·) ∧ ∀ s ∈ r.starts, s < r.nFun := by
      intro st1 e1 e2 hf h'
      refine ih w1 st1 hone' hsets' (by rw [e1]; exact hst) (by rw [e1, e2]; exact hle) ?_ h'
      rw [e1, e2]
      exact hp.imp_right fun h => funFirst_cons h hf
    have same : ∀ l st st1, stepParam nl check st l = .ok (some st1) → st1.starts = st.starts ∧ st1.nFun = st.nFun := by
      intro l st st1 hs
      obtain ⟨v, ⟨f, r, -, rfl⟩ | ⟨-, f, -, rfl⟩⟩ := stepParam_some hs <;> exact ⟨rfl, rfl⟩
    cases hd with
    | y _ _ hy hs =>
      have := same _ _ _ hs
      exact keep st1 this.1 this.2 (fun hf => (hone l (by simp) hf).2 ((hasSub_iff _ _).1 hy)) h'
    | x _ _ hx hs =>
      have hs := same _ _ _ hs
      have hx := (hasSub_iff _ _).1 hx
      have hlt : ∀ s ∈ st.starts, s < st.nFun := by
        rcases hp with hp | hp
        · exact hp
        · obtain ⟨m, f, c, he, hm, hc⟩ := hp
          cases m with
          | nil => simp at he; rw [← he.1] at hc; exact absurd hx (hone l (by simp) hc).1
          | cons y m => simp at he; exact absurd hx (by rw [he.1]; exact hm y (by simp))
      refine ih mode2D st1 hone' hsets' ?_ ?_ (Or.inr (hsets [] l ls rfl hx)) h'
      · rw [hs.1, List.pairwise_append]
        exact ⟨hst, by simp, fun a ha b hb => by simp at hb; subst hb; exact hlt a ha⟩
      · rw [hs.1, hs.2]
        intro s hs
        rcases List.mem_append.1 hs with hs | hs
        · exact hle s hs
        · simp at hs; rw [hs]
    | fn _ _ hx hf hs =>
      obtain ⟨n, lab, -, -, rfl⟩ := addFunction_some hs
      refine ih false { st with names := st.names ++ [n], labels := st.labels ++ [lab], opts := st.opts ++ [[]], nFun := st.nFun + 1 } hone' hsets' hst
        (fun s hs => Nat.le_succ_of_le (hle s hs)) (Or.inl fun s hs => Nat.lt_succ_of_le (hle s hs)) h'
    | start _ hx hf ho => exact keep { st with inOpt := true } rfl rfl (not_has hf) h'
    | stop _ hx hf ho he => exact keep { st with inOpt := false } rfl rfl (not_has hf) h'
    | opt _ _ hx hf ho he hi hs =>
      obtain ⟨o, ho, rfl⟩ := addOptional_some hs
      exact keep { st with opts := o } rfl rfl (not_has hf) h'
    | par _ _ hx hf ho he hi hs =>
      have := same _ _ _ hs
      exact keep st1 this.1 this.2 (not_has hf) h'

theorem head_parse (nl : Strtod α) (mode2D check : Bool) (ls : List Str) (w : Bool) (st r : PState0 α) (s : Nat) (h0 : st.starts.head? = some s)
    (h : parseLoop nl mode2D check w st ls = .ok (some r)) : r.starts.head? = some s := by
  refine parseLoop_inv nl mode2D check (fun st => st.starts.head? = some s) ?_ ?_ ?_ ?_ (fun _ _ h => h) ls w st r h0 h
  · intro st h
    simp [h]
  · intro st l st' h hs
    obtain ⟨v, ⟨f, r, -, rfl⟩ | ⟨-, f, -, rfl⟩⟩ := stepParam_some hs <;> exact h
  · intro st l st' h hs
    obtain ⟨n, lab, -, -, rfl⟩ := addFunction_some hs
    exact h
  · intro st l st' h hs
    obtain ⟨o, ho, rfl⟩ := addOptional_some hs
    exact h

theorem has_before {k l : Str} (h : Has k (before '#' l)) : Has k l := h.trans (List.takeWhile_prefix _).isInfix

theorem has_vetted {k l : Str} (h : Has k (vetted l)) : Has k l := by
  unfold vetted at h
  split at h
  · exact h
  · exact has_before h

/-- The rest of the claim, for tidy files: there is a function, the start indices begin at 0, increase strictly and lie within the function list. -/
theorem C31_sets_partial (nl : Strtod α) (mode2D check : Bool) (opts : List (List (Str × Str))) (file : Str) (r : Config α)
    (ht : Tidy (usable file)) (h : readConfig nl mode2D check opts file = .ok (some r)) :
    0 < r.names.length ∧ r.starts.head? = some 0 ∧ r.starts.Pairwise (· < ·) ∧ ∀ s ∈ r.starts, s < r.names.length := by
  rw [readConfig_usable] at h
  obtain ⟨k, os, st, hk, -, -, -, -, hp, rfl⟩ := readKept_some h
  have hs := shape_parse nl mode2D check opts.length _ _ _ _ ⟨rfl, rfl, rfl, List.Pairwise.nil, by simp⟩ hp
  set ls := usable file with hls
  have hsub : ∀ l ∈ ls.drop k, l ∈ ls := fun l hl => List.mem_of_mem_drop hl
  have hv : ∀ l ∈ ls, ∀ q ∈ [kX0, kY0, kFunction], Has q l → Has q (vetted l) := by
    intro l hl q hq h
    unfold vetted
    split
    · exact h
    · exact ht.comments l hl q hq h
  have hone : ∀ l ∈ (ls.drop k).map vetted, Has kFunction l → ¬ Has kX0 l ∧ ¬ Has kY0 l := by
    intro l hl hf
    obtain ⟨x, hx, rfl⟩ := List.mem_map.1 hl
    have := ht.single x (hsub x hx) (has_vetted hf)
    exact ⟨fun h => this.1 (has_vetted h), fun h => this.2 (has_vetted h)⟩
  have hsets : ∀ a x b, (ls.drop k).map vetted = a ++ x :: b → Has kX0 x → FunFirst b := by
    intro a x b he hx
    obtain ⟨a', r', h1, h2, h3⟩ := List.map_eq_append_iff.1 he
    obtain ⟨x', b', rfl, rfl, rfl⟩ := List.map_eq_cons_iff.1 h3
    have hdec : ls = (ls.take k ++ a') ++ x' :: b' := by rw [List.append_assoc, ← h1, List.take_append_drop]
    obtain ⟨m, f, c, rfl, hm, hf⟩ := ht.sets _ x' b' hdec (has_vetted hx)
    refine ⟨m.map vetted, vetted f, c.map vetted, by simp, ?_, ?_⟩
    · intro l hl
      obtain ⟨y, hy, rfl⟩ := List.mem_map.1 hl
      exact fun h => hm y hy (has_vetted h)
    · exact hv f (by rw [hdec]; simp) kFunction (by simp) hf
  have hst := strict_parse nl mode2D check _ _ _ _ hone hsets List.Pairwise.nil (by simp) (Or.inl (by simp)) hp
  obtain ⟨hlt, hX, -⟩ := List.findIdx?_eq_some_iff_getElem.1 hk
  have hd : ls.drop k = ls[k] :: ls.drop (k + 1) := (List.getElem_cons_drop hlt).symm
  have hhead : st.starts.head? = some 0 := by
    have hp' := hp
    unfold parseFunctionSection at hp'
    rw [hd, List.map_cons] at hp'
    obtain ⟨w1, st1, hdid, h'⟩ := parseLoop_cons _ _ _ _ _ _ _ _ hp'
    have hx : Has kX0 (vetted ls[k]) := hv _ (List.getElem_mem hlt) _ (by simp) ((hasSub_iff _ _).1 hX)
    have hxf : hasSub kX0 (vetted ls[k]) = true := (hasSub_iff _ _).2 hx
    generalize hst0 : (⟨[], [], [], [], [], false, opts, 0, false⟩ : PState0 α) = st0 at hdid
    cases hdid with
    | x _ _ hx hs =>
      refine head_parse nl mode2D check _ _ _ _ 0 ?_ h'
      obtain ⟨v, ⟨f, r, -, rfl⟩ | ⟨-, f, -, rfl⟩⟩ := stepParam_some hs <;> (subst hst0; rfl)
    | fn _ _ hx' => rw [hx'] at hxf; cases hxf
    | start _ hx' => rw [hx'] at hxf; cases hxf
    | stop _ hx' => rw [hx'] at hxf; cases hxf
    | opt _ _ hx' => rw [hx'] at hxf; cases hxf
    | par _ _ hx' => rw [hx'] at hxf; cases hxf
  refine ⟨?_, hhead, hst.1, by rw [hs.names]; exact hst.2⟩
  have : (0 : Nat) ∈ st.starts := List.mem_of_head? hhead
  have := hst.2 _ this
  rw [hs.names]; exact this

/-- `strtod` on digits (and "nan"), enough for examples. -/
noncomputable def natStrtod : Strtod XR := ⟨fun s =>
  if s = ['n', 'a', 'n'] then (.nan, 3)
  else (.fin (digitsVal 0 (s.takeWhile Char.isDigit) : ℕ), (s.takeWhile Char.isDigit).length)⟩

/-- Accepted files that contradict the claim: start indices 0, 0; a start index beyond the last function; no function at all; no start index; and
limits of NaN, where the lower is not below the upper. -/
theorem C31_false :
    (do let r ← readConfig natStrtod true true [] "X0 1\nY0 1\nX0 1\nY0 1\nFUNCTION F".toList; .ok (r.map Config.starts)) = (.ok (some [0, 0]) : Res _) ∧
    (do let r ← readConfig natStrtod true true [] "X0 1\nY0 1\nFUNCTION F\nX0 1\nY0 1".toList
        .ok (r.map fun c => (c.starts, c.names.length))) = (.ok (some ([0, 1], 1)) : Res _) ∧
    (do let r ← readConfig natStrtod true true [] "X0 1\nY0 1\nFUNCTION X0\nY0 1".toList; .ok (r.map Config.names)) = (.ok (some []) : Res _) ∧
    (do let r ← readConfig natStrtod true true [] "GAIN 1 # X0\nRDNOISE 1 # Y0\nFUNCTION F".toList; .ok (r.map Config.starts)) = (.ok (some []) : Res _) ∧
    (do let r ← readConfig natStrtod true true [] "X0 1 nan,nan\nY0 1\nFUNCTION F".toList; .ok (r.map fun c => c.lims.map ParInfo.lim0)) =
      (.ok (some [true, false]) : Res _) := by
  refine ⟨?_, ?_, ?_, ?_, ?_⟩ <;> decide +kernel

/-- The file used as an example: two sets, options, labels, limits, comments and optional parameters. -/
def exampleFile : Str := ("GAIN 3\n# comment\nX0 1\nY0 2 fixed # centre\nFUNCTION F # LABEL one\nPA 10\nFUNCTION G\nOPTIONAL_PARAMS_START\n" ++
  "a b\nOPTIONAL_PARAMS_END\n\nX0 5\nY0 6\nFUNCTION H").toList

/-- Non-vacuous. -/
example : (do let r ← readConfig natStrtod true true [] exampleFile; .ok (r.map fun c => (c.starts, c.names))) =
    (.ok (some ([0, 2], [['F'], ['G'], ['H']])) : Res _) := by decide +kernel

example : (do let r ← readConfig natStrtod true true [] exampleFile; .ok (r.map fun c => (c.vals.length, c.labels))) =
    (.ok (some (5, ["one".toList, [], []])) : Res _) := by decide +kernel

example : (do let r ← readConfig natStrtod true true [] exampleFile; .ok (r.map Config.opts)) =
    (.ok (some ([[], [(['a'], ['b'])], []])) : Res _) := by decide +kernel

example : (do let r ← readConfig natStrtod true true [] exampleFile; .ok (r.map Config.options)) =
    (.ok (some ([("GAIN".toList, ['3'])])) : Res _) := by decide +kernel

/-- A tidy file. -/
example : Tidy (usable "X0 1\nY0 1\nFUNCTION F".toList) := by
  have e : usable "X0 1\nY0 1\nFUNCTION F".toList = ["X0 1".toList, "Y0 1".toList, "FUNCTION F".toList] := by decide +kernel
  have d : ∀ k l : Str, Has k l ↔ hasSub k l = true := fun k l => (hasSub_iff k l).symm
  rw [e]
  refine ⟨?_, ?_, ?_⟩
  · intro l hl k hk
    simp only [d]
    revert l k
    decide +kernel
  · intro l hl
    simp only [d]
    revert l
    decide +kernel
  · intro a x b he hx
    rw [d] at hx
    have h1 : hasSub kX0 "Y0 1".toList = false := by decide +kernel
    have h2 : hasSub kX0 "FUNCTION F".toList = false := by decide +kernel
    match a, he with
    | [], he =>
      simp only [List.nil_append, List.cons.injEq] at he
      exact ⟨["Y0 1".toList], "FUNCTION F".toList, [], he.2.symm, by intro l hl; simp only [List.mem_singleton] at hl; subst hl; exact not_has h1,
        (d _ _).2 (by decide +kernel)⟩
    | [_], he =>
      simp only [List.cons_append, List.nil_append, List.cons.injEq] at he
      rw [← he.2.1, h1] at hx; cases hx
    | [_, _], he =>
      simp only [List.cons_append, List.nil_append, List.cons.injEq] at he
      rw [← he.2.2.1, h2] at hx; cases hx
    | _ :: _ :: _ :: a, he =>
      simp at he

end Imfit
