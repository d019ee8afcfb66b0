import Verif.Model.CmdLine
import Verif.Spec.CmdLine
import Verif.Lemmas.Text

/-!
# C36 — Command-line interpretation

The command line is read against the declarations exactly as `Spec.meaning` says, for arguments in which at most one `=` occurs, between a non-empty name
and a non-empty value. The other arguments are read differently (`C36_false`). Parsing is safe for every argument vector.
-/

namespace Imfit

open Spec

theorem cok {α β : Type} (a : α) (f : α → Res β) : (Except.ok a >>= f) = f a := rfl

/-- A parser with the given declarations. -/
def declare (p : CLine) (d : Decl) : CLine :=
  if d.isFlag then p.addFlag d.names else if d.isQueue then p.addQueueOption d.names else p.addOption d.names

/-- A parser with the given declarations (in order); `strict` after `UnrecognizedAreErrors`. -/
def parser (ds : List Decl) (strict : Bool) : CLine := if strict then (ds.foldl declare .new).strict else ds.foldl declare .new

/-! ## The option table -/

theorem optGet_put (m : List (Str × Nat)) (k n : Str) (v : Nat) : optGet (optPut m k v) n = if k = n then some v else optGet m n := by
  induction m with
  | nil => rfl
  | cons e m ih =>
    obtain ⟨k', v'⟩ := e
    unfold optPut
    by_cases h : k' = k
    · rw [if_pos h, h]
      by_cases h2 : k = n
      · simp [optGet, h2]
      · simp [optGet, h2]
    · rw [if_neg h]
      unfold optGet
      rw [ih]
      by_cases h2 : k' = n
      · have h3 : ¬ k = n := fun e => h (h2.trans e.symm)
        simp [h2, h3]
      · simp [h2]

theorem optGet_puts (ns : List Str) (m : List (Str × Nat)) (n : Str) (v : Nat) :
    optGet (ns.foldl (fun m k => optPut m k v) m) n = if n ∈ ns then some v else optGet m n := by
  induction ns generalizing m with
  | nil => simp
  | cons k ns ih =>
    rw [List.foldl_cons, ih, optGet_put]
    by_cases h1 : n ∈ ns
    · simp [h1]
    · by_cases h2 : k = n
      · simp [h2]
      · simp [h1, h2, Ne.symm h2]

theorem find?_congr' {γ : Type} (l : List γ) (f g : γ → Bool) (h : ∀ x ∈ l, f x = g x) : l.find? f = l.find? g := by
  induction l with
  | nil => rfl
  | cons x l ih => rw [List.find?_cons, List.find?_cons, h x (by simp), ih fun y hy => h y (by simp [hy])]

theorem owner_snoc (ds : List Decl) (d : Decl) (n : Str) : owner (ds ++ [d]) n = if n ∈ d.names then some ds.length else owner ds n := by
  unfold owner
  rw [List.length_append, List.length_singleton, List.range_succ, List.reverse_append]
  simp only [List.reverse_cons, List.reverse_nil, List.nil_append, List.cons_append, List.find?_cons]
  rw [List.getElem?_append_right (le_refl _)]
  simp only [Nat.sub_self, List.getElem?_cons_zero, Option.map_some, Option.getD_some]
  by_cases h : n ∈ d.names
  · simp [h]
  · simp only [h, decide_false, if_false]
    refine find?_congr' _ _ _ fun i hi => ?_
    have : i < ds.length := by simpa using hi
    rw [List.getElem?_append_left this]

theorem owner_lt {ds : List Decl} {n : Str} {i : Nat} (h : owner ds n = some i) : i < ds.length := by
  have := List.mem_of_find?_eq_some h
  simpa using this

/-- State of one option object after the events `es`. -/
structure GoodOpt (ds : List Decl) (es : List Ev) (i : Nat) (o : OptObj) : Prop where
  kind : o.isFlag = isFlagAt ds i
  flag : o.flagSet = decide (Ev.flag i ∈ es)
  vals : o.targets = valuesOf i es
  set : o.targetSet = !(valuesOf i es).isEmpty

/-- State of the parser after the events `es`. -/
structure Tracks (ds : List Decl) (strict : Bool) (p : CLine) (es : List Ev) : Prop where
  map : ∀ n, optGet p.map n = owner ds n
  len : p.objs.length = ds.length
  obj : ∀ i (h : i < p.objs.length), GoodOpt ds es i p.objs[i]
  args : p.args = argsOf es
  ign : p.ignore = !strict

theorem tracks_add {ds : List Decl} {p : CLine} (d : Decl) (o : OptObj) (h : Tracks ds false p []) (ho : o.isFlag = d.isFlag)
    (h2 : o.flagSet = false) (h3 : o.targets = []) (h4 : o.targetSet = false) : Tracks (ds ++ [d]) false (p.add o d.names) [] := by
  constructor
  · intro n
    unfold CLine.add
    rw [optGet_puts, owner_snoc, h.map, h.len]
  · simp [CLine.add, h.len]
  · intro i hi
    simp only [CLine.add, List.length_append, List.length_singleton] at hi
    by_cases hl : i < p.objs.length
    · have e : (p.add o d.names).objs[i]'(by simpa [CLine.add] using hi) = p.objs[i] := by simp [CLine.add, List.getElem_append_left hl]
      rw [e]
      obtain ⟨g1, g2, g3, g4⟩ := h.obj i hl
      refine ⟨?_, g2, g3, g4⟩
      rw [g1]
      unfold isFlagAt
      rw [List.getElem?_append_left (by rw [← h.len]; exact hl)]
    · have hi' : i = p.objs.length := by omega
      subst hi'
      have e : (p.add o d.names).objs[p.objs.length]'(by simp [CLine.add]) = o := by simp [CLine.add]
      rw [e]
      refine ⟨?_, by simp [h2], by simp [h3, valuesOf], by simp [h4, valuesOf]⟩
      rw [ho]
      unfold isFlagAt
      rw [h.len, List.getElem?_append_right (le_refl _)]
      simp
  · simp [CLine.add, h.args]
  · simp [CLine.add, h.ign]

theorem tracks_declare {ds : List Decl} {p : CLine} (d : Decl) (h : Tracks ds false p []) : Tracks (ds ++ [d]) false (declare p d) [] := by
  unfold declare
  split
  · next hf => exact tracks_add d _ h (by simp [hf]) rfl rfl rfl
  · next hf =>
    have : d.isFlag = false := by simpa using hf
    split
    · exact tracks_add d _ h (by simp [this, OptObj.new]) rfl rfl rfl
    · exact tracks_add d _ h (by simp [this, OptObj.new]) rfl rfl rfl

theorem tracks_parser (ds : List Decl) (strict : Bool) : Tracks ds strict (parser ds strict) [] := by
  have key : ∀ (es ds : List Decl) (p : CLine), Tracks ds false p [] → Tracks (ds ++ es) false (es.foldl declare p) [] := by
    intro es
    induction es with
    | nil => intro ds p h; simpa using h
    | cons e es ih =>
      intro ds p h
      have := ih (ds ++ [e]) (declare p e) (tracks_declare e h)
      simpa using this
  have h0 : Tracks ds false (ds.foldl declare .new) [] := by
    have := key ds [] .new ⟨fun n => rfl, rfl, fun i h => absurd h (by simp [CLine.new]), rfl, rfl⟩
    simpa using this
  unfold parser
  cases strict
  · exact h0
  · exact ⟨h0.map, h0.len, h0.obj, h0.args, rfl⟩

theorem parser_empty (ds : List Decl) (strict : Bool) : (parser ds strict).empty = true := by
  have key : ∀ (ds : List Decl) (p : CLine), (ds.foldl declare p).empty = p.empty := by
    intro ds
    induction ds with
    | nil => intro p; rfl
    | cons d ds ih =>
      intro p
      rw [List.foldl_cons, ih]
      unfold declare
      split
      · rfl
      · split <;> rfl
  unfold parser
  cases strict
  · exact key ds .new
  · exact key ds .new

/-! ## Recording an event -/

theorem valuesOf_append (i : Nat) (es fs : List Ev) : valuesOf i (es ++ fs) = valuesOf i es ++ valuesOf i fs := by
  simp [valuesOf, List.filterMap_append]

theorem argsOf_append (es fs : List Ev) : argsOf (es ++ fs) = argsOf es ++ argsOf fs := by simp [argsOf, List.filterMap_append]

theorem tracks_arg {ds : List Decl} {strict : Bool} {p : CLine} {es : List Ev} (h : Tracks ds strict p es) (a : Str) :
    Tracks ds strict { p with empty := false, args := p.args ++ [a] } (es ++ [.arg a]) := by
  refine ⟨h.map, h.len, fun i hi => ?_, ?_, h.ign⟩
  · obtain ⟨g1, g2, g3, g4⟩ := h.obj i hi
    refine ⟨g1, ?_, ?_, ?_⟩
    · simp [g2]
    · rw [valuesOf_append, g3]; simp [valuesOf]
    · rw [valuesOf_append, g4]; simp [valuesOf]
  · rw [argsOf_append, h.args]; simp [argsOf]

theorem tracks_skip {ds : List Decl} {strict : Bool} {p : CLine} {es : List Ev} (h : Tracks ds strict p es) :
    Tracks ds strict { p with empty := false } es := ⟨h.map, h.len, h.obj, h.args, h.ign⟩

theorem tracks_flag {ds : List Decl} {strict : Bool} {p : CLine} {es : List Ev} (h : Tracks ds strict p es) (k : Nat) (hk : k < p.objs.length) :
    Tracks ds strict { p with objs := p.objs.set k p.objs[k].set } (es ++ [.flag k]) := by
  refine ⟨h.map, by simp [h.len], fun i hi => ?_, ?_, h.ign⟩
  · have hi' : i < p.objs.length := by simpa using hi
    obtain ⟨g1, g2, g3, g4⟩ := h.obj i hi'
    simp only [List.getElem_set]
    by_cases e : k = i
    · subst e
      rw [if_pos rfl]
      refine ⟨g1, by simp [OptObj.set], ?_, ?_⟩
      · rw [valuesOf_append, OptObj.set, g3]; simp [valuesOf]
      · rw [valuesOf_append, OptObj.set, g4]; simp [valuesOf]
    · rw [if_neg e]
      refine ⟨g1, ?_, ?_, ?_⟩
      · rw [g2]; simp [Ne.symm e]
      · rw [valuesOf_append, g3]; simp [valuesOf]
      · rw [valuesOf_append, g4]; simp [valuesOf]
  · rw [argsOf_append]; simpa [argsOf] using h.args

theorem tracks_value {ds : List Decl} {strict : Bool} {p : CLine} {es : List Ev} (h : Tracks ds strict p es) (k : Nat) (hk : k < p.objs.length) (v : Str) :
    Tracks ds strict { p with objs := p.objs.set k (p.objs[k].store v) } (es ++ [.value k v]) := by
  refine ⟨h.map, by simp [h.len], fun i hi => ?_, ?_, h.ign⟩
  · have hi' : i < p.objs.length := by simpa using hi
    obtain ⟨g1, g2, g3, g4⟩ := h.obj i hi'
    simp only [List.getElem_set]
    by_cases e : k = i
    · subst e
      rw [if_pos rfl]
      refine ⟨g1, by simp [OptObj.store, g2], ?_, ?_⟩
      · rw [valuesOf_append, OptObj.store, g3]; simp [valuesOf]
      · rw [valuesOf_append, OptObj.store]; simp [valuesOf]
    · rw [if_neg e]
      refine ⟨g1, ?_, ?_, ?_⟩
      · rw [g2]; simp
      · rw [valuesOf_append, g3]; simp [valuesOf, e]
      · rw [valuesOf_append, g4]; simp [valuesOf, e]
  · rw [argsOf_append]; simpa [argsOf] using h.args

/-! ## One argument -/

theorem stripDashes_eq (s : Str) : stripDashes s = .ok (s.dropWhile (· == '-')) := by
  unfold stripDashes
  by_cases hs : s = []
  · rw [if_pos hs, hs]; rfl
  · rw [if_neg hs]
    cases hf : findFrom (fun c => !(c == '-')) s (some 0) with
    | none =>
      have := findFrom_none _ _ _ hf
      simp only [List.drop_zero] at this
      rw [List.dropWhile_eq_nil_iff.2 fun c hc => by simpa using this c hc]
    | some k =>
      obtain ⟨j, rfl, hj, ht, c, hd, hc⟩ := findFrom_some _ _ _ _ hf
      simp only [List.drop_zero, Nat.zero_add] at *
      unfold substr
      rw [if_neg (by omega), dropWhile_eq_drop _ s j (fun c hc => by simpa using ht c hc) ⟨c, hd, by simpa using hc⟩]

/-- Arguments that are read as intended: at most one `=`, between a non-empty name and a non-empty value. -/
def Plain (a : Str) : Prop :=
  a.head? = some '-' → '=' ∉ a ∨ ∃ n v, a.dropWhile (· == '-') = n ++ '=' :: v ∧ n ≠ [] ∧ v ≠ [] ∧ '=' ∉ n ∧ '=' ∉ v

theorem split_none {b : Str} (h : '=' ∉ b) : splitString b (· == '=') = .ok [b] := by
  rw [splitString_eq, if_neg]
  simp only [List.any_eq_true, not_exists, not_and]
  intro x hx
  have hm : x ∈ b := (List.dropWhile_sublist _).subset hx
  simp only [beq_iff_eq]
  rintro rfl
  exact h hm

theorem split_one {n v : Str} (hn : n ≠ []) (hv : v ≠ []) (h1 : '=' ∉ n) (h2 : '=' ∉ v) : splitString (n ++ '=' :: v) (· == '=') = .ok [n, v] := by
  have hne : ∀ t : Str, '=' ∉ t → ∀ c ∈ t, (c == '=') = false := by
    intro t ht c hc
    simp only [beq_eq_false_iff_ne]
    rintro rfl
    exact ht hc
  have e : (n ++ '=' :: v).dropWhile (· == '=') = n ++ '=' :: v := by
    cases n with
    | nil => exact absurd rfl hn
    | cons x n => rw [List.cons_append, List.dropWhile_cons_of_neg (by simp [hne _ h1 x (by simp)])]
  rw [splitString_eq, e, if_pos (by simp), tokens_cons _ n (hne n h1) hn '=' (by simp), tokens_single _ v (hne v h2) hv]

theorem takeWhile_absent {b : Str} (h : '=' ∉ b) : b.takeWhile (· != '=') = b := by
  rw [List.takeWhile_eq_self_iff]
  intro c hc
  simp only [bne_iff_ne]
  rintro rfl
  exact h hc

theorem firstChar_dash (a : Str) : firstChar a = '-' ↔ a.head? = some '-' := by
  cases a with
  | nil => simp [firstChar]
  | cons c a => simp [firstChar]

/-- What the loop does, from position `i` on. -/
theorem cliLoop_meaning (ds : List Decl) (strict : Bool) (argv : List Str) (fuel i : Nat) (p : CLine) (es : List Ev) (h : Tracks ds strict p es)
    (hf : (argv.drop (i + 1)).length ≤ fuel) (hp : ∀ a ∈ argv.drop (i + 1), Plain a) :
    ∃ r q, cliLoop argv fuel i p = .ok (r, q) ∧ q.empty = (p.empty && (argv.drop (i + 1)).isEmpty) ∧
      match meaning ds strict none (argv.drop (i + 1)) with
      | none => r = -1
      | some fs => r = 0 ∧ Tracks ds strict q (es ++ fs) := by
  induction fuel generalizing i p es with
  | zero =>
    have hd : argv.drop (i + 1) = [] := List.length_eq_zero_iff.1 (by omega)
    unfold cliLoop
    have : ¬ (i : Int) < (argv.length : Int) - 1 := by
      have := List.drop_eq_nil_iff.1 hd
      omega
    rw [if_neg this, hd]
    exact ⟨0, p, rfl, by simp, rfl, by simpa [meaning] using h⟩
  | succ fuel ih =>
    unfold cliLoop
    by_cases hlt : (i : Int) < (argv.length : Int) - 1
    swap
    · have hd : argv.drop (i + 1) = [] := List.drop_eq_nil_iff.2 (by omega)
      rw [if_neg hlt, hd]
      exact ⟨0, p, rfl, by simp, rfl, by simpa [meaning] using h⟩
    have hl : i + 1 < argv.length := by omega
    have hd : argv.drop (i + 1) = argv[i + 1] :: argv.drop (i + 1 + 1) := List.drop_eq_getElem_cons hl
    rw [if_pos hlt]
    unfold takeArg
    rw [rd_ok hl, cok]
    rw [hd] at hf hp ⊢
    generalize ha : argv[i + 1] = a at *
    have hf' : (argv.drop (i + 1 + 1)).length ≤ fuel := by simpa using hf
    have hp' : ∀ x ∈ argv.drop (i + 1 + 1), Plain x := fun x hx => hp x (by simp [hx])
    by_cases hdash : a.head? = some '-'
    swap
    · rw [if_neg (fun e => hdash ((firstChar_dash a).1 e)), cok]
      obtain ⟨r, q, e1, e2, e3⟩ := ih (i + 1) _ _ (tracks_arg h a) hf' hp'
      refine ⟨r, q, e1, by simp [e2], ?_⟩
      rw [meaning, if_pos hdash]
      cases hm : meaning ds strict none (argv.drop (i + 1 + 1)) with
      | none => rw [hm] at e3; exact e3
      | some fs => rw [hm] at e3; exact ⟨e3.1, by simpa using e3.2⟩
    rw [if_pos ((firstChar_dash a).2 hdash)]
    unfold takeOption
    rw [stripDashes_eq, cok, meaning, if_neg (show ¬ a.head? ≠ some '-' by simp [hdash])]
    by_cases hb : a.dropWhile (· == '-') = []
    · rw [if_pos (by rw [hb]; simp), cok]
      exact ⟨-1, _, rfl, by simp, by simp [hb]⟩
    rw [if_neg (by have := List.length_pos_iff.2 hb; omega)]
    simp only [if_neg hb]
    have hpl := hp a (by simp) hdash
    have h' := tracks_skip h
    generalize hbody : a.dropWhile (· == '-') = body at *
    -- name and value of the argument
    have hnv : ∃ n pc, splitString body (· == '=') = .ok (n :: pc) ∧ body.takeWhile (· != '=') = n ∧
        ((pc = [] ∧ after '=' body = none) ∨ ∃ v, pc = [v] ∧ after '=' body = some v) := by
      rcases hpl with h1 | ⟨n, v, e, h1, h2, h3, h4⟩
      · have h2 : '=' ∉ body := by
          rw [← hbody]
          intro hm
          exact h1 ((List.dropWhile_sublist _).subset hm)
        exact ⟨body, [], split_none h2, takeWhile_absent h2, Or.inl ⟨rfl, by simp [after, h2]⟩⟩
      · rw [e]
        refine ⟨n, [v], split_one h1 h2 h3 h4, ?_, Or.inr ⟨v, rfl, ?_⟩⟩
        · rw [List.takeWhile_append_of_pos (by intro c hc; simp only [bne_iff_ne]; rintro rfl; exact h3 hc)]
          simp
        · unfold after
          rw [if_pos (by simp), List.dropWhile_append_of_pos (by intro c hc; simp only [bne_iff_ne]; rintro rfl; exact h3 hc)]
          simp
    obtain ⟨n, pc, hsp, htw, hcase⟩ := hnv
    rw [hsp, cok, htw]
    simp only [rd, List.getElem?_cons_zero, cok, h.map]
    cases ho : owner ds n with
    | none =>
      unfold takeName
      rw [cok]
      cases strict with
      | true =>
        rw [if_neg (show ¬ p.ignore = true by simp [h.ign])]
        exact ⟨-1, _, rfl, by simp, rfl⟩
      | false =>
        rw [if_pos (show p.ignore = true by simp [h.ign])]
        obtain ⟨r, q, e1, e2, e3⟩ := ih (i + 1) _ _ h' hf' hp'
        exact ⟨r, q, e1, by simp [e2], e3⟩
    | some k =>
      have hk : k < p.objs.length := by rw [h.len]; exact owner_lt ho
      unfold takeName takeKnown
      simp only [rd_ok hk, cok]
      rw [(h.obj k hk).kind]
      by_cases hfl : isFlagAt ds k = true
      · rw [if_pos hfl, if_pos hfl, wr_ok hk, cok]
        obtain ⟨r, q, e1, e2, e3⟩ := ih (i + 1) _ _ (tracks_flag h' k hk) hf' hp'
        refine ⟨r, q, e1, by simp [e2], ?_⟩
        cases hm : meaning ds strict none (argv.drop (i + 1 + 1)) with
        | none => rw [hm] at e3; exact e3
        | some fs => rw [hm] at e3; exact ⟨e3.1, by simpa using e3.2⟩
      rw [if_neg hfl, if_neg hfl]
      unfold takeTarget
      rcases hcase with ⟨rfl, haf⟩ | ⟨v, rfl, haf⟩
      · rw [if_neg (by simp), haf]
        by_cases hl2 : i + 1 + 1 < argv.length
        · have hd2 : argv.drop (i + 1 + 1) = argv[i + 1 + 1] :: argv.drop (i + 1 + 1 + 1) := List.drop_eq_getElem_cons hl2
          rw [if_pos hl2, rd_ok hl2, cok, wr_ok hk, cok]
          rw [hd2] at hf' hp'
          obtain ⟨r, q, e1, e2, e3⟩ := ih (i + 1 + 1) _ _ (tracks_value h' k hk argv[i + 1 + 1])
            (by simp at hf' ⊢; omega) (fun x hx => hp' x (List.mem_cons_of_mem _ hx))
          refine ⟨r, q, e1, by simp [e2], ?_⟩
          rw [hd2]
          simp only [meaning]
          cases hm : meaning ds strict none (argv.drop (i + 1 + 1 + 1)) with
          | none => rw [hm] at e3; exact e3
          | some fs => rw [hm] at e3; exact ⟨e3.1, by simpa using e3.2⟩
        · rw [if_neg hl2, List.drop_eq_nil_iff.2 (by omega)]
          exact ⟨-1, _, rfl, by simp, rfl⟩
      · rw [if_pos (by simp), haf]
        simp only [List.getElem?_cons_succ, List.getElem?_cons_zero, cok, rd]
        rw [wr_ok hk, cok]
        obtain ⟨r, q, e1, e2, e3⟩ := ih (i + 1) _ _ (tracks_value h' k hk v) hf' hp'
        refine ⟨r, q, e1, by simp [e2], ?_⟩
        cases hm : meaning ds strict none (argv.drop (i + 1 + 1)) with
        | none => rw [hm] at e3; exact e3
        | some fs => rw [hm] at e3; exact ⟨e3.1, by simpa using e3.2⟩

/-- The command line is read as specified. `argv` is the program name and the arguments. A return value of −1 is exactly an error in the sense of the
specification. Otherwise, for every name of a declaration: the flag is reported iff it occurs, the values are exactly those supplied, in order, the option
is reported as set iff a value was supplied; and the positional arguments are exactly the remaining ones, in order. -/
theorem C36_partial (ds : List Decl) (strict : Bool) (prog : Str) (as : List Str) (hp : ∀ a ∈ as, Plain a) :
    ∃ r q, parseCommandLine (parser ds strict) (prog :: as) = .ok (r, q) ∧ q.empty = as.isEmpty ∧
      (meaning ds strict none as = none → r = -1) ∧
      ∀ es, meaning ds strict none as = some es → r = 0 ∧
        (∀ n i, owner ds n = some i → q.flagSet n = .ok (decide (Ev.flag i ∈ es)) ∧ q.optionSet n = .ok (!(valuesOf i es).isEmpty) ∧
          q.nTargets n = .ok (valuesOf i es).length ∧ ∀ j (h : j < (valuesOf i es).length), q.target n j = .ok (some (valuesOf i es)[j])) ∧
        q.args = argsOf es := by
  obtain ⟨r, q, e1, e2, e3⟩ := cliLoop_meaning ds strict (prog :: as) (prog :: as).length 0 _ [] (tracks_parser ds strict) (by simp) (by simpa using hp)
  rw [parser_empty] at e2
  refine ⟨r, q, e1, by simpa using e2, ?_, ?_⟩
  · intro hm
    simp only [List.drop_succ_cons, List.drop_zero, hm] at e3
    exact e3
  · intro es hm
    simp only [List.drop_succ_cons, List.drop_zero, hm, List.nil_append] at e3
    obtain ⟨h0, ht⟩ := e3
    refine ⟨h0, fun n i ho => ?_, ht.args⟩
    have hi : i < q.objs.length := by rw [ht.len]; exact owner_lt ho
    obtain ⟨g1, g2, g3, g4⟩ := ht.obj i hi
    refine ⟨?_, ?_, ?_, fun j hj => ?_⟩
    · simp only [CLine.flagSet, ht.map, ho, rd_ok hi, cok, g2]
    · simp only [CLine.optionSet, ht.map, ho, rd_ok hi, cok, g4]
    · simp only [CLine.nTargets, ht.map, ho, rd_ok hi, cok, g3]
    · simp only [CLine.target, ht.map, ho, rd_ok hi, cok, g3, rd_ok hj]

/-! ## Safety -/

/-- Every registered name leads to an object. -/
def Bound (p : CLine) : Prop := ∀ n k, optGet p.map n = some k → k < p.objs.length

theorem tokens_ne_nil (d : Char → Bool) (s : Str) (h : s.dropWhile d ≠ []) : tokens d s ≠ [] := by
  obtain ⟨x, xs, hx⟩ := List.exists_cons_of_ne_nil h
  have hd : d x = false := by
    have := List.head_dropWhile_not d h
    simpa [hx] using this
  have e : s = s.takeWhile d ++ x :: xs := by rw [← hx, List.takeWhile_append_dropWhile]
  rw [e, tokens_delims d _ _ fun c hc => List.mem_takeWhile_imp hc]
  by_cases hany : ∃ c ∈ xs, d c = true
  · obtain ⟨c, hc, hdc⟩ := hany
    obtain ⟨u, y, v, hu, hy, hall⟩ : ∃ u y v, xs = u ++ y :: v ∧ d y = true ∧ ∀ c ∈ u, d c = false := by
      clear e hx
      induction xs with
      | nil => cases hc
      | cons z zs ih =>
        by_cases hz : d z = true
        · exact ⟨[], z, zs, rfl, hz, by simp⟩
        · rcases List.mem_cons.1 hc with rfl | hc
          · exact absurd hdc hz
          · obtain ⟨u, y, v, e, hy, hall⟩ := ih hc
            exact ⟨z :: u, y, v, by rw [e]; rfl, hy, fun c hc => (List.mem_cons.1 hc).elim (fun h => by rw [h]; simpa using hz) (hall c)⟩
    rw [hu, ← List.cons_append, tokens_cons d (x :: u) (fun c hc => (List.mem_cons.1 hc).elim (fun h => by rw [h]; exact hd) (hall c)) (by simp) y hy]
    simp
  · rw [tokens_single d (x :: xs) (fun c hc => (List.mem_cons.1 hc).elim (fun h => by rw [h]; exact hd)
      (fun h => by simpa using fun h2 => hany ⟨c, h, h2⟩)) (by simp)]
    simp

theorem split_ne (s : Str) (d : Char → Bool) : ∃ n pc, splitString s d = .ok (n :: pc) := by
  rw [splitString_eq]
  by_cases h : (s.dropWhile d).any d = true
  · rw [if_pos h]
    have : s.dropWhile d ≠ [] := by rintro e; rw [e] at h; cases h
    obtain ⟨n, pc, e⟩ := List.exists_cons_of_ne_nil (tokens_ne_nil d s this)
    exact ⟨n, pc, by rw [e]⟩
  · rw [if_neg h]
    exact ⟨s, [], rfl⟩

theorem takeArg_ok (argv : List Str) (p : CLine) (i : Nat) (hi : i < argv.length) (hb : Bound p) :
    ∃ t, takeArg argv p i = .ok t ∧ ∀ q j, t = .next q j → Bound q ∧ i ≤ j := by
  have nx : ∀ q : CLine, q.map = p.map → q.objs.length = p.objs.length → ∀ j, i ≤ j → ∀ q' j', Turn.next q j = .next q' j' → Bound q' ∧ i ≤ j' := by
    intro q h1 h2 j hj q' j' e
    cases e
    refine ⟨fun n k hn => ?_, hj⟩
    rw [h2]
    rw [h1] at hn
    exact hb n k hn
  unfold takeArg
  rw [rd_ok hi, cok]
  split
  swap
  · exact ⟨_, rfl, fun q j e => nx _ (by rfl) (by rfl) i (le_refl _) q j e⟩
  unfold takeOption
  rw [stripDashes_eq, cok]
  split
  · exact ⟨_, rfl, fun q j e => by cases e⟩
  obtain ⟨n, pc, hs⟩ := split_ne (argv[i].dropWhile (· == '-')) (· == '=')
  rw [hs, cok]
  simp only [rd, List.getElem?_cons_zero, cok]
  change ∃ t, takeName argv { p with empty := false } i (n :: pc) (optGet p.map n) = .ok t ∧ _
  cases ho : optGet p.map n with
  | none =>
    unfold takeName
    by_cases hg : p.ignore = true
    · rw [if_pos hg]
      exact ⟨_, rfl, fun q j e => nx _ (by rfl) (by rfl) i (le_refl _) q j e⟩
    · rw [if_neg hg]
      exact ⟨_, rfl, fun q j e => by cases e⟩
  | some k =>
    have hk := hb n k ho
    unfold takeName takeKnown
    simp only [rd_ok hk, cok]
    split
    · rw [wr_ok hk, cok]
      exact ⟨_, rfl, fun q j e => nx _ (by rfl) (by simp) i (le_refl _) q j e⟩
    · unfold takeTarget
      split
      · next hl =>
        rw [rd_ok hl, cok, wr_ok hk, cok]
        exact ⟨_, rfl, fun q j e => nx _ (by rfl) (by simp) i (le_refl _) q j e⟩
      · split
        · next hl =>
          rw [rd_ok hl, cok, wr_ok hk, cok]
          exact ⟨_, rfl, fun q j e => nx _ (by rfl) (by simp) (i + 1) (by omega) q j e⟩
        · exact ⟨_, rfl, fun q j e => by cases e⟩

/-- Whatever the arguments, parsing ends, with 0 or −1, and never reads outside the argument vector, the pieces or the option table. -/
theorem C36_safe (ds : List Decl) (strict : Bool) (argv : List Str) :
    ∃ r q, parseCommandLine (parser ds strict) argv = .ok (r, q) ∧ (r = 0 ∨ r = -1) := by
  have hb : Bound (parser ds strict) := by
    intro n k hn
    have ht := tracks_parser ds strict
    rw [ht.map] at hn
    rw [ht.len]
    exact owner_lt hn
  have key : ∀ fuel i p, Bound p → argv.length ≤ fuel + i + 1 → ∃ r q, cliLoop argv fuel i p = .ok (r, q) ∧ (r = 0 ∨ r = -1) := by
    intro fuel
    induction fuel with
    | zero =>
      intro i p _ hl
      unfold cliLoop
      rw [if_neg (by omega)]
      exact ⟨0, p, rfl, Or.inl rfl⟩
    | succ fuel ih =>
      intro i p hp hl
      unfold cliLoop
      split
      · next hlt =>
        obtain ⟨t, ht, hn⟩ := takeArg_ok argv p (i + 1) (by omega) hp
        rw [ht, cok]
        cases t with
        | stop q => exact ⟨-1, q, rfl, Or.inr rfl⟩
        | next q j =>
          obtain ⟨h1, h2⟩ := hn q j rfl
          exact ih j q h1 (by omega)
      · exact ⟨0, p, rfl, Or.inl rfl⟩
  exact key _ _ _ hb (by omega)

/-! ## Where the code differs -/

/-- The option `--sky` and the flag `--quiet`. -/
def exDecls : List Decl := [⟨false, false, ["s".toList, "sky".toList]⟩, ⟨true, false, ["quiet".toList]⟩]

/-- What the code reports for `n`: return code and values. -/
def reported (as : List Str) (n : Str) : Res (Int × List Str) := do
  let r ← parseCommandLine (parser exDecls true) ("imfit".toList :: as)
  match optGet r.2.map n with
  | some k => do let o ← rd r.2.objs k; .ok (r.1, o.targets)
  | none => .ok (r.1, [])

/-- (1) A value that contains `=` loses everything from its second part on. (2) An empty value is not accepted: the next argument is taken instead.
(3) `--=sky=3` is taken for `--sky=3`. (4) Asking for the number of values of an undeclared option uses a null pointer. -/
theorem C36_false :
    (reported ["--sky=a=b".toList] "sky".toList = .ok (0, ["a".toList]) ∧
      meaning exDecls true none ["--sky=a=b".toList] = some [.value 0 "a=b".toList]) ∧
    (reported ["--sky=".toList, "x.fits".toList] "sky".toList = .ok (0, ["x.fits".toList]) ∧
      meaning exDecls true none ["--sky=".toList, "x.fits".toList] = some [.value 0 [], .arg "x.fits".toList]) ∧
    (reported ["--=sky=3".toList] "sky".toList = .ok (0, ["3".toList]) ∧ meaning exDecls true none ["--=sky=3".toList] = none) ∧
    (parser exDecls true).nTargets "gain".toList = .error .null := by
  refine ⟨⟨?_, ?_⟩, ⟨?_, ?_⟩, ⟨?_, ?_⟩, ?_⟩ <;> decide +kernel

/-- Both ways of giving a value, under both names, with a flag and a positional argument. -/
example : meaning exDecls true none ["-s".toList, "-3".toList, "im.fits".toList, "--sky=5".toList, "-quiet".toList] =
    some [.value 0 "-3".toList, .arg "im.fits".toList, .value 0 "5".toList, .flag 1] ∧
    reported ["-s".toList, "-3".toList, "im.fits".toList, "--sky=5".toList, "-quiet".toList] "s".toList = .ok (0, ["-3".toList, "5".toList]) ∧
    (∀ a ∈ ["-s".toList, "-3".toList, "im.fits".toList, "--sky=5".toList, "-quiet".toList], Plain a) ∧
    meaning exDecls true none ["--gain".toList] = none ∧ meaning exDecls true none ["--sky".toList] = none := by
  refine ⟨by decide +kernel, by decide +kernel, ?_, by decide +kernel, by decide +kernel⟩
  intro a ha
  simp only [List.mem_cons, List.not_mem_nil, or_false] at ha
  rcases ha with rfl | rfl | rfl | rfl | rfl
  · exact fun _ => Or.inl (by decide)
  · exact fun _ => Or.inl (by decide)
  · exact fun _ => Or.inl (by decide)
  · exact fun _ => Or.inr ⟨"sky".toList, "5".toList, by decide, by decide, by decide, by decide, by decide⟩
  · exact fun _ => Or.inl (by decide)

end Imfit
