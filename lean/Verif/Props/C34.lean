import Verif.Lemmas.Rows
import Verif.Props.C44

/-!
# C34 — Saved parameter files can be read back

The file written by `SaveParameters` is read as a configuration file with the same functions, labels, function sets, optional parameters, and the values
as printed. What is assumed of `printf` and `strtod` is `NumFmt.OK`: printed numbers consist of the characters printf uses for numbers and are accepted by
strtod. The model must be printable (`Printable`): names and labels of the kind that can come from a configuration file. A label of one character is lost
(`C34_false`).
-/

namespace Imfit

open Spec

variable {α : Type} [FP α]

/-! ## What should be read -/

/-- The printed numbers, in order: two coordinates (with the image offset) for a function that starts a set, then the function's own parameters. -/
def printedTexts (pr : NumFmt α) (dx dy : α) : List FnInfo → List α → List Str
  | [], _ => []
  | f :: fs, ps =>
    if f.start then List.zipWith (fun p d => pr.f4 (p + d)) (ps.take 2) [dx, dy] ++ ((ps.drop 2).take f.n).map pr.g7 ++
      printedTexts pr dx dy fs (ps.drop (2 + f.n))
    else (ps.take f.n).map pr.g7 ++ printedTexts pr dx dy fs (ps.drop f.n)

/-- Numbers of the functions that start a set. -/
def startsOf (fs : List FnInfo) : List Nat := (List.range fs.length).filter fun i => (fs[i]?.map FnInfo.start).getD false

/-- Number of parameters. -/
def nParams (fs : List FnInfo) : Nat := (fs.map fun f => (if f.start then 2 else 0) + f.n).sum

/-- The names of the functions' own parameters in the list of all names, which has two more for every function that starts a set. -/
def ownNames : List FnInfo → List Str → List Str
  | [], _ => []
  | f :: fs, ls => (ls.drop (if f.start then 2 else 0)).take f.n ++ ownNames fs (ls.drop ((if f.start then 2 else 0) + f.n))

/-- Conditions on the model to be printed. -/
structure Printable (labels : List Str) (params : List α) (errs : Option (List α)) (fs : List FnInfo) : Prop where
  /-- there is a function, and the first one starts a set -/
  first : ∃ f fs', fs = f :: fs' ∧ f.start = true
  nlab : labels.length = nParams fs
  npar : params.length = nParams fs
  nerr : ∀ es, errs = some es → es.length = nParams fs
  /-- parameter names of the functions are words without keywords -/
  labs : ∀ l ∈ ownNames fs labels, Word l ∧ Free l
  /-- function names are words without `X0` and `LABEL` -/
  names : ∀ f ∈ fs, Word f.name ∧ ¬ Has kX0 f.name ∧ ¬ Has kLabel f.name
  /-- labels are trimmed, not one single character, on one line, without `X0` -/
  flabs : ∀ f ∈ fs, LabelOK f.label
  /-- there is a unit for every parameter of a function with units, on one line, trimmed, without keywords -/
  units : ∀ f ∈ fs, ∀ us, f.units = some us → us.length = f.n ∧ ∀ u ∈ us, trim u = u ∧ '\n' ∉ u ∧ ∀ k ∈ [kFunction, kOptStart, kOptEnd], ¬ Has k u
  /-- optional parameters: different names; names and values are words without keywords -/
  extra : ∀ f ∈ fs, ∀ kv, f.extra = some kv → (kv.map (·.1)).Nodup ∧ ∀ p ∈ kv, Word p.1 ∧ Word p.2 ∧ Free p.1 ∧ Free p.2

/-! ## The rows of a printed file -/

/-- Comment with an error. -/
def errTail (t : Option Str) : Option (Str × Str) := t.map fun e => ([' '], [' ', '+', '/', '-', ' '] ++ e)

/-- Comment with an error and a unit. -/
def parTail (t : Option Str) (u : Str) : Option (Str × Str) :=
  match t with
  | some e => some ([' '], [' ', '+', '/', '-', ' '] ++ e ++ (if u.length > 0 then '\t' :: u else []))
  | none => if u.length > 0 then some (['\t', '\t'], ' ' :: u) else none

/-- `%7g` without its padding. -/
def bare (pr : NumFmt α) (v : α) : Str := (pr.g7 v).dropWhile (· == ' ')

section Rows
variable (pr : NumFmt α) (V : Nat → α) (N : Nat → Str) (E : Nat → Option α) (dx dy : α)

def setRows (k : Nat) : List (Option Row) :=
  [none, some (.num .x kX0 [] (pr.f4 (V k + dx)) (errTail ((E k).map pr.f4))),
    some (.num .y kY0 [] (pr.f4 (V (k + 1) + dy)) (errTail ((E (k + 1)).map pr.f4)))]

def parRow (U : Nat → Str) (off i : Nat) : Row :=
  .num .p (N (off + i)) ((pr.g7 (V (off + i))).takeWhile (· == ' ')) (bare pr (V (off + i))) (parTail ((E (off + i)).map pr.g5) (U i))

def extraRows (f : FnInfo) : List Row :=
  match f.extra with
  | none => []
  | some kv => .ostart :: kv.map (fun p => .opt p.1 p.2) ++ [.oend]

def unitFn (f : FnInfo) (i : Nat) : Str := match f.units with
  | none => []
  | some us => us.getD i []

def offAfter (f : FnInfo) (k : Nat) : Nat := if f.start then k + 2 else k

def fnRows (f : FnInfo) (k : Nat) : List (Option Row) :=
  (if f.start then setRows pr V E dx dy k else []) ++
    (([Row.fn f.name f.label] ++ extraRows f ++ (List.range f.n).map (parRow pr V N E (unitFn f) (offAfter f k))).map some)

def allRows : List FnInfo → Nat → List (Option Row)
  | [], _ => []
  | f :: fs, k => fnRows pr V N E dx dy f k ++ allRows fs (offAfter f k + f.n)

end Rows

/-- The text of a row, or an empty line. -/
def orText (r : Option Row) : Str := (r.map Row.text).getD []

omit [FP α] in
theorem mapM_ok {β γ : Type} (l : List β) (g : β → Res γ) (h : β → γ) (e : ∀ x ∈ l, g x = .ok (h x)) : l.mapM g = .ok (l.map h) := by
  induction l with
  | nil => rfl
  | cons x l ih =>
    rw [List.mapM_cons, e x (by simp), ih fun y hy => e y (by simp [hy])]
    rfl

omit [FP α] in
theorem extra_lines (f : FnInfo) : (extraText [] f).map List.flatten = (extraRows f).map fun r => r.text ++ ['\n'] := by
  unfold extraText extraRows
  cases f.extra with
  | none => rfl
  | some kv =>
    have e1 : "OPTIONAL_PARAMS_START".toList = kOptStart := rfl
    have e2 : "OPTIONAL_PARAMS_END".toList = kOptEnd := rfl
    rw [e1, e2]
    simp only [List.map_append, List.map_cons, List.map_nil, List.map_map, Function.comp_def, Row.text, List.flatten_cons, List.flatten_nil, List.nil_append,
      List.append_nil, List.cons_append]

omit [FP α] in
theorem fn_line (f : FnInfo) : (fnText [] f).flatten = (Row.fn f.name f.label).text ++ ['\n'] := by
  have e1 : "FUNCTION ".toList = kFunction ++ [' '] := by decide
  have e2 : "   # LABEL ".toList = [' ', ' ', ' ', '#', ' '] ++ kLabel ++ [' '] := by decide
  unfold fnText
  rw [e1, e2]
  simp only [Row.text, labelText]
  by_cases h : f.label = []
  · simp [h]
  · simp [h]

omit [FP α] in
theorem xy_line (pr : NumFmt α) (k : Kind) (key : Str) (v : α) (e : Option α) :
    (xyText pr [] key v e).flatten = (Row.num k key [] (pr.f4 v) (errTail (e.map pr.f4))).text ++ ['\n'] := by
  cases e <;> simp [xyText, Row.text, errTail, tailText]

omit [FP α] in
theorem par_line (pr : NumFmt α) (nm : Str) (v : α) (e : Option α) (u : Str) :
    ([parText pr [] nm v e] ++ unitsText e u ++ [['\n']]).flatten =
      (Row.num .p nm ((pr.g7 v).takeWhile (· == ' ')) (bare pr v) (parTail (e.map pr.g5) u)).text ++ ['\n'] := by
  have e1 : (pr.g7 v).takeWhile (· == ' ') ++ bare pr v = pr.g7 v := List.takeWhile_append_dropWhile
  simp only [Row.text, e1]
  cases e with
  | none =>
    by_cases h : u.length > 0
    · simp [parText, unitsText, parTail, tailText, h]
    · simp [parText, unitsText, parTail, tailText, h]
  | some e =>
    by_cases h : u.length > 0
    · simp [parText, unitsText, parTail, tailText, h]
    · simp [parText, unitsText, parTail, tailText, h]

theorem some_rows (l : List Row) : ((l.map some).map fun r => orText r ++ ['\n']) = l.map fun r => r.text ++ ['\n'] := by
  rw [List.map_map]; rfl

theorem allRows_cons (pr : NumFmt α) (V : Nat → α) (N : Nat → Str) (E : Nat → Option α) (dx dy : α) (f : FnInfo) (fs : List FnInfo) (k : Nat) :
    allRows pr V N E dx dy (f :: fs) k = fnRows pr V N E dx dy f k ++ allRows pr V N E dx dy fs (offAfter f k + f.n) := rfl

/-- The lines printed are the rows. -/
theorem printFns_rows (pr : NumFmt α) (labels : List Str) (params : List α) (errs : Option (List α)) (dx dy : α) (fs : List FnInfo) (k : Nat)
    (h1 : k + nParams fs = labels.length) (h2 : k + nParams fs = params.length) (h3 : ∀ es, errs = some es → k + nParams fs = es.length)
    (hu : ∀ f ∈ fs, ∀ us, f.units = some us → us.length = f.n) :
    ∃ ls, printFns pr [] labels params errs dx dy fs k = .ok ls ∧ ls.map List.flatten =
      (allRows pr (fun i => params.getD i 0) (fun i => labels.getD i []) (fun i => errs.map fun es => es.getD i 0) dx dy fs k).map fun r =>
        orText r ++ ['\n'] := by
  induction fs generalizing k with
  | nil => exact ⟨[], rfl, rfl⟩
  | cons f fs ih =>
    have hnp : nParams (f :: fs) = (if f.start then 2 else 0) + f.n + nParams fs := by simp [nParams]
    have hoff : offAfter f k = k + (if f.start then 2 else 0) := by unfold offAfter; split <;> rfl
    rw [hnp] at h1 h2
    have h3' : ∀ es, errs = some es → offAfter f k + f.n + nParams fs = es.length := by
      intro es he
      have := h3 es he
      rw [hnp] at this
      rw [hoff]; omega
    obtain ⟨ls, hls, hfl⟩ := ih (offAfter f k + f.n) (by rw [hoff]; omega) (by rw [hoff]; omega) h3' fun g hg => hu g (by simp [hg])
    have hE : ∀ i, i < offAfter f k + f.n + nParams fs → errAt errs i = .ok (errs.map fun es => es.getD i 0) := by
      intro i hi
      cases errs with
      | none => rfl
      | some es =>
        have := h3' es rfl
        simp only [errAt, Option.map_some]
        rw [rd_ok (by omega)]
        simp [List.getD_eq_getElem?_getD, show i < es.length by omega]
    have hV : ∀ i, i < offAfter f k + f.n + nParams fs → rd params i = .ok (params.getD i 0) := by
      intro i hi
      have : i < params.length := by rw [hoff] at hi; omega
      rw [rd_ok this]
      simp [List.getD_eq_getElem?_getD, this]
    have hstart : ∃ s, startLines pr [] params errs dx dy f k = .ok (s, offAfter f k) ∧ s.map List.flatten =
        (if f.start then setRows pr (fun i => params.getD i 0) (fun i => errs.map fun es => es.getD i 0) dx dy k else []).map fun r => orText r ++ ['\n'] := by
      unfold startLines
      by_cases hs : f.start = true
      · rw [if_pos hs, if_pos hs]
        have hlt : k + 1 < offAfter f k + f.n + nParams fs := by rw [hoff, if_pos hs]; omega
        unfold setLines
        rw [hV k (by omega), ok_bind, hV (k + 1) hlt, ok_bind, hE k (by omega), ok_bind, hE (k + 1) hlt, ok_bind, ok_bind]
        refine ⟨_, by rw [show offAfter f k = k + 2 by simp [offAfter, hs]], ?_⟩
        simp only [setRows, List.map_cons, List.map_nil, orText, Option.map_some, Option.map_none, Option.getD_some, Option.getD_none]
        rw [xy_line pr .x, xy_line pr .y]
        rfl
      · rw [if_neg hs, if_neg hs]
        exact ⟨[], by simp [offAfter, hs], rfl⟩
    obtain ⟨s, hs1, hs2⟩ := hstart
    have hpar : (List.range f.n).mapM (parLine pr [] labels params errs f.units (offAfter f k)) =
        .ok ((List.range f.n).map fun i => [parText pr [] (labels.getD (offAfter f k + i) []) (params.getD (offAfter f k + i) 0)
          (errs.map fun es => es.getD (offAfter f k + i) 0)] ++ unitsText (errs.map fun es => es.getD (offAfter f k + i) 0) (unitFn f i) ++ [['\n']]) := by
      apply mapM_ok
      intro i hi
      have hi' : i < f.n := by simpa using hi
      have hlt : offAfter f k + i < labels.length := by rw [hoff]; omega
      unfold parLine paramName
      rw [if_pos hlt, rd_ok hlt, ok_bind, hV _ (by omega), ok_bind, hE _ (by omega), ok_bind]
      have hun : unitAt f.units i = .ok (unitFn f i) := by
        unfold unitAt unitFn
        cases hus : f.units with
        | none => rfl
        | some us =>
          have := hu f (by simp) us hus
          simp only
          rw [rd_ok (by omega)]
          simp [List.getD_eq_getElem?_getD, show i < us.length by omega]
      rw [hun, ok_bind]
      simp [List.getD_eq_getElem?_getD, hlt]
    refine ⟨_, by
      unfold printFns
      rw [hs1, ok_bind, hpar, ok_bind, hls, ok_bind], ?_⟩
    have hp : ((List.range f.n).map fun i => [parText pr [] (labels.getD (offAfter f k + i) []) (params.getD (offAfter f k + i) 0)
          (errs.map fun es => es.getD (offAfter f k + i) 0)] ++ unitsText (errs.map fun es => es.getD (offAfter f k + i) 0) (unitFn f i) ++ [['\n']]).map
            List.flatten = ((List.range f.n).map (parRow pr (fun i => params.getD i 0) (fun i => labels.getD i [])
              (fun i => errs.map fun es => es.getD i 0) (unitFn f) (offAfter f k))).map fun r => r.text ++ ['\n'] := by
      rw [List.map_map, List.map_map]
      refine List.map_congr_left fun i _ => ?_
      exact par_line pr _ _ _ _
    rw [List.map_append, List.map_append, List.map_append, List.map_append, hs2, hfl, hp, extra_lines, List.map_cons, List.map_nil, fn_line]
    rw [allRows_cons, fnRows, List.map_append, List.map_append (l₂ := List.map some _), some_rows]
    simp only [List.map_append, List.map_cons, List.map_nil, List.append_assoc]

/-! ## The rows are in order -/

omit [FP α] in
theorem takeWhile_g7 {nl : Strtod α} {pr : NumFmt α} (h : pr.OK nl) (v : α) :
    (∀ x ∈ (pr.g7 v).takeWhile (· == ' '), x = ' ') ∧ NumWord nl (bare pr v) := by
  obtain ⟨m, w, e, hw⟩ := h.g7 v
  refine ⟨fun x hx => by simpa using List.mem_takeWhile_imp hx, ?_⟩
  unfold bare
  rw [e, List.dropWhile_append_of_pos (by simp)]
  have : w.dropWhile (· == ' ') = w := by
    cases hw' : w with
    | nil => rfl
    | cons c w' =>
      have := (hw.word.2 c (by simp [hw'])).1
      rw [List.dropWhile_cons_of_neg]
      rintro h
      simp only [beq_iff_eq] at h
      subst h
      cases this
  rw [this]
  exact hw

omit [FP α] in
theorem pm_free {t : Str} {nl : Strtod α} (ht : NumWord nl t) : ∀ k ∈ [kFunction, kOptStart, kOptEnd], ¬ Has k ([' ', '+', '/', '-', ' '] ++ t) := by
  intro k hk
  have hk' : k ∈ [kX0, kY0, kFunction, kOptStart, kOptEnd, kLabel] := by
    revert k; decide
  obtain ⟨hne, hw, -⟩ := kws_ok k hk'
  have e : [' ', '+', '/', '-', ' '] ++ t = [' ', '+', '/', '-'] ++ ' ' :: t := rfl
  rw [e, has_blank hw (by decide)]
  rintro (h | h)
  · revert h; revert k; unfold Has; decide
  · exact num_free ht hk' h

omit [FP α] in
theorem errTail_ok {nl : Strtod α} {t : Option Str} (h : ∀ e, t = some e → NumWord nl e) : TailOK (errTail t) := by
  cases t with
  | none => trivial
  | some e =>
    have he := h e rfl
    refine ⟨by simp; decide, by simp, fun z hz => ?_, ?_, pm_free he⟩
    · have := getLast_word (a := '#' :: [' ', '+', '/', '-', ' ']) he.word (z := z) (by simpa using hz)
      exact this
    · intro hm
      rcases List.mem_append.1 hm with hm | hm
      · revert hm; decide
      · have := (he.word.2 _ hm).1
        cases this

def UnitOK (u : Str) : Prop := trim u = u ∧ '\n' ∉ u ∧ ∀ k ∈ [kFunction, kOptStart, kOptEnd], ¬ Has k u

theorem unit_last {u : Str} (h : trim u = u) {a : Str} (hne : u ≠ []) {z : Char} (hz : (a ++ u).getLast? = some z) : isBlank z = false := by
  rw [List.getLast?_append_of_ne_nil _ hne] at hz
  exact trim_last (s := u) (by rw [h]; exact hz)

theorem kws3 {k : Str} (hk : k ∈ [kFunction, kOptStart, kOptEnd]) : k ∈ [kX0, kY0, kFunction, kOptStart, kOptEnd, kLabel] := by
  revert k; decide

omit [FP α] in
theorem parTail_ok {nl : Strtod α} {t : Option Str} (h : ∀ e, t = some e → NumWord nl e) {u : Str} (hu : UnitOK u) : TailOK (parTail t u) := by
  cases t with
  | none =>
    unfold parTail
    simp only
    split
    · rename_i hpos
      refine ⟨by simp; decide, by simp, fun z hz => ?_, ?_, fun k hk hh => ?_⟩
      · exact unit_last (a := ['#', ' ']) hu.1 (List.length_pos_iff.1 hpos) hz
      · intro hm
        rcases List.mem_cons.1 hm with hm | hm
        · cases hm
        · exact hu.2.1 hm
      · obtain ⟨hne, hw, -⟩ := kws_ok k (kws3 hk)
        have := (has_pad (sp := [' ']) (a := u) hne hw (by simp; decide)).1 hh
        exact hu.2.2 k hk this
    · trivial
  | some e =>
    have he := h e rfl
    unfold parTail
    simp only
    split
    · rename_i hpos
      refine ⟨by simp; decide, by simp, fun z hz => ?_, ?_, fun k hk hh => ?_⟩
      · exact unit_last (a := '#' :: ([' ', '+', '/', '-', ' '] ++ e ++ ['\t'])) hu.1 (List.length_pos_iff.1 hpos) (by simpa using hz)
      · intro hm
        rcases List.mem_append.1 hm with hm | hm
        · rcases List.mem_append.1 hm with hm | hm
          · revert hm; decide
          · have := (he.word.2 _ hm).1
            cases this
        · rcases List.mem_cons.1 hm with hm | hm
          · cases hm
          · exact hu.2.1 hm
      · obtain ⟨hne, hw, -⟩ := kws_ok k (kws3 hk)
        rw [has_blank hw (by decide)] at hh
        rcases hh with hh | hh
        · exact pm_free he k hk hh
        · exact hu.2.2 k hk hh
    · rw [List.append_nil]
      exact errTail_ok (t := some e) h

section
variable {nl : Strtod α} {pr : NumFmt α} {V : Nat → α} {N : Nat → Str} {E : Nat → Option α} {dx dy : α}

theorem kX0_word : Word kX0 := by constructor <;> decide
theorem kY0_word : Word kY0 := by constructor <;> decide

theorem setRows_ok (hp : pr.OK nl) (k : Nat) (r : Row) (hr : some r ∈ setRows pr V E dx dy k) : r.OK nl := by
  have he : ∀ i, ∀ e, (E i).map pr.f4 = some e → NumWord nl e := by
    intro i e h
    obtain ⟨x, -, rfl⟩ := Option.map_eq_some_iff.1 h
    exact hp.f4 x
  unfold setRows at hr
  simp only [List.mem_cons, Option.some.injEq, List.not_mem_nil, or_false, reduceCtorEq, false_or] at hr
  rcases hr with rfl | rfl
  · exact ⟨kX0_word, by simp, hp.f4 _, errTail_ok (he _), rfl⟩
  · exact ⟨kY0_word, by simp, hp.f4 _, errTail_ok (he _), rfl⟩

theorem fnRows_ok (hp : pr.OK nl) (f : FnInfo) (k : Nat) (hn : Word f.name ∧ ¬ Has kX0 f.name ∧ ¬ Has kLabel f.name) (hl : LabelOK f.label)
    (hN : ∀ i, i < f.n → Word (N (offAfter f k + i)) ∧ Free (N (offAfter f k + i))) (hu : ∀ i, UnitOK (unitFn f i))
    (hx : ∀ kv, f.extra = some kv → ∀ p ∈ kv, Word p.1 ∧ Word p.2 ∧ Free p.1 ∧ Free p.2) (r : Row) (hr : some r ∈ fnRows pr V N E dx dy f k) : r.OK nl := by
  unfold fnRows at hr
  rcases List.mem_append.1 hr with hr | hr
  · split at hr
    · exact setRows_ok hp k r hr
    · cases hr
  · obtain ⟨r', hq, e⟩ := List.mem_map.1 hr
    injection e with e
    subst e
    rcases List.mem_append.1 hq with hq | hq
    · rcases List.mem_append.1 hq with hq | hq
      · rw [List.mem_singleton] at hq
        subst hq
        exact ⟨hn.1, hn.2.1, hn.2.2, hl⟩
      · unfold extraRows at hq
        cases hf : f.extra with
        | none => rw [hf] at hq; cases hq
        | some kv =>
          rw [hf] at hq
          simp only [List.cons_append, List.mem_cons, List.mem_append, List.mem_map, List.not_mem_nil, or_false] at hq
          rcases hq with rfl | ⟨p, hp, rfl⟩ | rfl
          · trivial
          · exact hx kv hf p hp
          · trivial
    · obtain ⟨i, hi, rfl⟩ := List.mem_map.1 hq
      have hi' : i < f.n := by simpa using hi
      have hg := takeWhile_g7 hp (V (offAfter f k + i))
      refine ⟨(hN i hi').1, hg.1, hg.2, parTail_ok (nl := nl) (fun e h => ?_) (hu i), (hN i hi').2⟩
      obtain ⟨x, -, rfl⟩ := Option.map_eq_some_iff.1 h
      exact hp.g5 x

theorem allRows_ok (labels : List Str) (hp : pr.OK nl) (fs : List FnInfo) (k : Nat) (hk : k + nParams fs ≤ labels.length) (hn : ∀ f ∈ fs, Word f.name ∧ ¬ Has kX0 f.name ∧ ¬ Has kLabel f.name)
    (hl : ∀ f ∈ fs, LabelOK f.label) (hN : ∀ l ∈ ownNames fs (labels.drop k), Word l ∧ Free l) (hu : ∀ f ∈ fs, ∀ i, UnitOK (unitFn f i))
    (hx : ∀ f ∈ fs, ∀ kv, f.extra = some kv → ∀ p ∈ kv, Word p.1 ∧ Word p.2 ∧ Free p.1 ∧ Free p.2) (r : Row)
    (hr : some r ∈ allRows pr V (fun i => labels.getD i []) E dx dy fs k) : r.OK nl := by
  induction fs generalizing k with
  | nil => cases hr
  | cons f fs ih =>
    have hnp : nParams (f :: fs) = (if f.start then 2 else 0) + f.n + nParams fs := by simp [nParams]
    have hoff : offAfter f k = k + (if f.start then 2 else 0) := by unfold offAfter; split <;> rfl
    rw [hnp] at hk
    have hN1 : ∀ i, i < f.n → labels.getD (offAfter f k + i) [] ∈ ownNames (f :: fs) (labels.drop k) := by
      intro i hi
      have hlt : offAfter f k + i < labels.length := by rw [hoff]; omega
      refine List.mem_append_left _ (List.mem_take_iff_getElem.2 ⟨i, ?_, ?_⟩)
      · simp only [List.length_drop, lt_min_iff]
        exact ⟨hi, by rw [hoff] at hlt; omega⟩
      · simp only [List.getElem_drop, List.getD_eq_getElem?_getD, List.getElem?_eq_getElem hlt, Option.getD_some]
        congr 1
        rw [hoff]; omega
    have hN2 : ∀ l ∈ ownNames fs (labels.drop (offAfter f k + f.n)), l ∈ ownNames (f :: fs) (labels.drop k) := by
      intro l hl
      refine List.mem_append_right _ ?_
      rw [List.drop_drop, show k + ((if f.start then 2 else 0) + f.n) = offAfter f k + f.n by rw [hoff]; omega]
      exact hl
    rcases List.mem_append.1 hr with hr | hr
    · exact fnRows_ok hp f k (hn f (by simp)) (hl f (by simp)) (fun i hi => hN _ (hN1 i hi)) (hu f (by simp)) (hx f (by simp)) r hr
    · exact ih (offAfter f k + f.n) (by rw [hoff]; omega) (fun g hg => hn g (by simp [hg])) (fun g hg => hl g (by simp [hg])) (fun l h => hN l (hN2 l h))
        (fun g hg => hu g (by simp [hg])) (fun g hg => hx g (by simp [hg])) hr

/-- The rows without the empty lines. -/
def rowsOnly (l : List (Option Row)) : List Row := l.filterMap id

theorem rowsOnly_append (a b : List (Option Row)) : rowsOnly (a ++ b) = rowsOnly a ++ rowsOnly b := by simp [rowsOnly]

theorem rowsOnly_some (a : List Row) : rowsOnly (a.map some) = a := by
  unfold rowsOnly
  rw [List.filterMap_map]
  exact List.filterMap_some

omit [FP α] in
theorem fits_pars (U : Nat → Str) (off : Nat) (l : List Nat) (b : Bool) (rest : List Row) (h : Fits false false b rest) :
    Fits false false b (l.map (parRow pr V N E U off) ++ rest) := by
  induction l with
  | nil => exact h
  | cons i l ih => exact ⟨rfl, rfl, ih⟩

theorem fits_opts (kv : List (Str × Str)) (rest : List Row) (h : Fits false false true rest) :
    Fits false true true (kv.map (fun p => Row.opt p.1 p.2) ++ ([.oend] ++ rest)) := by
  induction kv with
  | nil => exact ⟨rfl, rfl, h⟩
  | cons p kv ih => exact ⟨rfl, rfl, rfl, ih⟩

theorem fits_fn (f : FnInfo) (k : Nat) (b : Bool) (rest : List Row) (h : Fits false false true rest) :
    Fits false false b (rowsOnly (fnRows pr V N E dx dy f k) ++ rest) := by
  have h1 : Fits false false b (([Row.fn f.name f.label] ++ extraRows f ++ (List.range f.n).map (parRow pr V N E (unitFn f) (offAfter f k))) ++ rest) := by
    rw [List.append_assoc, List.append_assoc]
    refine ⟨rfl, rfl, ?_⟩
    have h2 := fits_pars (pr := pr) (V := V) (N := N) (E := E) (unitFn f) (offAfter f k) (List.range f.n) true rest h
    unfold extraRows
    cases f.extra with
    | none => exact h2
    | some kv =>
      simp only [List.cons_append, List.append_assoc]
      exact ⟨rfl, rfl, rfl, fits_opts kv _ h2⟩
  unfold fnRows
  rw [rowsOnly_append, rowsOnly_some]
  split
  · exact ⟨rfl, rfl, rfl, rfl, h1⟩
  · exact h1

theorem fits_all (fs : List FnInfo) (k : Nat) (b : Bool) : Fits false false b (rowsOnly (allRows pr V N E dx dy fs k)) := by
  induction fs generalizing k b with
  | nil => exact ⟨rfl, rfl⟩
  | cons f fs ih =>
    rw [allRows_cons, rowsOnly_append]
    exact fits_fn f k b _ (ih _ _)

/-! ## What the rows add up to -/

theorem fold_pars (U : Nat → Str) (off : Nat) (l : List Nat) (st : PState0 α) :
    (l.map (parRow pr V N E U off)).foldl (rowStep nl) st =
      { st with vals := st.vals ++ l.map (fun i => nl.val (bare pr (V (off + i)))), lims := st.lims ++ l.map fun _ => ParInfo.zero } := by
  induction l generalizing st with
  | nil => simp
  | cons i l ih =>
    rw [List.map_cons, List.foldl_cons, ih]
    simp [rowStep, parRow]

theorem mapPut_new (m : List (Str × Str)) (k v : Str) (h : k ∉ m.map (·.1)) : mapPut m k v = m ++ [(k, v)] := by
  induction m with
  | nil => rfl
  | cons p m ih =>
    obtain ⟨k', v'⟩ := p
    simp only [List.map_cons, List.mem_cons, not_or] at h
    unfold mapPut
    rw [if_neg (fun e => h.1 e.symm), ih h.2]
    rfl

theorem fold_opts (kv : List (Str × Str)) (st : PState0 α) (os : List (List (Str × Str))) (m : List (Str × Str)) (ho : st.opts = os ++ [m])
    (hn : st.nFun = os.length + 1) (hnd : ((m ++ kv).map (·.1)).Nodup) :
    (kv.map fun p => Row.opt p.1 p.2).foldl (rowStep nl) st = { st with opts := os ++ [m ++ kv] } := by
  induction kv generalizing st m with
  | nil => simp [← ho]
  | cons p kv ih =>
    rw [List.map_cons, List.foldl_cons]
    have hp : p.1 ∉ m.map (·.1) := by
      rw [List.map_append, List.nodup_append] at hnd
      intro hm
      exact hnd.2.2 _ hm p.1 (by simp) rfl
    have e : rowStep nl st (.opt p.1 p.2) = { st with opts := os ++ [m ++ [p]] } := by
      simp only [rowStep, ho, hn, Nat.add_sub_cancel]
      rw [List.getD_eq_getElem?_getD, List.getElem?_append_right (by omega)]
      simp [mapPut_new m _ _ hp]
    rw [e, ih { st with opts := os ++ [m ++ [p]] } (m ++ [p]) (by rfl) hn (by simpa using hnd)]
    simp

/-- The numbers of function `f`, as read. -/
def fnVals (nl : Strtod α) (pr : NumFmt α) (V : Nat → α) (dx dy : α) (f : FnInfo) (k : Nat) : List α :=
  (if f.start then [nl.val (pr.f4 (V k + dx)), nl.val (pr.f4 (V (k + 1) + dy))] else []) ++
    (List.range f.n).map fun i => nl.val (bare pr (V (offAfter f k + i)))

theorem fold_fn (f : FnInfo) (k : Nat) (st : PState0 α) (hi : st.inOpt = false) (hn : st.opts.length = st.nFun)
    (hx : ∀ kv, f.extra = some kv → (kv.map (·.1)).Nodup) :
    (rowsOnly (fnRows pr V N E dx dy f k)).foldl (rowStep nl) st =
      { st with
        names := st.names ++ [f.name], labels := st.labels ++ [f.label],
        vals := st.vals ++ fnVals nl pr V dx dy f k,
        lims := st.lims ++ List.replicate ((if f.start then 2 else 0) + f.n) ParInfo.zero,
        starts := st.starts ++ (if f.start then [st.nFun] else []),
        opts := st.opts ++ [f.extra.getD []], nFun := st.nFun + 1 } := by
  unfold fnRows
  rw [rowsOnly_append, rowsOnly_some, List.foldl_append]
  have key : ∀ st : PState0 α, st.inOpt = false → st.opts.length = st.nFun →
      ([Row.fn f.name f.label] ++ extraRows f ++ (List.range f.n).map (parRow pr V N E (unitFn f) (offAfter f k))).foldl (rowStep nl) st =
      { st with
        names := st.names ++ [f.name], labels := st.labels ++ [f.label],
        vals := st.vals ++ (List.range f.n).map fun i => nl.val (bare pr (V (offAfter f k + i))),
        lims := st.lims ++ List.replicate f.n ParInfo.zero,
        opts := st.opts ++ [f.extra.getD []], nFun := st.nFun + 1 } := by
    intro st hi hn
    rw [List.foldl_append, List.foldl_append, fold_pars]
    have hex : (extraRows f).foldl (rowStep nl) ([Row.fn f.name f.label].foldl (rowStep nl) st) =
        { st with
          names := st.names ++ [f.name], labels := st.labels ++ [f.label], opts := st.opts ++ [f.extra.getD []], nFun := st.nFun + 1 } := by
      unfold extraRows
      cases hf : f.extra with
      | none => rfl
      | some kv =>
        simp only [List.cons_append, List.foldl_cons, List.foldl_append, List.foldl_nil]
        rw [fold_opts kv _ st.opts [] (by rfl) (by rw [hn]; rfl) (by simpa using hx kv hf)]
        simp [rowStep, hi]
    rw [hex]
    simp
  by_cases hs : f.start = true
  · rw [if_pos hs]
    have e : rowsOnly (setRows pr V E dx dy k) = [.num .x kX0 [] (pr.f4 (V k + dx)) (errTail ((E k).map pr.f4)),
        .num .y kY0 [] (pr.f4 (V (k + 1) + dy)) (errTail ((E (k + 1)).map pr.f4))] := rfl
    rw [e]
    simp only [List.foldl_cons, List.foldl_nil]
    rw [key _ (by simpa [rowStep] using hi) (by simpa [rowStep] using hn)]
    simp [rowStep, fnVals, hs, List.replicate_add]
  · rw [if_neg hs]
    have e : rowsOnly ([] : List (Option Row)) = [] := rfl
    rw [e, List.foldl_nil, key st hi hn]
    simp [fnVals, hs]

/-- All numbers, as read. -/
def allVals (nl : Strtod α) (pr : NumFmt α) (V : Nat → α) (dx dy : α) : List FnInfo → Nat → List α
  | [], _ => []
  | f :: fs, k => fnVals nl pr V dx dy f k ++ allVals nl pr V dx dy fs (offAfter f k + f.n)

/-- Numbers of the functions that start a set, the first function having number `m`. -/
def startsFrom : List FnInfo → Nat → List Nat
  | [], _ => []
  | f :: fs, m => (if f.start then [m] else []) ++ startsFrom fs (m + 1)

theorem fold_all (fs : List FnInfo) (k : Nat) (st : PState0 α) (hi : st.inOpt = false) (hn : st.opts.length = st.nFun)
    (hx : ∀ f ∈ fs, ∀ kv, f.extra = some kv → (kv.map (·.1)).Nodup) :
    (rowsOnly (allRows pr V N E dx dy fs k)).foldl (rowStep nl) st =
      { st with
        names := st.names ++ fs.map FnInfo.name, labels := st.labels ++ fs.map FnInfo.label,
        vals := st.vals ++ allVals nl pr V dx dy fs k, lims := st.lims ++ List.replicate (nParams fs) ParInfo.zero,
        starts := st.starts ++ startsFrom fs st.nFun, opts := st.opts ++ fs.map (·.extra.getD []), nFun := st.nFun + fs.length } := by
  induction fs generalizing k st with
  | nil => simp [allRows, rowsOnly, allVals, startsFrom, nParams]
  | cons f fs ih =>
    have hnp : nParams (f :: fs) = (if f.start then 2 else 0) + f.n + nParams fs := by simp [nParams]
    rw [allRows_cons, rowsOnly_append, List.foldl_append, fold_fn f k st hi hn (hx f (by simp)),
      ih _ _ (by simpa using hi) (by simp [hn]) fun g hg => hx g (by simp [hg])]
    rw [hnp, List.replicate_add]
    simp [allVals, startsFrom, Nat.add_assoc, Nat.add_comm 1]

/-- Reading the rows back. -/
theorem read_rows (check : Bool) (f : FnInfo) (fs : List FnInfo) (hs : f.start = true)
    (hok : ∀ r, some r ∈ allRows pr V N E dx dy (f :: fs) 0 → r.OK nl) (hx : ∀ g ∈ f :: fs, ∀ kv, g.extra = some kv → (kv.map (·.1)).Nodup) :
    readKept nl true check [] ((rowsOnly (allRows pr V N E dx dy (f :: fs) 0)).map Row.text) = .ok (some
      ⟨[], (f :: fs).map FnInfo.name, (f :: fs).map FnInfo.label, allVals nl pr V dx dy (f :: fs) 0, List.replicate (nParams (f :: fs)) ParInfo.zero,
        startsFrom (f :: fs) 0, false, (f :: fs).map (·.extra.getD [])⟩) := by
  have hok' : ∀ r ∈ rowsOnly (allRows pr V N E dx dy (f :: fs) 0), r.OK nl := by
    intro r hr
    refine hok r ?_
    simpa [rowsOnly] using hr
  have hfit := fits_all (pr := pr) (V := V) (N := N) (E := E) (dx := dx) (dy := dy) (f :: fs) 0 false
  have hvet := vet_rows nl _ hok' false false false hfit
  have hpar := parse_rows nl check _ hok' false false false ⟨[], [], [], [], [], false, [], 0, false⟩ hfit rfl rfl (by simp)
  rw [fold_all (f :: fs) 0 _ rfl rfl hx] at hpar
  obtain ⟨x, y, rest, hrows, hxx, hyy, hff⟩ : ∃ x y rest, (rowsOnly (allRows pr V N E dx dy (f :: fs) 0)).map Row.text = x :: y :: rest ∧
      hasSub kX0 x = true ∧ hasSub kY0 y = true ∧ rest.any (hasSub kFunction) = true := by
    rw [allRows_cons, rowsOnly_append]
    unfold fnRows
    rw [rowsOnly_append, rowsOnly_some, if_pos hs, List.append_assoc, List.append_assoc, List.append_assoc, List.map_append]
    refine ⟨_, _, _, rfl, ?_, ?_, ?_⟩
    · rw [hasSub_iff]; exact (List.prefix_append _ _).isInfix
    · rw [hasSub_iff]; exact (List.prefix_append _ _).isInfix
    · rw [List.map_append]
      show (hasSub kFunction (Row.fn f.name f.label).text || List.any _ _) = true
      rw [Bool.or_eq_true, hasSub_iff]
      exact Or.inl (List.prefix_append _ _).isInfix
  rw [hrows] at hvet hpar ⊢
  have hvc : vetConfigFile nl true (x :: y :: rest) = .ok (.good 0 ((x :: y :: rest).map vetted)) := by
    unfold vetConfigFile
    have e0 : (x :: y :: rest).findIdx? (hasSub kX0) = some 0 := by simp [List.findIdx?_cons, hxx]
    rw [e0]
    simp only [List.drop_zero]
    rw [if_neg (by simp [yFollows, hyy]), if_neg (by
      rw [List.any_cons, List.any_cons, hff]; simp), hvet]
    rfl
  unfold readKept
  rw [hvc, ok_bind]
  unfold readSections parseFunctionSection
  simp only [List.take_zero]
  rw [hpar]
  simp [readOptions]

end

/-! ## The numbers -/

theorem take_drop_tab (ps : List α) (k n : Nat) (h : k + n ≤ ps.length) : (ps.drop k).take n = (List.range n).map fun i => ps.getD (k + i) 0 := by
  apply List.ext_getElem
  · simp; omega
  · intro i h1 h2
    have : i < n := by simpa using h2
    simp [List.getD_eq_getElem?_getD, show k + i < ps.length by omega]

omit [FP α] in
theorem drop_num {nl : Strtod α} {w : Str} (hw : NumWord nl w) : w.dropWhile (· == ' ') = w := by
  cases hw' : w with
  | nil => rfl
  | cons c w' =>
    have := (hw.word.2 c (by simp [hw'])).1
    rw [List.dropWhile_cons_of_neg]
    rintro h
    simp only [beq_iff_eq] at h
    subst h
    cases this

theorem allVals_eq {nl : Strtod α} {pr : NumFmt α} (hp : pr.OK nl) (dx dy : α) (ps : List α) (fs : List FnInfo) (k : Nat)
    (h : k + nParams fs ≤ ps.length) :
    allVals nl pr (fun i => ps.getD i 0) dx dy fs k = (printedTexts pr dx dy fs (ps.drop k)).map fun t => nl.val (t.dropWhile (· == ' ')) := by
  induction fs generalizing k with
  | nil => rfl
  | cons f fs ih =>
    have hnp : nParams (f :: fs) = (if f.start then 2 else 0) + f.n + nParams fs := by simp [nParams]
    have hoff : offAfter f k = k + (if f.start then 2 else 0) := by unfold offAfter; split <;> rfl
    unfold allVals printedTexts fnVals
    rw [hnp] at h
    rw [ih (offAfter f k + f.n) (by rw [hoff]; omega)]
    by_cases hs : f.start = true
    · rw [if_pos hs] at hoff h
      rw [if_pos hs, if_pos hs, List.drop_drop, List.drop_drop, take_drop_tab ps k 2 (by omega), take_drop_tab ps (k + 2) f.n (by omega), hoff,
        List.map_append, List.map_append, List.map_map, List.map_map]
      have e2 : (List.range 2).map (fun i => ps.getD (k + i) 0) = [ps.getD k 0, ps.getD (k + 1) 0] := rfl
      rw [e2]
      simp only [List.zipWith_cons_cons, List.zipWith_nil_left, List.map_cons, List.map_nil, drop_num (hp.f4 _), Nat.add_assoc]
      rfl
    · rw [if_neg hs] at hoff h
      rw [if_neg hs, if_neg hs, List.drop_drop, take_drop_tab ps k f.n (by omega), hoff, List.map_append, List.map_map, List.map_map]
      rfl

theorem startsFrom_eq (fs : List FnInfo) (m : Nat) : startsFrom fs m = (startsOf fs).map (m + ·) := by
  induction fs generalizing m with
  | nil => rfl
  | cons f fs ih =>
    unfold startsFrom
    rw [ih]
    unfold startsOf
    rw [List.length_cons, List.range_succ_eq_map, List.filter_cons, List.filter_map]
    have e : ((fun i => (((f :: fs)[i]?.map FnInfo.start).getD false)) ∘ Nat.succ) = fun i => ((fs[i]?.map FnInfo.start).getD false) := by
      funext i; simp
    rw [e]
    have e2 : (fun x => m + 1 + x) = (fun x => m + x) ∘ Nat.succ := by funext x; simp; omega
    rw [e2, ← List.map_map]
    cases hs : f.start <;> simp [hs]

/-! ## The file -/

theorem formatLine_ok {l : Line} (h : ∀ t ∈ l, t.length < 1024) : formatLine l = .ok l.flatten := by
  unfold formatLine
  rw [mapM_ok l (vformat · 1) id fun t ht => C44_partial t 1 (Or.inl (h t ht)), ok_bind, List.map_id]

theorem unlines_append (a b : List Str) : unlines (a ++ b) = unlines a ++ unlines b := by simp [unlines]

omit [FP α] in
theorem usable_file {nl : Strtod α} (head : List Str) (rows : List (Option Row)) (hh : ∀ l ∈ head, Ignorable l ∧ '\n' ∉ l)
    (hok : ∀ r, some r ∈ rows → r.OK nl) : usable (unlines (head ++ rows.map orText)) = (rowsOnly rows).map Row.text := by
  rw [usable_unlines _ (by
    intro l hl
    rcases List.mem_append.1 hl with hl | hl
    · exact (hh l hl).2
    · obtain ⟨r, hr, rfl⟩ := List.mem_map.1 hl
      cases r with
      | none => simp [orText]
      | some r => exact (row_line (hok r hr)).2.2), List.map_append, List.filter_append]
  have h1 : (head.map stripped).filter meaningful = [] := by
    rw [List.filter_eq_nil_iff]
    intro l hl
    obtain ⟨x, hx, rfl⟩ := List.mem_map.1 hl
    rw [ignorable_dropped (hh x hx).1]; simp
  rw [h1, List.nil_append]
  clear h1 hh
  induction rows with
  | nil => rfl
  | cons r rows ih =>
    have ih' := ih fun x hx => hok x (by simp [hx])
    rw [List.map_cons, List.map_cons, List.filter_cons]
    cases r with
    | none =>
      have e : meaningful (stripped (orText none)) = false := rfl
      rw [e, ih']
      rfl
    | some r =>
      have e := row_line (hok r (by simp))
      have e1 : stripped (orText (some r)) = r.text := e.1
      rw [e1, e.2.1, ih']
      rfl

/-- **C34.** -/
theorem C34_partial (nl : Strtod α) (pr : NumFmt α) (hp : pr.OK nl) (check : Bool) (header about labels : List Str) (params : List α)
    (errs : Option (List α)) (dx dy : α) (fs : List FnInfo) (hm : Printable labels params errs fs)
    (hh : ∀ l ∈ header ++ about, Ignorable l ∧ '\n' ∉ l)
    (hlen : ∀ ls, printFns pr [] labels params errs dx dy fs 0 = .ok ls → ∀ l ∈ ls, ∀ t ∈ l, t.length < 1024) :
    ∃ file, saveParameters pr header about labels params errs dx dy fs = .ok file ∧
      readConfig nl true check [] file = .ok (some
        { options := [], names := fs.map FnInfo.name, labels := fs.map FnInfo.label,
          vals := (printedTexts pr dx dy fs params).map fun t => nl.val (t.dropWhile (· == ' ')),
          lims := List.replicate params.length ParInfo.zero, starts := startsOf fs, found := false, opts := fs.map (·.extra.getD []) }) := by
  obtain ⟨f, fs', rfl, hs⟩ := hm.first
  obtain ⟨ls, hls, hfl⟩ := printFns_rows pr labels params errs dx dy (f :: fs') 0 (by rw [hm.nlab]; omega) (by rw [hm.npar]; omega)
    (fun es he => by rw [hm.nerr es he]; omega) fun g hg us hus => (hm.units g hg us hus).1
  generalize hR : allRows pr (fun i => params.getD i 0) (fun i => labels.getD i []) (fun i => errs.map fun es => es.getD i 0) dx dy (f :: fs') 0 = R at hfl
  have hok : ∀ r, some r ∈ R → r.OK nl := by
    rw [← hR]
    refine allRows_ok labels hp (f :: fs') 0 (by rw [hm.nlab]; omega) hm.names hm.flabs hm.labs ?_ fun g hg kv hkv => (hm.extra g hg kv hkv).2
    · intro g hg i
      unfold unitFn
      have hnil : UnitOK [] := by
        refine ⟨rfl, by simp, ?_⟩
        unfold Has; decide
      cases hus : g.units with
      | none => exact hnil
      | some us =>
        by_cases hi : i < us.length
        · have e : us.getD i [] = us[i] := by simp [List.getD_eq_getElem?_getD, hi]
          simp only
          rw [e]
          exact (hm.units g hg us hus).2 us[i] (List.getElem_mem hi)
        · have e : us.getD i [] = [] := by simp [List.getD_eq_getElem?_getD, hi]
          simp only
          rw [e]
          exact hnil
  have hfile : saveParameters pr header about labels params errs dx dy (f :: fs') = .ok (unlines ((header ++ [[]] ++ about) ++ R.map orText)) := by
    unfold saveParameters printModelParams
    rw [hls, ok_bind, mapM_ok ls formatLine List.flatten fun l hl => formatLine_ok (hlen ls hls l hl), ok_bind, hfl]
    simp only [unlines, List.map_append, List.flatten_append, List.map_map, List.map_cons, List.map_nil, List.nil_append, List.flatten_cons, List.flatten_nil,
      List.append_nil]
    rfl
  refine ⟨_, hfile, ?_⟩
  rw [readConfig_usable, usable_file (nl := nl) _ R (by
    intro l hl
    simp only [List.mem_append, List.mem_singleton] at hl
    rcases hl with (hl | rfl) | hl
    · exact hh l (by simp [hl])
    · exact ⟨Or.inl rfl, by simp⟩
    · exact hh l (by simp [hl])) hok, ← hR]
  rw [read_rows check f fs' hs (by rw [hR]; exact hok) fun g hg kv hkv => (hm.extra g hg kv hkv).1, allVals_eq hp dx dy params _ 0 (by rw [hm.npar]; omega),
    startsFrom_eq, hm.npar]
  simp

/-- A way of printing for examples: `nan`, or the digit 7. -/
def sevens : NumFmt XR := ⟨fun | .nan => ['n', 'a', 'n'] | _ => ['7'], fun | .nan => "    nan".toList | _ => "      7".toList, fun _ => ['7']⟩

theorem sevens_ok : sevens.OK natStrtod := by
  have h7 : NumWord natStrtod ['7'] := ⟨by decide, by decide, by decide +kernel⟩
  have hn : NumWord natStrtod ['n', 'a', 'n'] := ⟨by decide, by decide, by decide +kernel⟩
  refine ⟨fun v => ?_, fun v => ?_, fun v => h7⟩
  · cases v
    case nan => exact hn
    all_goals exact h7
  · cases v
    case nan => exact ⟨4, ['n', 'a', 'n'], rfl, hn⟩
    all_goals exact ⟨6, ['7'], rfl, h7⟩

/-- Saved, and read back. -/
noncomputable def thereAndBack (labels : List Str) (params : List XR) (errs : Option (List XR)) (fs : List FnInfo) : Res (Option (Config XR)) := do
  let file ← saveParameters sevens ["# header".toList] ["# about".toList] labels params errs 0 0 fs
  readConfig natStrtod true true [] file

/-- A label of one character is lost; a label that contains `X0` makes the file unreadable. -/
theorem C34_false :
    (do let r ← thereAndBack ["X0".toList, "Y0".toList, "PA".toList] [1, 1, 1] none [⟨['F'], ['A'], true, none, none, 1⟩]; .ok (r.map Config.labels)) =
      (.ok (some [[]]) : Res _) ∧
    (do let r ← thereAndBack ["X0".toList, "Y0".toList, "PA".toList] [1, 1, 1] none [⟨['F'], "atX0".toList, true, none, none, 1⟩]
        .ok (r.map Config.labels)) = (.ok none : Res _) := by
  constructor <;> decide +kernel

/-- Non-vacuous: two sets, three functions, errors, units, a label, optional parameters, a value that is not a number. -/
noncomputable def backExample : Res (Option (Config XR)) := thereAndBack ["X0".toList, "Y0".toList, "PA".toList, "I_0".toList, "X0".toList, "Y0".toList] [1, 1, .nan, 0, 1, 1]
  (some [1, 1, 1, 1, 1, 1]) [⟨['F'], "bulge".toList, true, none, some ["deg".toList, []], 2⟩, ⟨['G'], [], false, some [(['a'], ['b'])], none, 0⟩,
    ⟨['H'], [], true, none, none, 0⟩]

example : (do let r ← backExample; .ok (r.map fun c => (c.names, c.labels))) =
    (.ok (some ([['F'], ['G'], ['H']], ["bulge".toList, [], []])) : Res _) := by decide +kernel

example : (do let r ← backExample; .ok (r.map Config.starts)) = (.ok (some [0, 2]) : Res _) := by decide +kernel

example : (do let r ← backExample; .ok (r.map Config.opts)) = (.ok (some [[], [(['a'], ['b'])], []]) : Res _) := by decide +kernel

example : (do let r ← backExample; .ok (r.map fun c => c.vals.map isfin)) = (.ok (some [true, true, false, true, true, true]) : Res _) := by decide +kernel

/-- The conditions hold for the model of the example (the labels `X0` and `Y0` of the centres are not names of functions' own parameters). -/
example : Printable (α := XR) ["X0".toList, "Y0".toList, "PA".toList, "I_0".toList, "X0".toList, "Y0".toList] [1, 1, .nan, 0, 1, 1] (some [1, 1, 1, 1, 1, 1])
    [⟨['F'], "bulge".toList, true, none, some ["deg".toList, []], 2⟩, ⟨['G'], [], false, some [(['a'], ['b'])], none, 0⟩, ⟨['H'], [], true, none, none, 0⟩] := by
  refine ⟨⟨_, _, rfl, rfl⟩, rfl, rfl, fun es h => (by cases h; rfl), ?_, ?_, ?_, ?_, ?_⟩
  · unfold Word Free Has; decide +kernel
  · unfold Word Has; decide +kernel
  · unfold LabelOK Has; decide +kernel
  · intro f hf us h
    simp only [List.mem_cons, List.not_mem_nil, or_false] at hf
    rcases hf with rfl | rfl | rfl <;> cases h
    refine ⟨rfl, ?_⟩
    unfold Has; decide +kernel
  · intro f hf kv h
    simp only [List.mem_cons, List.not_mem_nil, or_false] at hf
    rcases hf with rfl | rfl | rfl <;> cases h
    unfold Word Free Has; decide +kernel

end Imfit
