import Verif.Spec.Header
import Verif.Lemmas.DriverStart
import Verif.Props.C34
import Verif.Props.C79
import Verif.Props.C14
import Verif.Lemmas.Text

/-!
# C122 — What the files of Markov chains say about the model

The header of the files written by `imfit-mcmc` repeats the model of the configuration file line by line: functions, labels, optional parameters, values and
limits, except that the limits of X0 and Y0 are those in the coordinates of the image section while their values are in the coordinates of the whole image
(`C122_definition_partial`, `C122_limits_false`). The names of the columns are as many as the entries of every line, and in the same order (`C122_columns`).
-/

namespace Imfit

open Spec FP

variable {α : Type}

/-! ## The definition of the model -/

/-- A function and, if it starts a set, the centre of the set. -/
abbrev FnAt (α : Type) := FnWritten α × Option (Entry α × Entry α)

/-- The functions of a plan with the centres. -/
def unfoldPlan : List (SetWritten α) → List (FnAt α)
  | [] => []
  | s :: plan => (match s.fns with
    | [] => []
    | f :: fs => (f, some (s.x0, s.y0)) :: fs.map (·, none)) ++ unfoldPlan plan

/-- The names and entries of a function and its centre. -/
def fnTags (cat : Catalogue) (g : FnAt α) : List (Str × Entry α) :=
  (match g.2 with
    | none => []
    | some c => [(kX0, c.1), (kY0, c.2)]) ++ (parsOf cat g.1).zip g.1.entries

/-- The definition of a function and its centre; `shown` is what is shown of a centre. -/
def fnLines (cat : Catalogue) (pr : LimFmt α) (units : Str → Option (List Str)) (vx vy : Entry α → α) (g : FnAt α) : List Str :=
  (match g.2 with
    | none => []
    | some c => ["#\n".toList, defLine pr.g "X0".toList (pr.f4 (vx c.1)) c.1.lim ++ "\n".toList,
        defLine pr.g "Y0".toList (pr.f4 (vy c.2)) c.2.lim ++ "\n".toList]) ++
    fnDefinition pr (parsOf cat g.1) (unitList (units g.1.name) (parsOf cat g.1).length) g.1

theorem rd_at {β : Type} (pre : List β) (x : β) (post : List β) : rd (pre ++ x :: post) pre.length = .ok x := by
  rw [rd_ok (by simp)]; simp

theorem formatLine_short (l : Line) (h : l.flatten.length < 1024) : formatLine l = .ok l.flatten :=
  formatLine_ok fun t ht => by
    have : t.length ≤ l.flatten.length := by
      obtain ⟨a, b, rfl⟩ := List.append_of_mem ht
      simp only [List.flatten_append, List.flatten_cons, List.length_append]; omega
    exact lt_of_le_of_lt this h

theorem mapM_range {β : Type} (n : Nat) (f : Nat → Res β) (L : List β) (hL : L.length = n) (h : ∀ i (hi : i < L.length), f i = .ok L[i]) :
    (List.range n).mapM f = .ok L := by
  induction n generalizing L f with
  | zero =>
    rw [List.length_eq_zero_iff] at hL
    subst hL; rfl
  | succ n ih =>
    obtain ⟨x, L, rfl⟩ := List.exists_cons_of_length_eq_add_one hL
    rw [List.range_succ_eq_map, List.mapM_cons, h 0 (by simp), List.mapM_map]
    have := ih (f ∘ Nat.succ) L (by simpa using hL) fun i hi => by
      have := h (i + 1) (by simpa using hi)
      simpa using this
    rw [this]
    rfl

theorem xy_text (pr : LimFmt α) (key : Str) (v : α) (p : ParInfo α) :
    (xyLimText pr ['#'] key v p).flatten = defLine pr.g key (pr.f4 v) p ++ "\n".toList := by
  simp only [xyLimText, defLine, List.flatten_cons, List.flatten_nil, List.append_nil]
  rfl

theorem par_text (pr : LimFmt α) (nm u : Str) (v : α) (p : ParInfo α) :
    ([parLimText pr ['#'] nm v p] ++ unitsText (none : Option α) u ++ [['\n']]).flatten = defLine pr.g nm (pr.g7 v) p ++ unitComment u ++ "\n".toList := by
  cases u with
  | nil =>
    simp only [unitsText, unitComment, parLimText, defLine, List.length_nil, gt_iff_lt, lt_self_iff_false, if_false, List.append_nil, List.flatten_cons,
      List.flatten_nil, List.cons_append, List.nil_append, if_true]
    rfl
  | cons a u =>
    simp only [unitsText, unitComment, parLimText, defLine, List.length_cons, gt_iff_lt, Nat.succ_pos, if_true, List.append_nil, List.flatten_cons,
      List.flatten_nil, List.cons_append, List.nil_append, if_false, reduceCtorEq]
    simp only [List.append_assoc]
    rfl

theorem extra_text (units : Str → Option (List Str)) (b : FnBuilt) (start : Bool) :
    (extraText ['#'] (infoOf units b start)).map List.flatten = (if b.extra = [] then [] else ["#OPTIONAL_PARAMS_START\n".toList] ++
      b.extra.map (fun p => "#".toList ++ p.1 ++ "   ".toList ++ p.2 ++ "\n".toList) ++ ["#OPTIONAL_PARAMS_END\n".toList]) := by
  unfold extraText infoOf
  by_cases h : b.extra = []
  · simp [h]
  · simp only [h, if_false, List.map_append, List.map_cons, List.map_nil, List.map_map, Function.comp_def, List.flatten_cons, List.flatten_nil, List.append_nil]
    rfl

theorem fn_text (units : Str → Option (List Str)) (b : FnBuilt) (start : Bool) :
    (fnText ['#'] (infoOf units b start)).flatten =
      "#FUNCTION ".toList ++ b.name ++ (if b.label = [] then [] else "   # LABEL ".toList ++ b.label) ++ "\n".toList := by
  simp only [fnText, infoOf, List.flatten_cons, List.flatten_nil, List.append_nil]
  rfl

/-- The parameter lines of one function. -/
theorem pars_text (pr : LimFmt α) (units : Option (List Str)) (ps : List Str) (es : List (Entry α)) (hl : ps.length = es.length)
    (hu : ∀ us, units = some us → us.length = ps.length) (pre post : List (Str × Entry α)) :
    ∃ ls, (List.range ps.length).mapM (parLimLine pr ['#'] ((pre ++ ps.zip es ++ post).map Prod.fst) ((pre ++ ps.zip es ++ post).map fun t => t.2.value)
        ((pre ++ ps.zip es ++ post).map fun t => t.2.lim) units pre.length) = .ok ls ∧
      ls.map List.flatten = List.zipWith (fun (p : Str × Str) e => defLine pr.g p.1 (pr.g7 e.value) e.lim ++ unitComment p.2 ++ "\n".toList)
        (ps.zip (unitList units ps.length)) es := by
  have hlu : (unitList units ps.length).length = ps.length := by
    cases units with
    | none => simp [unitList]
    | some us => exact hu us rfl
  have hT : ∀ i (hi : i < ps.length), (pre ++ ps.zip es ++ post)[pre.length + i]? = some (ps[i], es[i]'(hl ▸ hi)) := by
    intro i hi
    rw [List.append_assoc, List.getElem?_append_right (by omega), Nat.add_sub_cancel_left,
      List.getElem?_append_left (by rw [List.length_zip, ← hl]; simpa using hi)]
    rw [List.getElem?_eq_getElem (by rw [List.length_zip, ← hl]; simpa using hi), List.getElem_zip]
  have hrd : ∀ {β : Type} (g : Str × Entry α → β) i (hi : i < ps.length),
      rd ((pre ++ ps.zip es ++ post).map g) (pre.length + i) = .ok (g (ps[i], es[i]'(hl ▸ hi))) := by
    intro β g i hi
    unfold rd
    rw [List.getElem?_map, hT i hi]; rfl
  refine ⟨List.zipWith (fun (p : Str × Str) e => [parLimText pr ['#'] p.1 e.value e.lim] ++ unitsText (none : Option α) p.2 ++ [['\n']])
    (ps.zip (unitList units ps.length)) es, mapM_range _ _ _ (by rw [List.length_zipWith, List.length_zip, hlu, ← hl]; simp) ?_, ?_⟩
  · intro i hi
    have hi' : i < ps.length := by simp [hlu, ← hl] at hi; exact hi
    have hun : unitAt units i = .ok ((unitList units ps.length)[i]'(by omega)) := by
      cases units with
      | none => simp [unitAt, unitList]
      | some us =>
        simp only [unitAt, unitList, Option.getD_some]
        exact rd_ok (by rw [hu us rfl]; exact hi')
    unfold parLimLine
    have hnm : paramName ((pre ++ ps.zip es ++ post).map Prod.fst) "<undefined>".toList (pre.length + i) = .ok ps[i] := by
      unfold paramName
      rw [if_pos (by simp [← hl]; omega), hrd Prod.fst i hi']
    rw [hnm, hrd (fun t => t.2.value) i hi', hrd (fun t => t.2.lim) i hi', hun]
    simp only [ok_bind, List.getElem_zipWith, List.getElem_zip]
  · rw [List.map_zipWith]
    congr 1
    funext p e
    exact par_text pr p.1 p.2 e.value e.lim

/-- A function can be printed: there is an entry for every parameter, and a unit for every one if there are units. -/
structure PrintFits (cat : Catalogue) (units : Str → Option (List Str)) (f : FnWritten α) : Prop where
  entries : (parsOf cat f).length = f.entries.length
  units : ∀ us, units f.name = some us → us.length = (parsOf cat f).length

theorem printLimFns_eq [FP α] (cat : Catalogue) (pr : LimFmt α) (units : Str → Option (List Str)) (dx dy : α) (G : List (FnAt α))
    (hG : ∀ g ∈ G, PrintFits cat units g.1) (pre : List (Str × Entry α)) :
    ∃ ls, printLimFns pr ['#'] ((pre ++ G.flatMap (fnTags cat)).map Prod.fst) ((pre ++ G.flatMap (fnTags cat)).map fun t => t.2.value)
        ((pre ++ G.flatMap (fnTags cat)).map fun t => t.2.lim) dx dy (G.map fun g => infoOf units (builtOf cat FnWritten.extra g.1) g.2.isSome) pre.length = .ok ls ∧
      ls.map List.flatten = G.flatMap (fnLines cat pr units (fun e => e.value + dx) (fun e => e.value + dy)) := by
  induction G generalizing pre with
  | nil => exact ⟨[], rfl, rfl⟩
  | cons g G ih =>
    obtain ⟨f, o⟩ := g
    have hf := hG (f, o) (by simp)
    cases o with
    | none =>
      obtain ⟨ls, h1, h2⟩ := pars_text pr (units f.name) (parsOf cat f) f.entries hf.entries hf.units pre (G.flatMap (fnTags cat))
      obtain ⟨rs, h3, h4⟩ := ih (fun g hg => hG g (by simp [hg])) (pre ++ (parsOf cat f).zip f.entries)
      have e1 : pre ++ ((f, none) :: G).flatMap (fnTags cat) = pre ++ (parsOf cat f).zip f.entries ++ G.flatMap (fnTags cat) := by simp [fnTags]
      have e2 : (pre ++ (parsOf cat f).zip f.entries).length = pre.length + (parsOf cat f).length := by simp [hf.entries]
      rw [e1]
      rw [e2] at h3
      refine ⟨[fnText ['#'] (infoOf units (builtOf cat FnWritten.extra f) false)] ++ extraText ['#'] (infoOf units (builtOf cat FnWritten.extra f) false) ++ ls ++ rs, ?_, ?_⟩
      · simp only [List.map_cons, printLimFns, Option.isSome_none]
        rw [show startLimLines pr ['#'] _ _ dx dy (infoOf units (builtOf cat FnWritten.extra f) false) pre.length = .ok ([], pre.length) from rfl]
        simp only [ok_bind]
        rw [show (infoOf units (builtOf cat FnWritten.extra f) false).n = (parsOf cat f).length from rfl,
          show (infoOf units (builtOf cat FnWritten.extra f) false).units = units f.name from rfl, h1]
        simp only [ok_bind]
        rw [h3]
        simp only [ok_bind, List.nil_append]
      · rw [List.map_append, List.map_append, List.map_append, h2, h4, extra_text, List.map_cons, List.map_nil, fn_text, List.flatMap_cons]
        simp only [fnLines, fnDefinition, List.nil_append, builtOf]
        rfl
    | some c =>
      obtain ⟨ls, h1, h2⟩ := pars_text pr (units f.name) (parsOf cat f) f.entries hf.entries hf.units (pre ++ [(kX0, c.1), (kY0, c.2)]) (G.flatMap (fnTags cat))
      obtain ⟨rs, h3, h4⟩ := ih (fun g hg => hG g (by simp [hg])) (pre ++ [(kX0, c.1), (kY0, c.2)] ++ (parsOf cat f).zip f.entries)
      have e1 : pre ++ ((f, some c) :: G).flatMap (fnTags cat) = pre ++ [(kX0, c.1), (kY0, c.2)] ++ (parsOf cat f).zip f.entries ++ G.flatMap (fnTags cat) := by
        simp [fnTags]
      have e2 : (pre ++ [(kX0, c.1), (kY0, c.2)] ++ (parsOf cat f).zip f.entries).length = pre.length + 2 + (parsOf cat f).length := by simp [hf.entries]; omega
      have e3 : (pre ++ [(kX0, c.1), (kY0, c.2)]).length = pre.length + 2 := by simp
      rw [e1]
      rw [e2] at h3
      rw [e3] at h1
      have hr : ∀ {β : Type} (q : Str × Entry α → β),
          rd ((pre ++ [(kX0, c.1), (kY0, c.2)] ++ (parsOf cat f).zip f.entries ++ G.flatMap (fnTags cat)).map q) pre.length = .ok (q (kX0, c.1)) ∧
          rd ((pre ++ [(kX0, c.1), (kY0, c.2)] ++ (parsOf cat f).zip f.entries ++ G.flatMap (fnTags cat)).map q) (pre.length + 1) = .ok (q (kY0, c.2)) := by
        intro β q
        unfold rd
        simp
      refine ⟨[[['#'] ++ ['\n']], xyLimText pr ['#'] ['X', '0'] (c.1.value + dx) c.1.lim, xyLimText pr ['#'] ['Y', '0'] (c.2.value + dy) c.2.lim] ++
        [fnText ['#'] (infoOf units (builtOf cat FnWritten.extra f) true)] ++ extraText ['#'] (infoOf units (builtOf cat FnWritten.extra f) true) ++ ls ++ rs, ?_, ?_⟩
      · simp only [List.map_cons, printLimFns, Option.isSome_some]
        have hst : startLimLines pr ['#'] ((pre ++ [(kX0, c.1), (kY0, c.2)] ++ (parsOf cat f).zip f.entries ++ G.flatMap (fnTags cat)).map fun t => t.2.value)
            ((pre ++ [(kX0, c.1), (kY0, c.2)] ++ (parsOf cat f).zip f.entries ++ G.flatMap (fnTags cat)).map fun t => t.2.lim) dx dy
            (infoOf units (builtOf cat FnWritten.extra f) true) pre.length =
            .ok ([[['#'] ++ ['\n']], xyLimText pr ['#'] ['X', '0'] (c.1.value + dx) c.1.lim, xyLimText pr ['#'] ['Y', '0'] (c.2.value + dy) c.2.lim], pre.length + 2) := by
          unfold startLimLines setLimLines
          rw [(hr fun t => t.2.value).1, (hr fun t => t.2.value).2, (hr fun t => t.2.lim).1, (hr fun t => t.2.lim).2]
          rfl
        rw [hst]
        simp only [ok_bind]
        rw [show (infoOf units (builtOf cat FnWritten.extra f) true).n = (parsOf cat f).length from rfl,
          show (infoOf units (builtOf cat FnWritten.extra f) true).units = units f.name from rfl, h1]
        simp only [ok_bind]
        rw [h3]
        simp only [ok_bind]
      · rw [List.map_append, List.map_append, List.map_append, List.map_append, h2, h4, extra_text]
        simp only [List.map_cons, List.map_nil]
        rw [fn_text, List.flatMap_cons, xy_text, xy_text]
        simp only [fnLines, fnDefinition, builtOf, List.append_assoc]
        rfl

/-! ## From the plan -/

theorem unfold_fst (plan : List (SetWritten α)) : (unfoldPlan plan).map Prod.fst = functions plan := by
  induction plan with
  | nil => rfl
  | cons s plan ih =>
    simp only [unfoldPlan, List.map_append, ih, functions, List.flatMap_cons]
    cases s.fns with
    | nil => rfl
    | cons f fs => simp [Function.comp_def]

theorem unfold_snd (plan : List (SetWritten α)) : (unfoldPlan plan).map (fun g => g.2.isSome) = planFlags plan := by
  unfold planFlags
  induction plan with
  | nil => rfl
  | cons s plan ih =>
    simp only [unfoldPlan, List.map_append, ih, List.map_cons]
    cases hs : s.fns with
    | nil => simp [flagged]
    | cons f fs => simp [flagged, Function.comp_def]

theorem unfold_tags (cat : Catalogue) (plan : List (SetWritten α)) (hf : ∀ s ∈ plan, s.fns ≠ []) : (unfoldPlan plan).flatMap (fnTags cat) = tagged cat plan := by
  unfold tagged
  induction plan with
  | nil => rfl
  | cons s plan ih =>
    simp only [unfoldPlan, List.flatMap_append, List.flatMap_cons, ih fun t ht => hf t (by simp [ht])]
    cases hs : s.fns with
    | nil => exact absurd hs (hf s (by simp))
    | cons f fs => simp [fnTags, List.flatMap_map]

theorem unfold_lines (cat : Catalogue) (pr : LimFmt α) (units : Str → Option (List Str)) (vx vy : Entry α → α) (plan : List (SetWritten α))
    (hf : ∀ s ∈ plan, s.fns ≠ []) : (unfoldPlan plan).flatMap (fnLines cat pr units vx vy) =
      definition pr (fun n => (cat.params n).getD []) (fun n => unitList (units n) ((cat.params n).getD []).length)
        (plan.map fun s => { s with x0 := ⟨vx s.x0, s.x0.lim⟩, y0 := ⟨vy s.y0, s.y0.lim⟩ }) := by
  unfold definition
  induction plan with
  | nil => rfl
  | cons s plan ih =>
    simp only [unfoldPlan, List.flatMap_append, List.flatMap_cons, List.map_cons, ih fun t ht => hf t (by simp [ht])]
    cases hs : s.fns with
    | nil => exact absurd hs (hf s (by simp))
    | cons f fs => simp only [List.flatMap_cons, fnLines, parsOf, List.flatMap_map, List.nil_append, List.append_assoc]

/-- The plan as it is shown: the offset is added to the values of the centres that were moved into the section. -/
def shownPlan [FP α] (ox oy : Int) (plan : List (SetWritten α)) : List (SetWritten α) :=
  plan.map fun s => { s with x0 := ⟨(s.x0.moved ox).value + lit (ox : ℚ), (s.x0.moved ox).lim⟩, y0 := ⟨(s.y0.moved oy).value + lit (oy : ℚ), (s.y0.moved oy).lim⟩ }

theorem functions_moved [FP α] (ox oy : Int) (plan : List (SetWritten α)) : functions (plan.map (SetWritten.moved ox oy)) = functions plan := by
  simp [functions, List.flatMap_map, SetWritten.moved]

theorem planNames_moved [FP α] (cat : Catalogue) (ox oy : Int) (plan : List (SetWritten α)) :
    planNames cat (plan.map (SetWritten.moved ox oy)) = planNames cat plan := by
  simp [planNames, List.flatMap_map, SetWritten.moved]

theorem planFlags_moved [FP α] (ox oy : Int) (plan : List (SetWritten α)) : planFlags (plan.map (SetWritten.moved ox oy)) = planFlags plan := by
  simp [planFlags, SetWritten.moved, Function.comp_def]

/-- The definition for any kind of numbers. -/
theorem chainDefinition_eq [FP α] (cat : Catalogue) (c : Config α) (plan : List (SetWritten α)) (ox oy : Int) (hs : Says c plan) (hf : Filled plan)
    (hu : ∀ f ∈ functions plan, ∃ ps, Usable cat f ps ∧ ps.length = f.entries.length) (pr : LimFmt α) (units : Str → Option (List Str))
    (hun : ∀ f ∈ functions plan, ∀ us, units f.name = some us → us.length = f.entries.length)
    (hsh : ∀ l ∈ definition pr (fun n => (cat.params n).getD []) (fun n => unitList (units n) ((cat.params n).getD []).length) (shownPlan ox oy plan), l.length < 1024) :
    ∃ st : FitStart α, startFit cat c ox oy = .ok (some st) ∧
      chainDefinition pr units st ox oy =
        .ok (definition pr (fun n => (cat.params n).getD []) (fun n => unitList (units n) ((cat.params n).getD []).length) (shownPlan ox oy plan)) ∧
      st.built.labels = planNames cat plan ∧ st.built.total = (planNames cat plan).length ∧
      builtSizes st.built = ((functions plan).map fun f => (parsOf cat f).length).zip (planFlags plan) := by
  have hps : ∀ f ∈ functions plan, ∀ ps, Usable cat f ps → ps = parsOf cat f := fun f _ ps h => by simp [parsOf, h.known]
  have hu' : ∀ f ∈ functions plan, Usable cat f (parsOf cat f) := by
    intro f h
    obtain ⟨ps, h1, -⟩ := hu f h
    rw [← hps f h ps h1]; exact h1
  have hl : ∀ f ∈ functions plan, (parsOf cat f).length = f.entries.length := by
    intro f h
    obtain ⟨ps, h1, h2⟩ := hu f h
    rw [← hps f h ps h1]; exact h2
  obtain ⟨hz, hlen⟩ := zip_tagged cat plan hl
  have hst := startFit_total cat c plan ox oy hs hf hu'
  rw [if_neg (by simpa using hlen)] at hst
  obtain ⟨st, h1, h2, h3, -⟩ := C79_partial cat c plan ox oy hs hf hu
  refine ⟨st, h1, ?_⟩
  rw [h1] at hst
  have est := Option.some.inj (Except.ok.inj hst)
  have eb : st.built = ⟨(functions plan).map (builtOf cat FnWritten.extra), planFlags plan, (planNames cat plan).length, planNames cat plan⟩ := by rw [est]
  refine ⟨?_, by rw [eb], by rw [eb], ?_⟩
  · obtain ⟨hz2, hlen2⟩ := zip_tagged cat (plan.map (SetWritten.moved ox oy)) (by rw [functions_moved]; exact hl)
    have hne : ∀ s ∈ plan.map (SetWritten.moved ox oy), s.fns ≠ [] := by
      intro s hs
      obtain ⟨t, ht, rfl⟩ := List.mem_map.1 hs
      exact hf.2 t ht
    have hT := unfold_tags cat (plan.map (SetWritten.moved ox oy)) hne
    have t1 : (tagged cat (plan.map (SetWritten.moved ox oy))).map Prod.fst = planNames cat plan := by
      rw [← hz2, List.map_fst_zip (le_of_eq hlen2), planNames_moved]
    have t2 : (tagged cat (plan.map (SetWritten.moved ox oy))).map Prod.snd = lines (plan.map (SetWritten.moved ox oy)) := by
      rw [← hz2, List.map_snd_zip (le_of_eq hlen2.symm)]
    obtain ⟨ls, g1, g2⟩ := printLimFns_eq cat pr units (lit (ox : ℚ)) (lit (oy : ℚ)) (unfoldPlan (plan.map (SetWritten.moved ox oy))) (by
      intro g hg
      have : g.1 ∈ functions plan := by
        rw [← functions_moved ox oy plan, ← unfold_fst]
        exact List.mem_map_of_mem hg
      exact ⟨hl _ this, fun us e => by rw [hl _ this]; exact hun _ this us e⟩) []
    rw [unfold_lines cat pr units _ _ _ hne] at g2
    have esh : (plan.map (SetWritten.moved ox oy)).map (fun s => ({ s with x0 := ⟨s.x0.value + lit (ox : ℚ), s.x0.lim⟩, y0 := ⟨s.y0.value + lit (oy : ℚ), s.y0.lim⟩ } : SetWritten α)) =
        shownPlan ox oy plan := by
      rw [List.map_map]; rfl
    rw [esh] at g2
    have ei : fnInfos units st.built = (unfoldPlan (plan.map (SetWritten.moved ox oy))).map fun g => infoOf units (builtOf cat FnWritten.extra g.1) g.2.isSome := by
      have a1 := unfold_fst (plan.map (SetWritten.moved ox oy))
      have a2 := unfold_snd (plan.map (SetWritten.moved ox oy))
      rw [functions_moved] at a1
      rw [planFlags_moved] at a2
      rw [eb]
      unfold fnInfos
      simp only
      rw [← a1, ← a2]
      generalize unfoldPlan (plan.map (SetWritten.moved ox oy)) = G
      induction G with
      | nil => rfl
      | cons g G ih => simp
    unfold chainDefinition printModelLimits
    rw [if_neg (by
      rw [h3, List.length_map]
      obtain ⟨s, rest, rfl⟩ := List.exists_cons_of_ne_nil hf.1
      simp [lines]), ei, h2, h3, ← t2, eb]
    simp only
    rw [List.nil_append, hT, t1, List.length_nil] at g1
    rw [List.map_map, List.map_map]
    rw [show (Entry.value ∘ Prod.snd : Str × Entry α → α) = fun t => t.2.value from rfl,
      show (Entry.lim ∘ Prod.snd : Str × Entry α → ParInfo α) = fun t => t.2.lim from rfl, g1, ok_bind]
    rw [mapM_ok ls formatLine List.flatten, g2]
    intro l hl'
    exact formatLine_short l (hsh _ (by rw [← g2]; exact List.mem_map_of_mem hl'))
  · rw [eb]
    simp [builtSizes, builtOf, Function.comp_def]

theorem shownPlan_eq (ox oy : Int) (plan : List (SetWritten XR)) : shownPlan ox oy plan = plan.map (SetWritten.limMoved ox oy) := by
  have hx : ∀ (v : XR) (d : Int), v - lit (d : ℚ) + lit (d : ℚ) = v := by
    intro v d
    cases v <;> first | (simp [XR.lit_def]; done) | rfl
  unfold shownPlan
  refine List.map_congr_left fun s _ => ?_
  simp only [SetWritten.limMoved, Entry.limMoved, Entry.moved, hx]

/-- C122, definition: the header of the output files repeats the model of the configuration file: centres (in coordinates of the whole image), functions,
labels, optional parameters, values and limits; the limits of centres, however, are those in coordinates of the image section. Each line is assumed to
have fewer than 1024 characters. -/
theorem C122_definition_partial (cat : Catalogue) (c : Config XR) (plan : List (SetWritten XR)) (ox oy : Int) (hs : Says c plan) (hf : Filled plan)
    (hu : ∀ f ∈ functions plan, ∃ ps, Usable cat f ps ∧ ps.length = f.entries.length) (pr : LimFmt XR) (units : Str → Option (List Str))
    (hun : ∀ f ∈ functions plan, ∀ us, units f.name = some us → us.length = f.entries.length)
    (hsh : ∀ l ∈ definition pr (fun n => (cat.params n).getD []) (fun n => unitList (units n) ((cat.params n).getD []).length)
      (plan.map (SetWritten.limMoved ox oy)), l.length < 1024) :
    ∃ st : FitStart XR, startFit cat c ox oy = .ok (some st) ∧
      chainDefinition pr units st ox oy =
        .ok (definition pr (fun n => (cat.params n).getD []) (fun n => unitList (units n) ((cat.params n).getD []).length) (plan.map (SetWritten.limMoved ox oy))) := by
  have e := shownPlan_eq ox oy plan
  rw [← e] at hsh ⊢
  obtain ⟨st, h1, h2, -⟩ := chainDefinition_eq cat c plan ox oy hs hf hu pr units hun hsh
  exact ⟨st, h1, h2⟩

/-- For a fit to a whole image the definition is that of the configuration file. -/
theorem C122_whole (cat : Catalogue) (c : Config XR) (plan : List (SetWritten XR)) (hs : Says c plan) (hf : Filled plan)
    (hu : ∀ f ∈ functions plan, ∃ ps, Usable cat f ps ∧ ps.length = f.entries.length) (pr : LimFmt XR) (units : Str → Option (List Str))
    (hun : ∀ f ∈ functions plan, ∀ us, units f.name = some us → us.length = f.entries.length)
    (hsh : ∀ l ∈ definition pr (fun n => (cat.params n).getD []) (fun n => unitList (units n) ((cat.params n).getD []).length) plan, l.length < 1024) :
    ∃ st : FitStart XR, startFit cat c 0 0 = .ok (some st) ∧
      chainDefinition pr units st 0 0 =
        .ok (definition pr (fun n => (cat.params n).getD []) (fun n => unitList (units n) ((cat.params n).getD []).length) plan) := by
  have e : plan.map (SetWritten.limMoved 0 0) = plan := by
    have hx : ∀ v : XR, v - lit (((0 : Int) : ℚ)) = v := by
      intro v
      cases v <;> first | (simp [XR.lit_def]; done) | rfl
    refine (List.map_congr_left fun s _ => ?_).trans (List.map_id _)
    simp only [SetWritten.limMoved, Entry.limMoved, Entry.moved, hx]
    rfl
  have := C122_definition_partial cat c plan 0 0 hs hf hu pr units hun
  rw [e] at this
  exact this hsh

/-- The claim fails for a fit to a section of the image: the value of X0 is in the coordinates of the image, its limits are in those of the section. When the
section starts more than the width of the range away, the value is not even between the limits. -/
theorem C122_limits_false (cat : Catalogue) (c : Config XR) (s : SetWritten XR) (rest : List (SetWritten XR)) (ox oy : Int) (hs : Says c (s :: rest))
    (hf : Filled (s :: rest)) (hu : ∀ f ∈ functions (s :: rest), ∃ ps, Usable cat f ps ∧ ps.length = f.entries.length) (pr : LimFmt XR)
    (units : Str → Option (List Str)) (hun : ∀ f ∈ functions (s :: rest), ∀ us, units f.name = some us → us.length = f.entries.length)
    (hsh : ∀ l ∈ definition pr (fun n => (cat.params n).getD []) (fun n => unitList (units n) ((cat.params n).getD []).length)
      ((s :: rest).map (SetWritten.limMoved ox oy)), l.length < 1024)
    (v a b : ℝ) (hx : s.x0 = ⟨.fin v, ⟨false, true, true, .fin a, .fin b⟩⟩) (ho : b - a < ox) :
    ∃ (st : FitStart XR) (L : List Str), startFit cat c ox oy = .ok (some st) ∧ chainDefinition pr units st ox oy = .ok L ∧
      L[1]? = some ("#X0\t\t".toList ++ pr.f4 (.fin v) ++ "\t\t".toList ++ pr.g (.fin (a - ox)) ++ ",".toList ++ pr.g (.fin (b - ox)) ++ "\n".toList) ∧
      (a ≤ v → b - ox < v) ∧
      ((pr.g (.fin (a - ox)) ++ ",".toList ++ pr.g (.fin (b - ox)) ≠ pr.g (.fin a) ++ ",".toList ++ pr.g (.fin b)) →
        L ≠ definition pr (fun n => (cat.params n).getD []) (fun n => unitList (units n) ((cat.params n).getD []).length) (s :: rest)) := by
  obtain ⟨st, h1, h2⟩ := C122_definition_partial cat c (s :: rest) ox oy hs hf hu pr units hun hsh
  have hsub : ∀ r : ℝ, (XR.fin r - lit (ox : ℚ) : XR) = .fin (r - ox) := by
    intro r
    simp [XR.lit_def]
  have e1 : (definition pr (fun n => (cat.params n).getD []) (fun n => unitList (units n) ((cat.params n).getD []).length)
      ((s :: rest).map (SetWritten.limMoved ox oy)))[1]? =
      some ("#X0\t\t".toList ++ pr.f4 (.fin v) ++ "\t\t".toList ++ pr.g (.fin (a - ox)) ++ ",".toList ++ pr.g (.fin (b - ox)) ++ "\n".toList) := by
    simp only [definition, List.map_cons, List.flatMap_cons, List.cons_append, List.getElem?_cons_succ, List.getElem?_cons_zero, SetWritten.limMoved,
      Entry.limMoved, Entry.moved, hx, hsub, defLine, rangeText, Bool.false_eq_true, if_false, List.append_assoc]
    rfl
  refine ⟨st, _, h1, h2, e1, fun h => by linarith, ?_⟩
  intro hne heq
  rw [heq] at e1
  have e2 : (definition pr (fun n => (cat.params n).getD []) (fun n => unitList (units n) ((cat.params n).getD []).length) (s :: rest))[1]? =
      some ("#X0\t\t".toList ++ pr.f4 (.fin v) ++ "\t\t".toList ++ (pr.g (.fin a) ++ ",".toList ++ pr.g (.fin b)) ++ "\n".toList) := by
    simp only [definition, List.flatMap_cons, List.cons_append, List.getElem?_cons_succ, List.getElem?_cons_zero, hx, defLine, rangeText,
      Bool.false_eq_true, if_false, List.append_assoc]
    rfl
  rw [e2] at e1
  have := Option.some.inj e1
  simp only [List.append_assoc] at this
  have := List.append_cancel_left (List.append_cancel_left (List.append_cancel_left this))
  rw [← List.append_assoc (bs := ",".toList), ← List.append_assoc (bs := ",".toList)] at this
  rw [← List.append_assoc, ← List.append_assoc] at this
  exact hne (List.append_cancel_right this).symm

/-! ## The columns -/

theorem splitOnP_agree (p q : Char → Bool) (s : Str) (h : ∀ c ∈ s, p c = q c) : s.splitOnP p = s.splitOnP q := by
  induction s with
  | nil => rfl
  | cons a s ih =>
    rw [List.splitOnP_cons_eq_if_modifyHead, List.splitOnP_cons_eq_if_modifyHead, h a (by simp), ih fun c hc => h c (by simp [hc])]

theorem mem_piece (p : Char → Bool) (s : Str) (c : Char) (hc : c ∈ s) (hp : p c = false) : ∃ f ∈ s.splitOnP p, c ∈ f := by
  induction s with
  | nil => simp at hc
  | cons a s ih =>
    rw [List.splitOnP_cons_eq_if_modifyHead]
    by_cases ha : p a = true
    · rw [if_pos ha]
      rcases List.mem_cons.1 hc with rfl | hc
      · simp [hp] at ha
      · obtain ⟨f, h1, h2⟩ := ih hc
        exact ⟨f, by simp [h1], h2⟩
    · rw [if_neg ha]
      obtain ⟨x, l, e⟩ := List.exists_cons_of_ne_nil (List.splitOnP_ne_nil p s)
      rw [e] at ih ⊢
      rw [List.modifyHead_cons]
      rcases List.mem_cons.1 hc with rfl | hc
      · exact ⟨c :: x, by simp, by simp⟩
      · obtain ⟨f, h1, h2⟩ := ih hc
        rcases List.mem_cons.1 h1 with rfl | h1
        · exact ⟨a :: f, by simp, by simp [h2]⟩
        · exact ⟨f, by simp [h1], h2⟩

/-- Where the pieces between tabs contain no blanks they are the pieces between blanks. -/
theorem tokens_tabs (s : Str) (h : ∀ f ∈ tabFields s, ∀ c ∈ f, isBlank c = false) : tokens isBlank s = tabFields s := by
  unfold tokens tabFields
  rw [List.splitOn, splitOnP_agree isBlank (· == '\t') s]
  intro c hc
  by_cases e : c = '\t'
  · subst e; rfl
  · have e' : (c == '\t') = false := by simpa using e
    obtain ⟨f, h1, h2⟩ := mem_piece (· == '\t') s c hc e'
    rw [e', h f (by
      unfold tabFields
      rw [List.mem_filter]
      exact ⟨h1, by simpa using List.ne_nil_of_mem h2⟩) c h2]

theorem dec_word (n : Nat) : ∀ c ∈ dec n, isBlank c = false := by
  intro c hc
  rw [← dec_eq] at hc
  have := Nat.isDigit_of_mem_toDigits (by decide) (by decide) hc
  by_contra hb
  simp only [isBlank, Bool.not_eq_false, Bool.or_eq_true, beq_iff_eq] at hb
  rcases hb with (rfl | rfl) | rfl <;> simp [Char.isDigit] at this

theorem slot_word (fns : List (List Str)) (h : ∀ f ∈ fns, ∀ p ∈ f, ∀ c ∈ p, isBlank c = false) (s : Slot) : ∀ c ∈ slotHeader fns s, isBlank c = false := by
  cases s with
  | x0 k =>
    intro c hc
    rcases List.mem_append.1 hc with hc | hc
    · exact (by decide : ∀ c ∈ "X0_".toList, isBlank c = false) c hc
    · exact dec_word _ c hc
  | y0 k =>
    intro c hc
    rcases List.mem_append.1 hc with hc | hc
    · exact (by decide : ∀ c ∈ "Y0_".toList, isBlank c = false) c hc
    · exact dec_word _ c hc
  | par n j =>
    intro c hc
    simp only [slotHeader, List.append_assoc] at hc
    rcases List.mem_append.1 hc with hc | hc
    · rw [List.getD_eq_getElem?_getD, List.getD_eq_getElem?_getD] at hc
      cases e1 : fns[n]? with
      | none => simp [e1] at hc
      | some f =>
        rw [e1, Option.getD_some] at hc
        cases e2 : f[j]? with
        | none => simp [e2] at hc
        | some p =>
          rw [e2, Option.getD_some] at hc
          exact h f (List.mem_of_getElem? e1) p (List.mem_of_getElem? e2) c hc
    · rcases List.mem_append.1 hc with hc | hc
      · exact (by decide : ∀ c ∈ "_".toList, isBlank c = false) c hc
      · exact dec_word _ c hc

/-- A text without blanks, not empty. -/
def Solid (s : Str) : Prop := s ≠ [] ∧ ∀ c ∈ s, isBlank c = false

theorem solid_cons {t : Str} (h : Solid t) (c : Char) (hc : isBlank c = true) (s : Str) : tokens isBlank (t ++ c :: s) = t :: tokens isBlank s :=
  tokens_cons isBlank t h.2 h.1 c hc s

theorem cr_solid (n : Nat) : Solid ("CR".toList ++ dec n) := by
  refine ⟨by simp, fun c hc => ?_⟩
  rcases List.mem_append.1 hc with hc | hc
  · exact (by decide : ∀ c ∈ "CR".toList, isBlank c = false) c hc
  · exact dec_word _ c hc

theorem blanks_then (k : Nat) (s : Str) : tokens isBlank (List.replicate k ' ' ++ s) = tokens isBlank s :=
  tokens_delims isBlank _ _ fun c hc => by rw [List.eq_of_mem_replicate hc]; rfl

theorem tokens_cr (nCR : Nat) (h : 0 < nCR) (rest : Str) :
    tokens isBlank (crHeads nCR ++ rest) = (List.range nCR).map (fun i => "CR".toList ++ dec (i + 1)) ++ tokens isBlank rest := by
  have e1 : "               ".toList = ' ' :: List.replicate 14 ' ' := by decide
  have e2 : "        ".toList = ' ' :: List.replicate 7 ' ' := by decide
  have hl : ∀ (l : List Nat) (r : Str), tokens isBlank ((l.flatMap fun i => "CR".toList ++ showNat (i + 1) ++ "               ".toList) ++ r) =
      l.map (fun i => "CR".toList ++ dec (i + 1)) ++ tokens isBlank r := by
    intro l r
    induction l with
    | nil => rfl
    | cons i l ih =>
      rw [List.flatMap_cons, dec_eq, e1, List.append_assoc, List.append_assoc, List.cons_append, solid_cons (cr_solid _) _ rfl, blanks_then, ← e1, ih]
      rfl
  unfold crHeads
  rw [List.append_assoc, List.append_assoc, List.append_assoc, hl, dec_eq, e2, ← List.append_assoc "CR".toList, List.cons_append, solid_cons (cr_solid _) _ rfl, blanks_then]
  obtain ⟨n, rfl⟩ := Nat.exists_eq_add_of_lt h
  simp [List.range_succ]

/-- C122, columns: after the comment mark, the names in the line of column names are those of the parameters, likelihood, burn-in, the crossover
probabilities and accept; and every line of the file has the corresponding entries in this order, the positions of centres being those in the image. Numbers
are assumed to be printed without blanks. -/
theorem C122_columns [FP α] (sets : List (List (List Str))) (h : NameSets sets) (hn : ∀ s ∈ sets, ∀ f ∈ s, ∀ p ∈ f, ∀ c ∈ p, isBlank c = false)
    (fmt num : α → Str) (hfmt : ∀ v, Solid (fmt v)) (hnum : ∀ v, Solid (num v)) (params : List α) (hp : params.length = (slots (nameSizes sets)).length)
    (ox oy : Int) (lik : α) (burn accept : Bool) (pCR : List α) (hcr : 0 < pCR.length) :
    ∃ head line, columnHeads (populateNames (flagged sets)) (slots (nameSizes sets)).length (sizesFl (flagged sets)) pCR.length = .ok head ∧
      chainLine fmt num (sizesFl (flagged sets)) params ox oy lik burn pCR accept = .ok line ∧
      tokens isBlank head = "#".toList :: ((slots (nameSizes sets)).map (slotHeader sets.flatten) ++ stateColumns pCR.length) ∧
      tokens isBlank line = List.zipWith (fun s v => fmt (slotValue ox oy s v)) (slots (nameSizes sets)) params ++
        [num lik, showFlag burn] ++ pCR.map num ++ [showFlag accept] ∧
      (tokens isBlank head).length = 1 + (tokens isBlank line).length := by
  obtain ⟨w, h1, h2⟩ := C14_header sets h fun s hs f hf p hp hc => by
    have := hn s hs f hf p hp _ hc
    simp [isBlank] at this
  obtain ⟨q, h3, h4⟩ := C14_dump sets h fmt '\t' (fun v hc => by
    have := (hfmt v).2 _ hc
    simp [isBlank] at this) params hp ox oy
  have hw : tokens isBlank w = (slots (nameSizes sets)).map (slotHeader sets.flatten) := by
    rw [tokens_tabs, h2]
    rw [h2]
    intro f hf
    obtain ⟨s, -, rfl⟩ := List.mem_map.1 hf
    refine slot_word _ ?_ s
    intro f hf p hp
    obtain ⟨s, hs, hf⟩ := List.mem_flatten.1 hf
    exact hn s hs f hf p hp
  have hq : tokens isBlank q = List.zipWith (fun s v => fmt (slotValue ox oy s v)) (slots (nameSizes sets)) params := by
    have hm : ∀ f ∈ List.zipWith (fun s v => fmt (slotValue ox oy s v)) (slots (nameSizes sets)) params, Solid f := by
      intro f hf
      obtain ⟨i, hi, rfl⟩ := List.mem_iff_getElem.1 hf
      rw [List.getElem_zipWith]
      exact hfmt _
    have ht : tabFields q = List.zipWith (fun s v => fmt (slotValue ox oy s v)) (slots (nameSizes sets)) params := by
      unfold tabFields
      rw [h4, List.filter_eq_self]
      intro f hf
      simpa using (hm f hf).1
    rw [tokens_tabs, ht]
    rw [ht]
    exact fun f hf => (hm f hf).2
  have hflag : ∀ b, Solid (showFlag b) := by
    intro b
    cases b <;> exact ⟨by simp [showFlag], by simp [showFlag, isBlank]⟩
  have a1 : tokens isBlank ("# ".toList ++ w ++ "  likelihood  burn-in    ".toList ++ crHeads pCR.length ++ "accept\n".toList) =
      "#".toList :: ((slots (nameSizes sets)).map (slotHeader sets.flatten) ++ stateColumns pCR.length) := by
    have e1 : "# ".toList ++ w ++ "  likelihood  burn-in    ".toList ++ crHeads pCR.length ++ "accept\n".toList =
        "#".toList ++ ' ' :: (w ++ ' ' :: ("".toList ++ ' ' :: ("likelihood".toList ++ ' ' :: ("".toList ++ ' ' :: ("burn-in".toList ++ ' ' :: (List.replicate 3 ' ' ++
          (crHeads pCR.length ++ ("accept".toList ++ '\n' :: [])))))))) := by
      have b1 : "# ".toList = "#".toList ++ [' '] := by decide
      have b2 : "  likelihood  burn-in    ".toList = ' ' :: ' ' :: ("likelihood".toList ++ ' ' :: ' ' :: ("burn-in".toList ++ ' ' :: List.replicate 3 ' ')) := by decide
      have b3 : "accept\n".toList = "accept".toList ++ '\n' :: [] := by decide
      have b4 : "".toList = [] := by decide
      rw [b1, b2, b3, b4]
      simp only [List.append_assoc, List.cons_append, List.nil_append]
    have s1 : Solid "#".toList := ⟨by decide, by decide⟩
    have s2 : Solid "likelihood".toList := ⟨by decide, by decide⟩
    have s3 : Solid "burn-in".toList := ⟨by decide, by decide⟩
    have s4 : Solid "accept".toList := ⟨by decide, by decide⟩
    rw [e1, solid_cons s1 _ rfl, tokens_append_cons isBlank _ _ _ rfl, hw, tokens_append_cons isBlank _ _ _ rfl, solid_cons s2 _ rfl,
      tokens_append_cons isBlank _ _ _ rfl, solid_cons s3 _ rfl, blanks_then, tokens_cr _ hcr, solid_cons s4 _ rfl]
    rw [show tokens isBlank "".toList = [] by decide, show tokens isBlank [] = [] by decide]
    rfl
  have hpc : ∀ r : Str, tokens isBlank ((pCR.flatMap fun p => num p ++ [' ']) ++ r) = pCR.map num ++ tokens isBlank r := by
    intro r
    clear hcr a1
    induction pCR with
    | nil => rfl
    | cons p pCR ih =>
      rw [List.flatMap_cons, List.append_assoc, List.append_assoc, List.cons_append, solid_cons (hnum p) _ rfl, List.nil_append, ih]
      rfl
  have a2 : tokens isBlank (q ++ [' '] ++ num lik ++ [' '] ++ showFlag burn ++ [' ', ' '] ++ (pCR.flatMap fun p => num p ++ [' ']) ++ showFlag accept ++ ['\n']) =
      List.zipWith (fun s v => fmt (slotValue ox oy s v)) (slots (nameSizes sets)) params ++ [num lik, showFlag burn] ++ pCR.map num ++ [showFlag accept] := by
    simp only [List.append_assoc, List.cons_append, List.nil_append]
    rw [tokens_append_cons isBlank _ _ _ rfl, hq, solid_cons (hnum lik) _ rfl, solid_cons (hflag burn) _ rfl, tokens_delim isBlank rfl, hpc,
      solid_cons (hflag accept) _ rfl]
    rfl
  refine ⟨_, _, by unfold columnHeads; rw [h1]; rfl, by unfold chainLine; rw [h3]; rfl, a1, a2, ?_⟩
  rw [a1, a2]
  simp only [stateColumns, List.length_cons, List.length_append, List.length_map, List.length_range, List.length_zipWith, List.length_nil, hp]
  omega

/-! ## The whole header -/

/-- A comment line: comment mark, text without line end, line end. -/
def IsComment (l : Str) : Prop := ∃ t, l = '#' :: t ++ ['\n'] ∧ '\n' ∉ t

theorem comment_lines (L : List Str) (h : ∀ l ∈ L, IsComment l) : ∀ x ∈ L.flatten.splitOn '\n', x = [] ∨ x.head? = some '#' := by
  induction L with
  | nil => simp
  | cons l L ih =>
    obtain ⟨t, rfl, ht⟩ := h l (by simp)
    have e : (('#' :: t ++ ['\n']) :: L).flatten = ('#' :: t) ++ '\n' :: L.flatten := by simp
    rw [e, List.splitOn_append_cons_self_of_not_mem (by simpa using ht)]
    intro x hx
    rcases List.mem_cons.1 hx with rfl | hx
    · exact Or.inr rfl
    · exact ih (fun l hl => h l (by simp [hl])) x hx

/-- All texts that end up in the definition are free of line ends. -/
structure OneLine (cat : Catalogue) (pr : LimFmt α) (units : Str → Option (List Str)) (f : FnWritten α) : Prop where
  name : '\n' ∉ f.name
  label : '\n' ∉ f.label
  extra : ∀ p ∈ f.extra, '\n' ∉ p.1 ∧ '\n' ∉ p.2
  pars : ∀ p ∈ (cat.params f.name).getD [], '\n' ∉ p
  units : ∀ us, units f.name = some us → ∀ u ∈ us, '\n' ∉ u

/-- Numbers are printed without line ends. -/
structure OneLineNumbers (pr : LimFmt α) : Prop where
  f4 : ∀ v, '\n' ∉ pr.f4 v
  g7 : ∀ v, '\n' ∉ pr.g7 v
  g : ∀ v, '\n' ∉ pr.g v

theorem isComment_of (t : Str) (h : '\n' ∉ t) : IsComment ("#".toList ++ t ++ "\n".toList) := ⟨t, rfl, h⟩

theorem range_line (pr : LimFmt α) (hn : OneLineNumbers pr) (p : ParInfo α) : '\n' ∉ rangeText pr.g p := by
  unfold rangeText
  split
  · decide
  · simp only [List.mem_append, not_or]
    exact ⟨⟨hn.g _, by decide⟩, hn.g _⟩

theorem definition_comments (cat : Catalogue) (pr : LimFmt α) (hn : OneLineNumbers pr) (units : Str → Option (List Str)) (plan : List (SetWritten α))
    (h : ∀ f ∈ functions plan, OneLine cat pr units f) : ∀ l ∈ definition pr (fun n => (cat.params n).getD [])
      (fun n => unitList (units n) ((cat.params n).getD []).length) plan, IsComment l := by
  have hdef : ∀ (name number : Str) (p : ParInfo α) (u : Str), '\n' ∉ name → '\n' ∉ number → '\n' ∉ u → IsComment (defLine pr.g name number p ++ u ++ "\n".toList) := by
    intro name number p u h1 h2 h3
    have := isComment_of (name ++ "\t\t".toList ++ number ++ "\t\t".toList ++ rangeText pr.g p ++ u) (by
      simp only [List.mem_append, not_or]
      exact ⟨⟨⟨⟨⟨h1, by decide⟩, h2⟩, by decide⟩, range_line pr hn p⟩, h3⟩)
    simpa only [defLine, List.append_assoc] using this
  intro l hl
  unfold definition at hl
  obtain ⟨s, hs, hl⟩ := List.mem_flatMap.1 hl
  rcases List.mem_append.1 hl with hl | hl
  · simp only [List.mem_cons, List.not_mem_nil, or_false] at hl
    rcases hl with rfl | rfl | rfl
    · exact ⟨[], rfl, by simp⟩
    · have := hdef "X0".toList (pr.f4 s.x0.value) s.x0.lim [] (by decide) (hn.f4 _) (by simp)
      rwa [List.append_nil] at this
    · have := hdef "Y0".toList (pr.f4 s.y0.value) s.y0.lim [] (by decide) (hn.f4 _) (by simp)
      rwa [List.append_nil] at this
  · obtain ⟨f, hf, hl⟩ := List.mem_flatMap.1 hl
    have ho := h f (by simp only [functions, List.mem_flatMap]; exact ⟨s, hs, hf⟩)
    unfold fnDefinition at hl
    rcases List.mem_append.1 hl with hl | hl
    · rcases List.mem_append.1 hl with hl | hl
      · rw [List.mem_singleton] at hl
        subst hl
        have := isComment_of ("FUNCTION ".toList ++ f.name ++ (if f.label = [] then [] else "   # LABEL ".toList ++ f.label)) (by
          simp only [List.mem_append, not_or]
          refine ⟨⟨by decide, ho.name⟩, ?_⟩
          split
          · simp
          · simp only [List.mem_append, not_or]
            exact ⟨by decide, ho.label⟩)
        have e : "#FUNCTION ".toList = "#".toList ++ "FUNCTION ".toList := by decide
        rw [e]
        simpa only [List.append_assoc] using this
      · by_cases he : f.extra = []
        · simp [he] at hl
        · rw [if_neg he] at hl
          simp only [List.mem_append, List.mem_singleton, List.mem_map] at hl
          rcases hl with (rfl | ⟨p, hp, rfl⟩) | rfl
          · exact ⟨"OPTIONAL_PARAMS_START".toList, rfl, by decide⟩
          · have := isComment_of (p.1 ++ "   ".toList ++ p.2) (by
              simp only [List.mem_append, not_or]
              exact ⟨⟨(ho.extra p hp).1, by decide⟩, (ho.extra p hp).2⟩)
            simpa only [List.append_assoc] using this
          · exact ⟨"OPTIONAL_PARAMS_END".toList, rfl, by decide⟩
    · obtain ⟨i, hi, rfl⟩ := List.mem_iff_getElem.1 hl
      rw [List.getElem_zipWith, List.getElem_zip]
      refine hdef _ _ _ _ (ho.pars _ (List.getElem_mem _)) (hn.g7 _) ?_
      have hu : ∀ u ∈ unitList (units f.name) ((cat.params f.name).getD []).length, '\n' ∉ u := by
        intro u hu
        cases e : units f.name with
        | none =>
          rw [e] at hu
          rw [List.eq_of_mem_replicate hu]; simp
        | some us =>
          rw [e] at hu
          exact ho.units us e u hu
      unfold unitComment
      split
      · simp
      · simp only [List.mem_append, not_or]
        exact ⟨by decide, hu _ (List.getElem_mem _)⟩

theorem names_of_plan (cat : Catalogue) (plan : List (SetWritten α)) (hf : Filled plan) : populateNames (flagged (nameSetsOf cat plan)) = planNames cat plan := by
  rw [populate_flagged]
  · simp [nameSetsOf, planNames, List.flatMap_def, Function.comp_def]
  · intro s hs
    obtain ⟨t, ht, rfl⟩ := List.mem_map.1 hs
    simpa using hf.2 t ht

theorem sizes_of_plan (cat : Catalogue) (plan : List (SetWritten α)) :
    sizesFl (flagged (nameSetsOf cat plan)) = ((functions plan).map fun f => (parsOf cat f).length).zip (planFlags plan) := by
  have e : nameSetsOf cat plan = (plan.map SetWritten.fns).map (List.map (parsOf cat)) := by simp [nameSetsOf, Function.comp_def]
  have e2 : functions plan = (flagged (plan.map SetWritten.fns)).map Prod.fst := by rw [flagged_fst]; simp [functions, List.flatMap_def]
  rw [e, flagged_map, e2]
  unfold planFlags sizesFl
  generalize flagged (plan.map SetWritten.fns) = G
  induction G with
  | nil => rfl
  | cons g G ih => simpa using ih

theorem nameSets_plan (cat : Catalogue) (plan : List (SetWritten α)) (hf : Filled plan) : NameSets (nameSetsOf cat plan) :=
  ⟨by simpa [nameSetsOf] using hf.1, by
    intro s hs
    obtain ⟨t, ht, rfl⟩ := List.mem_map.1 hs
    simpa using hf.2 t ht⟩

theorem cr_line (n : Nat) : '\n' ∉ crHeads n := by
  have hd : ∀ k, '\n' ∉ showNat k := by
    intro k hc
    rw [dec_eq] at hc
    have := dec_word _ _ hc
    simp [isBlank] at this
  unfold crHeads
  simp only [List.mem_append, not_or, List.mem_flatMap, not_exists, not_and]
  exact ⟨⟨⟨fun x _ => ⟨⟨by decide, hd _⟩, by decide⟩, by decide⟩, hd _⟩, by decide⟩

/-- C122, header: all lines that the header consists of are comments, so that they are passed over when the files are read again; among them the definition of
the model (see `C122_definition_partial`) and, as the last one, the names of the columns. -/
theorem C122_header_partial (cat : Catalogue) (c : Config XR) (plan : List (SetWritten XR)) (ox oy : Int) (hs : Says c plan) (hf : Filled plan)
    (hu : ∀ f ∈ functions plan, ∃ ps, Usable cat f ps ∧ ps.length = f.entries.length) (pr : LimFmt XR) (units : Str → Option (List Str))
    (hun : ∀ f ∈ functions plan, ∀ us, units f.name = some us → us.length = f.entries.length)
    (hsh : ∀ l ∈ definition pr (fun n => (cat.params n).getD []) (fun n => unitList (units n) ((cat.params n).getD []).length)
      (plan.map (SetWritten.limMoved ox oy)), l.length < 1024)
    (hnum : OneLineNumbers pr) (h1 : ∀ f ∈ functions plan, OneLine cat pr units f)
    (hw : ∀ f ∈ functions plan, ∀ p ∈ (cat.params f.name).getD [], ∀ c ∈ p, isBlank c = false)
    (front : List Str) (hfr : ∀ l ∈ front, IsComment l) (nCR : Nat) (hcr : 0 < nCR) :
    ∃ (st : FitStart XR) (head : Str), startFit cat c ox oy = .ok (some st) ∧
      chainHeader pr units front st ox oy nCR = .ok (front ++ ["#\n# Model definition:\n".toList] ++
        definition pr (fun n => (cat.params n).getD []) (fun n => unitList (units n) ((cat.params n).getD []).length) (plan.map (SetWritten.limMoved ox oy)) ++
        ["#\n# Column Headers\n".toList] ++ [head]) ∧
      tokens isBlank head = "#".toList :: ((slots (plan.map fun s => s.fns.map fun f => f.entries.length)).map
        (slotHeader ((functions plan).map fun f => (cat.params f.name).getD [])) ++ stateColumns nCR) ∧
      ∀ x ∈ (front ++ ["#\n# Model definition:\n".toList] ++
        definition pr (fun n => (cat.params n).getD []) (fun n => unitList (units n) ((cat.params n).getD []).length) (plan.map (SetWritten.limMoved ox oy)) ++
        ["#\n# Column Headers\n".toList] ++ [head]).flatten.splitOn '\n', x = [] ∨ x.head? = some '#' := by
  have hsz : nameSizes (nameSetsOf cat plan) = plan.map fun s => s.fns.map fun f => f.entries.length := by
    unfold nameSizes nameSetsOf
    rw [List.map_map]
    refine List.map_congr_left fun s hs' => ?_
    simp only [Function.comp_def, List.map_map]
    refine List.map_congr_left fun f hf' => ?_
    obtain ⟨ps, g1, g2⟩ := hu f (by simp only [functions, List.mem_flatMap]; exact ⟨s, hs', hf'⟩)
    simp [parsOf, g1.known, g2]
  have hflat : (nameSetsOf cat plan).flatten = (functions plan).map fun f => (cat.params f.name).getD [] := by
    simp [nameSetsOf, functions, List.flatMap_def, List.map_flatten, Function.comp_def]
    rfl
  have hNS := nameSets_plan cat plan hf
  have hmem : ∀ s ∈ nameSetsOf cat plan, ∀ f ∈ s, ∀ p ∈ f, ∀ c ∈ p, isBlank c = false := by
    intro s hs' f hf' p hp
    have : f ∈ (nameSetsOf cat plan).flatten := List.mem_flatten.2 ⟨s, hs', hf'⟩
    rw [hflat] at this
    obtain ⟨k, hk, rfl⟩ := List.mem_map.1 this
    exact hw k hk p hp
  obtain ⟨w, w1, w2⟩ := C14_header (nameSetsOf cat plan) hNS fun s hs' f hf' p hp hc => by
    have := hmem s hs' f hf' p hp _ hc
    simp [isBlank] at this
  obtain ⟨head, line, c1, -, c3, -⟩ := C122_columns (α := XR) (nameSetsOf cat plan) hNS hmem (fun _ => ['a']) (fun _ => ['a'])
    (fun _ => ⟨by simp, by simp [isBlank]⟩) (fun _ => ⟨by simp, by simp [isBlank]⟩) (List.replicate (slots (nameSizes (nameSetsOf cat plan))).length (.fin 0)) (by simp)
    0 0 (.fin 0) false false (List.replicate nCR (.fin 0)) (by simpa using hcr)
  have e : shownPlan ox oy plan = plan.map (SetWritten.limMoved ox oy) := shownPlan_eq ox oy plan
  rw [← e] at hsh ⊢
  obtain ⟨st, s1, s2, s3, s4, s5⟩ := chainDefinition_eq cat c plan ox oy hs hf hu pr units hun hsh
  rw [List.length_replicate] at c1 c3
  have htot : (slots (nameSizes (nameSetsOf cat plan))).length = (planNames cat plan).length := by
    rw [← slots_eq _ hNS, populate_length, names_of_plan cat plan hf]
  refine ⟨st, head, s1, ?_, ?_, ?_⟩
  · unfold chainHeader
    rw [s2, ok_bind, s3, s4, s5, ← sizes_of_plan, ← htot, ← names_of_plan cat plan hf, c1, ok_bind]
  · rw [c3, hsz, hflat]
  · have hhead : IsComment head := by
      unfold columnHeads at c1
      rw [w1, ok_bind] at c1
      have c1 := (Except.ok.inj c1).symm
      refine ⟨' ' :: (w ++ "  likelihood  burn-in    ".toList ++ crHeads nCR ++ "accept".toList), ?_, ?_⟩
      · rw [c1]
        have b3 : "accept\n".toList = "accept".toList ++ ['\n'] := by decide
        have b1 : "# ".toList = '#' :: ' ' :: [] := by decide
        rw [b3, b1]
        simp only [List.append_assoc, List.cons_append, List.nil_append]
      · simp only [List.mem_cons, List.mem_append, not_or]
        refine ⟨by decide, ⟨⟨?_, by decide⟩, cr_line _⟩, by decide⟩
        intro hc
        obtain ⟨f, f1, f2⟩ := mem_piece (· == '\t') w '\n' hc rfl
        have hff : f ∈ tabFields w := by
          unfold tabFields
          rw [List.mem_filter]
          exact ⟨f1, by simpa using List.ne_nil_of_mem f2⟩
        rw [w2] at hff
        obtain ⟨s, -, rfl⟩ := List.mem_map.1 hff
        have := slot_word _ (fun f hf' p hp => by
          obtain ⟨s, hs', hf'⟩ := List.mem_flatten.1 hf'
          exact hmem s hs' f hf' p hp) s _ f2
        simp [isBlank] at this
    have hdc := definition_comments cat pr hnum units (shownPlan ox oy plan) (by
      have : functions (shownPlan ox oy plan) = functions plan := by simp [functions, shownPlan, List.flatMap_map]
      rw [this]; exact h1)
    have et : ∀ D : List Str, (front ++ ["#\n# Model definition:\n".toList] ++ D ++ ["#\n# Column Headers\n".toList] ++ [head]).flatten =
        (front ++ ["#\n".toList, "# Model definition:\n".toList] ++ D ++ ["#\n".toList, "# Column Headers\n".toList] ++ [head]).flatten := by
      intro D
      have b1 : "#\n# Model definition:\n".toList = "#\n".toList ++ "# Model definition:\n".toList := by decide
      have b2 : "#\n# Column Headers\n".toList = "#\n".toList ++ "# Column Headers\n".toList := by decide
      rw [b1, b2]
      simp only [List.flatten_append, List.flatten_cons, List.flatten_nil, List.append_nil, List.append_assoc]
    rw [et]
    refine comment_lines _ ?_
    intro l hl
    simp only [List.mem_append, List.mem_cons, List.not_mem_nil, or_false] at hl
    rcases hl with (((hl | rfl | rfl) | hl) | rfl | rfl) | rfl
    · exact hfr l hl
    · exact ⟨[], rfl, by simp⟩
    · exact ⟨" Model definition:".toList, by decide, by decide⟩
    · exact hdc l hl
    · exact ⟨[], rfl, by simp⟩
    · exact ⟨" Column Headers".toList, by decide, by decide⟩
    · exact hhead

/-- One set with one function `F` of `twoClasses`, X0 = 150 between 140 and 160. -/
noncomputable def planFar : List (SetWritten XR) :=
  [⟨⟨.fin 150, ⟨false, true, true, .fin 140, .fin 160⟩⟩, ⟨.fin 20, ⟨true, false, false, .fin 0, .fin 0⟩⟩,
    [⟨['F'], [], [], [⟨.fin 3, ⟨false, true, true, .fin 1, .fin 9⟩⟩]⟩]⟩]

/-- Numbers are printed as single letters: `a` for 40, `b` for 140, `c` for everything else. -/
noncomputable def letters : LimFmt XR where
  f4 := fun _ => ['c']
  g7 := fun _ => ['c']
  g5 := fun _ => ['c']
  g := fun v => by
    classical
    exact if v = .fin 40 then ['a'] else if v = .fin 140 then ['b'] else ['c']

theorem letters_length (v : XR) : (letters.g v).length = 1 := by
  unfold letters
  simp only
  split
  · rfl
  · split <;> rfl

/-- A section that starts 100 pixels to the right: the definition printed is not that of the configuration file. -/
example (c : Config XR) (hs : Says c planFar) : ∃ (st : FitStart XR) (L : List Str), startFit twoClasses c 100 0 = .ok (some st) ∧
    chainDefinition letters (fun _ => none) st 100 0 = .ok L ∧
    L ≠ definition letters (fun n => (twoClasses.params n).getD []) (fun n => unitList none ((twoClasses.params n).getD []).length) planFar := by
  have hg : ∀ p : ParInfo XR, (rangeText letters.g p).length ≤ 5 := by
    intro p
    unfold rangeText
    split
    · decide
    · simp [letters_length]
  obtain ⟨st, L, h1, h2, -, -, h5⟩ := C122_limits_false twoClasses c _ [] 100 0 hs ⟨by simp, by simp⟩ (by
      intro f hf
      simp only [functions, List.flatMap_cons, List.flatMap_nil, List.append_nil, List.mem_singleton] at hf
      subst hf
      exact ⟨[['A']], ⟨by simp [twoClasses], Or.inl rfl, rfl, by decide, by decide⟩, rfl⟩) letters (fun _ => none) (by simp) (by
      intro l hl
      simp only [definition, List.map_cons, List.map_nil, List.flatMap_cons, List.flatMap_nil, List.append_nil, SetWritten.limMoved, fnDefinition, twoClasses,
        if_true, Option.getD_some, List.zip_cons_cons, unitList, Option.getD_none, List.length_cons, List.length_nil, List.replicate, List.zip_nil_left,
        List.zipWith_cons_cons, List.zipWith_nil_left, List.mem_append, List.mem_cons, List.not_mem_nil, or_false] at hl
      have hd : ∀ (n m : Str) (p : ParInfo XR), (defLine letters.g n m p).length ≤ n.length + m.length + 10 := by
        intro n m p
        have := hg p
        have t1 : "#".toList.length = 1 := by decide
        have t2 : "\t\t".toList.length = 2 := by decide
        simp only [defLine, List.length_append, t1, t2]
        omega
      have u1 : "\n".toList.length = 1 := by decide
      have u2 : "X0".toList.length = 2 := by decide
      have u3 : "Y0".toList.length = 2 := by decide
      have u4 : "#FUNCTION ".toList.length = 10 := by decide
      rcases hl with (rfl | rfl | rfl) | rfl | rfl
      · decide
      · have := hd "X0".toList (letters.f4 (.fin 150)) (Entry.limMoved 100 ⟨.fin 150, ⟨false, true, true, .fin 140, .fin 160⟩⟩).lim
        have k : (letters.f4 (.fin 150)).length = 1 := rfl
        simp only [List.length_append, u1, u2, k, Entry.limMoved] at this ⊢
        omega
      · have := hd "Y0".toList (letters.f4 (.fin 20)) (Entry.limMoved 0 ⟨.fin 20, ⟨true, false, false, .fin 0, .fin 0⟩⟩).lim
        have k : (letters.f4 (.fin 20)).length = 1 := rfl
        simp only [List.length_append, u1, u3, k, Entry.limMoved] at this ⊢
        omega
      · decide
      · have := hd ['A'] (letters.g7 (.fin 3)) ⟨false, true, true, .fin 1, .fin 9⟩
        have k : (letters.g7 (.fin 3)).length = 1 := rfl
        simp only [List.length_append, u1, k, unitComment, if_true, List.length_nil, List.length_cons] at this ⊢
        omega) 150 140 160 rfl (by norm_num)
  refine ⟨st, L, h1, h2, h5 ?_⟩
  have e1 : letters.g (.fin (140 - ((100 : Int) : ℝ))) = ['a'] := by
    simp only [letters]
    rw [if_pos (by norm_num)]
  have e2 : letters.g (.fin 140) = ['b'] := by
    simp only [letters]
    rw [if_neg (by norm_num)]
    simp
  rw [e1, e2]
  intro h
  have := List.head_eq_of_cons_eq h
  exact absurd this (by decide)

/-- Names and entries of a file with one function. -/
example : (do let h ← columnHeads [['X', '0'], ['Y', '0'], ['A']] 3 [(1, true)] 3; .ok (tokens isBlank h)) =
    (.ok ["#".toList, "X0_1".toList, "Y0_1".toList, "A_1".toList, "likelihood".toList, "burn-in".toList, "CR1".toList, "CR2".toList, "CR3".toList,
      "accept".toList] : Res (List Str)) := by decide +kernel

end Imfit
