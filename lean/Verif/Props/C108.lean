import Verif.Lemmas.Options
import Verif.Spec.Makeimage

/-!
# C108 — The options of `makeimage` are what the command line says
-/

namespace Imfit

open Spec

variable {α : Type}

theorem makeParser_eq : makeParser = parser makeDecls true := by rfl

theorem make_reports (prog : Str) (as : List Str) (hp : ∀ a ∈ as, Plain a) :
    (meaning makeDecls true none as = none → ∃ q, parseCommandLine makeParser (prog :: as) = .ok (-1, q)) ∧
    ∀ es, meaning makeDecls true none as = some es →
      ∃ q, parseCommandLine makeParser (prog :: as) = .ok (0, q) ∧ q.empty = as.isEmpty ∧ Reports makeDecls q (cmdGiven makeDecls es) := by
  rw [makeParser_eq]
  exact cmd_reports makeDecls prog as hp

/-- A number with a sign. -/
theorem asLong_integer {σ : Type} (set : Int → σ → σ) (t : Str) (h : IsInteger 2147483647 t) :
    asLong .anyInt (fun z => set (longToInt z)) t = .ok (set (integerVal t)) := by
  obtain ⟨n, h1, h2⟩ := h
  obtain ⟨c, cs, hs⟩ : ∃ c cs, (Nat.repr n).toList = c :: cs := by
    cases hs : (Nat.repr n).toList with
    | nil => exact absurd hs (repr_ne_nil n)
    | cons c cs => exact ⟨c, cs, rfl⟩
  have hc : c.isDigit = true := repr_digit n c (by simp [hs])
  have hm : c ≠ '-' := digit_ne hc (by decide)
  rcases h2 with rfl | rfl
  · have hv : integerVal (Nat.repr n).toList = n := by
      rw [← wholeVal_repr n, hs]
      unfold integerVal
      split
      · rename_i heq; exact absurd (List.cons.inj heq).1 hm
      · rfl
    have hn : notANumber .anyInt (Nat.repr n).toList = false := by rw [hs]; exact notANumber_digit _ (by decide) _ _ hc
    rw [asLong, hn, if_neg (by decide), atol_repr n (by omega), ok_bind, hv, longToInt_id _ (by omega) (by omega)]
  · have hv : integerVal ('-' :: (Nat.repr n).toList) = -n := by rw [integerVal, wholeVal_repr]
    have hn : notANumber .anyInt ('-' :: (Nat.repr n).toList) = false := by
      rw [notANumber, if_pos rfl, hs]; exact notANumber_digit _ (by decide) _ _ hc
    have ha : atol ('-' :: (Nat.repr n).toList) = .ok (-(n : Int)) := by
      have hdig := repr_digit n
      have hval : digitsVal 0 (Nat.repr n).toList = n := by
        rw [digitsVal_eq, Nat.toList_repr]; exact Nat.ofDigitChars_toDigits (by decide) (by decide)
      have h3 : (Nat.repr n).toList.takeWhile Char.isDigit = (Nat.repr n).toList := List.takeWhile_eq_self_iff.2 hdig
      have h4 : ('-' :: (Nat.repr n).toList).dropWhile isSpaceC = '-' :: (Nat.repr n).toList := by
        rw [List.dropWhile_cons_of_neg (by decide)]
      simp only [atol, h4, signSplit, h3, hval, if_true]
      rw [if_pos ⟨by omega, by omega⟩]
    rw [asLong, hn, if_neg (by decide), ha, ok_bind, hv, longToInt_id _ (by omega) (by omega)]

/-- What the blocks of `ProcessInput` do to the options. -/
def makeUpdates (num : Str → α) (g : CmdGiven) : List (MakeOpts α → MakeOpts α) :=
  [fun o => { o with config := g.args.head?.getD o.config },
    id,
    id,
    id,
    id,
    id,
    id,
    fun o => { o with printImages := bif g.has "printimage" then true else o.printImages },
    fun o => { o with saveExpanded := bif g.has "save-expanded" then true else o.saveExpanded },
    fun o => { o with normalizePSF := bif g.has "no-normalize" then false else o.normalizePSF },
    fun o => { o with subsampling := bif g.has "no-subsampling" then false else o.subsampling },
    fun o => { o with saveImage := bif g.has "nosave" then false else o.saveImage },
    fun o => { o with printFluxes := bif g.has "print-fluxes" then true else o.printFluxes, saveImage := bif g.has "print-fluxes" then false else o.saveImage },
    fun o => { o with output := (g.first "output").getD o.output },
    fun o => { o with refImage := (g.first "refimage").or o.refImage },
    fun o => { o with psf := (g.first "psf").or o.psf },
    fun o => { o with overPsfs := if g.every "overpsf" = [] then o.overPsfs else some (g.every "overpsf") },
    fun o => { o with overScales := if g.every "overpsf_scale" = [] then o.overScales else (g.every "overpsf_scale").map wholeVal },
    fun o => { o with overRegions := if g.every "overpsf_region" = [] then o.overRegions else g.every "overpsf_region" },
    fun o => { o with nColumns := ((g.first "ncols").map wholeVal).getD o.nColumns, nColumnsSet := bif (g.first "ncols").isSome then true else o.nColumnsSet },
    fun o => { o with nRows := ((g.first "nrows").map wholeVal).getD o.nRows, nRowsSet := bif (g.first "nrows").isSome then true else o.nRowsSet },
    fun o => { o with zeroPoint := ((g.first "zero-point").map num).getD o.zeroPoint },
    fun o => { o with estimationSize := ((g.first "estimation-size").map wholeVal).getD o.estimationSize },
    fun o => { o with saveFluxes := (g.first "save-fluxes").or o.saveFluxes },
    fun o => { o with functionRoot := (g.first "output-functions").or o.functionRoot },
    fun o => { o with timing := ((g.first "timing").map wholeVal).getD o.timing, saveImage := bif (g.first "timing").isSome then false else o.saveImage },
    fun o => { o with maxThreads := ((g.first "max-threads").map wholeVal).getD o.maxThreads },
    fun o => { o with debug := ((g.first "debug").map integerVal).getD o.debug },
    fun o => { o with noDims := if o.nColumns ≠ 0 ∧ o.nRows ≠ 0 then false else o.noDims }]

theorem makeSteps_updates (num : Str → α) {p : CLine} {g : CmdGiven} (v : Reports makeDecls p g) (he : p.empty = false) (hw : Working g) (hf : MakeWellFormed g) :
    List.Forall₂ (fun s u => ∀ o, s o = .ok (u o)) (makeSteps num p) (makeUpdates num g) := by
  unfold makeSteps makeUpdates
  refine .cons ?_ (.cons ?_ (.cons ?_ (.cons ?_ (.cons ?_ (.cons ?_ (.cons ?_ (.cons ?_ (.cons ?_ (.cons ?_ (.cons ?_ (.cons ?_ (.cons ?_ (.cons ?_ (.cons ?_ (.cons ?_ (.cons ?_ (.cons ?_ (.cons ?_ (.cons ?_ (.cons ?_ (.cons ?_ (.cons ?_ (.cons ?_ (.cons ?_ (.cons ?_ (.cons ?_ (.cons ?_ (.cons ?_ .nil))))))))))))))))))))))))))))
  · intro o
    rw [v.args]
    cases h : g.args with
    | nil => rfl
    | cons a as => simp [CLine.argument, v.args, h, rd_ok, ok_bind]
  · exact exitFlag_upd v "help" (by owned) (hw _ (by simp))
  · intro o; rw [he]; rfl
  · exact exitFlag_upd v "version" (by owned) (hw _ (by simp))
  · exact exitFlag_upd v "list-functions" (by owned) (hw _ (by simp))
  · exact exitFlag_upd v "list-parameters" (by owned) (hw _ (by simp))
  · exact exitFlag_upd v "sample-config" (by owned) (hw _ (by simp))
  · exact onFlag_upd v "printimage" _ _ (by owned) fun o => by cases g.has "printimage" <;> rfl
  · exact onFlag_upd v "save-expanded" _ _ (by owned) fun o => by cases g.has "save-expanded" <;> rfl
  · exact onFlag_upd v "no-normalize" _ _ (by owned) fun o => by cases g.has "no-normalize" <;> rfl
  · exact onFlag_upd v "no-subsampling" _ _ (by owned) fun o => by cases g.has "no-subsampling" <;> rfl
  · exact onFlag_upd v "nosave" _ _ (by owned) fun o => by cases g.has "nosave" <;> rfl
  · exact onFlag_upd v "print-fluxes" _ _ (by owned) fun o => by cases g.has "print-fluxes" <;> rfl
  · exact onOption_upd v "output" _ (fun t o => { o with output := t }) _ (by owned) (fun _ _ => rfl) fun o => by cases g.first "output" <;> rfl
  · exact onOption_upd v "refimage" _ (fun t o => { o with refImage := some t }) _ (by owned) (fun _ _ => rfl) fun o => by cases g.first "refimage" <;> rfl
  · exact onOption_upd v "psf" _ (fun t o => { o with psf := some t }) _ (by owned) (fun _ _ => rfl) fun o => by cases g.first "psf" <;> rfl
  · exact onQueue_upd v "overpsf" _ (fun ts o => { o with overPsfs := some ts }) _ (by owned) rfl fun o => by split <;> rfl
  · refine onQueue_upd v "overpsf_scale" _ (fun ts o => { o with overScales := ts.map wholeVal }) _ (by owned) ?_ fun o => by split <;> rfl
    rw [readScales_whole _ hf.scales, ok_bind]
  · exact onQueue_upd v "overpsf_region" _ (fun ts o => { o with overRegions := ts }) _ (by owned) rfl fun o => by split <;> rfl
  · refine onOption_upd v "ncols" _ (fun t o => { o with nColumns := wholeVal t, nColumnsSet := true }) _ (by owned) ?_ fun o => by cases g.first "ncols" <;> rfl
    intro t ht
    have hb := whole_bounds (hf.ncols t ht)
    rw [asLong_whole _ t (isWhole_mono (by decide) (hf.ncols t ht)), longToInt_id _ (by omega) (by omega)]
  · refine onOption_upd v "nrows" _ (fun t o => { o with nRows := wholeVal t, nRowsSet := true }) _ (by owned) ?_ fun o => by cases g.first "nrows" <;> rfl
    intro t ht
    have hb := whole_bounds (hf.nrows t ht)
    rw [asLong_whole _ t (isWhole_mono (by decide) (hf.nrows t ht)), longToInt_id _ (by omega) (by omega)]
  · exact onOption_upd v "zero-point" _ (fun t o => { o with zeroPoint := num t }) _ (by owned)
      (fun t ht => by rw [asReal, notANumber_real t (hf.zeroPoint t ht)]; rfl) fun o => by cases g.first "zero-point" <;> rfl
  · refine onOption_upd v "estimation-size" _ (fun t o => { o with estimationSize := wholeVal t }) _ (by owned) ?_ fun o => by cases g.first "estimation-size" <;> rfl
    intro t ht
    have hb := whole_bounds (hf.estimation t ht)
    rw [asLong_whole _ t (isWhole_mono (by decide) (hf.estimation t ht)), longToInt_id _ (by omega) (by omega)]
  · exact onOption_upd v "save-fluxes" _ (fun t o => { o with saveFluxes := some t }) _ (by owned) (fun _ _ => rfl) fun o => by cases g.first "save-fluxes" <;> rfl
  · exact onOption_upd v "output-functions" _ (fun t o => { o with functionRoot := some t }) _ (by owned) (fun _ _ => rfl) fun o => by cases g.first "output-functions" <;> rfl
  · refine onOption_upd v "timing" _ (fun t o => { o with timing := wholeVal t, saveImage := false }) _ (by owned) ?_ fun o => by cases g.first "timing" <;> rfl
    intro t ht
    have hb := whole_bounds (hf.timing t ht)
    rw [asLong_whole _ t (isWhole_mono (by decide) (hf.timing t ht)), longToInt_id _ (by omega) (by omega)]
  · refine onOption_upd v "max-threads" _ (fun t o => { o with maxThreads := wholeVal t }) _ (by owned) ?_ fun o => by cases g.first "max-threads" <;> rfl
    intro t ht
    have hb := whole_bounds (hf.threads t ht)
    rw [asLong_whole _ t (isWhole_mono (by decide) (hf.threads t ht)), longToInt_id _ (by omega) (by omega)]
  · exact onOption_upd v "debug" _ (fun t o => { o with debug := integerVal t }) _ (by owned) (fun t ht => asLong_integer (fun z (o : MakeOpts α) => { o with debug := z }) t (hf.debug t ht)) fun o => by
      cases g.first "debug" <;> rfl
  · intro o
    by_cases h : o.nColumns ≠ 0 ∧ o.nRows ≠ 0
    · simp only [if_pos h]
    · simp only [if_neg h]

variable [FP α]

theorem first_ne_zero {g : CmdGiven} {n : String} (h : ∀ t ∈ g.first n, IsWhole 2147483647 t) : ((g.first n).map wholeVal).getD 0 ≠ 0 ↔ (g.first n).isSome = true := by
  cases hg : g.first n with
  | none => simp
  | some t =>
    have := (whole_bounds (h t (by simp [hg]))).1
    simp
    omega

theorem makeUpdates_obey (num : Str → α) (cores : Int) (g : CmdGiven) (hf : MakeWellFormed g) :
    ObeysMake num cores g ((makeUpdates num g).foldl (fun o u => u o) (defaultMake cores)) where
  config := rfl
  printImages := show (bif g.has "printimage" then true else false) = _ by cases g.has "printimage" <;> rfl
  saveExpanded := show (bif g.has "save-expanded" then true else false) = _ by cases g.has "save-expanded" <;> rfl
  normalizePSF := show (bif g.has "no-normalize" then false else true) = _ by cases g.has "no-normalize" <;> rfl
  subsampling := show (bif g.has "no-subsampling" then false else true) = _ by cases g.has "no-subsampling" <;> rfl
  saveImage := show (bif (g.first "timing").isSome then false else bif g.has "print-fluxes" then false else bif g.has "nosave" then false else true) = _ by
    cases (g.first "timing").isSome <;> cases g.has "print-fluxes" <;> cases g.has "nosave" <;> rfl
  printFluxes := show (bif g.has "print-fluxes" then true else false) = _ by cases g.has "print-fluxes" <;> rfl
  output := rfl
  refImage := show (g.first "refimage").or none = _ from Option.or_none
  psf := show (g.first "psf").or none = _ from Option.or_none
  overPsfs := rfl
  overScales := show (if g.every "overpsf_scale" = [] then [] else (g.every "overpsf_scale").map wholeVal) = _ by
    split
    · rename_i h; rw [h]; rfl
    · rfl
  overRegions := show (if g.every "overpsf_region" = [] then [] else g.every "overpsf_region") = _ by
    split
    · rename_i h; rw [h]
    · rfl
  nColumns := ⟨rfl, show (bif (g.first "ncols").isSome then true else false) = _ by cases (g.first "ncols").isSome <;> rfl⟩
  nRows := ⟨rfl, show (bif (g.first "nrows").isSome then true else false) = _ by cases (g.first "nrows").isSome <;> rfl⟩
  noDims := show (if ((g.first "ncols").map wholeVal).getD 0 ≠ 0 ∧ ((g.first "nrows").map wholeVal).getD 0 ≠ 0 then false else true) = _ by
    have h1 := first_ne_zero hf.ncols
    have h2 := first_ne_zero hf.nrows
    split
    · rename_i h; rw [h1.1 h.1, h2.1 h.2]; rfl
    · rename_i h
      rw [h1, h2] at h
      cases e1 : (g.first "ncols").isSome <;> cases e2 : (g.first "nrows").isSome <;> simp_all
  zeroPoint := rfl
  estimation := rfl
  saveFluxes := show (g.first "save-fluxes").or none = _ from Option.or_none
  functionRoot := show (g.first "output-functions").or none = _ from Option.or_none
  timing := rfl
  maxThreads := rfl
  debug := rfl

/-- The command line is understood as it is meant: every setting is the one asked for, and the default otherwise. The first value of an option counts. Missing: values that are
no numbers and repeated options (as in C105), arguments with several `=` (C36), requests that exclude each other (`C108_contradiction_false`). -/
theorem C108_settings_partial (num : Str → α) (cores : Int) (prog : Str) (as : List Str) (hp : ∀ a ∈ as, Plain a) (hne : as ≠ []) (es : List Ev)
    (hm : meaning makeDecls true none as = some es) (hw : Working (cmdGiven makeDecls es)) (hf : MakeWellFormed (cmdGiven makeDecls es)) :
    ∃ o, makeInput num cores (prog :: as) = .ok o ∧ ObeysMake num cores (cmdGiven makeDecls es) o := by
  obtain ⟨q, e1, e2, v⟩ := (make_reports prog as hp).2 es hm
  have he : q.empty = false := by rw [e2]; cases as with
    | nil => exact absurd rfl hne
    | cons => rfl
  refine ⟨_, ?_, makeUpdates_obey num cores _ hf⟩
  rw [makeInput, e1, ok_bind, if_neg (show ¬ ((0 : Int) < 0) by decide), steps_ok _ _ (makeSteps_updates num v he hw hf)]

/-! ## Errors -/

omit [FP α] in
theorem makeSteps_orderly {p : CLine} {g : CmdGiven} (v : Reports makeDecls p g) (num : Str → α) : ∀ s ∈ makeSteps num p, ∀ o, Orderly (s o) := by
  unfold makeSteps
  simp only [List.forall_mem_cons, List.not_mem_nil, false_imp_iff, implies_true, and_true]
  refine ⟨?_, exitFlag_orderly v "help" (by owned), ?_, exitFlag_orderly v "version" (by owned), exitFlag_orderly v "list-functions" (by owned),
    exitFlag_orderly v "list-parameters" (by owned), exitFlag_orderly v "sample-config" (by owned), onFlag_orderly v "printimage" _ (by owned),
    onFlag_orderly v "save-expanded" _ (by owned), onFlag_orderly v "no-normalize" _ (by owned), onFlag_orderly v "no-subsampling" _ (by owned),
    onFlag_orderly v "nosave" _ (by owned), onFlag_orderly v "print-fluxes" _ (by owned),
    onOption_orderly v "output" _ (by owned) fun t => .inl ⟨_, rfl⟩, onOption_orderly v "refimage" _ (by owned) fun t => .inl ⟨_, rfl⟩,
    onOption_orderly v "psf" _ (by owned) fun t => .inl ⟨_, rfl⟩, onQueue_orderly v "overpsf" _ (by owned) fun t => .inl ⟨_, rfl⟩,
    onQueue_orderly v "overpsf_scale" _ (by owned) fun t => orderly_bind _ (fun zs (o : MakeOpts α) => { o with overScales := zs }) (readScales_orderly t),
    onQueue_orderly v "overpsf_region" _ (by owned) fun t => .inl ⟨_, rfl⟩, onOption_orderly v "ncols" _ (by owned) (asLong_orderly _ _),
    onOption_orderly v "nrows" _ (by owned) (asLong_orderly _ _), onOption_orderly v "zero-point" _ (by owned) (asReal_orderly num _ _),
    onOption_orderly v "estimation-size" _ (by owned) (asLong_orderly _ _), onOption_orderly v "save-fluxes" _ (by owned) fun t => .inl ⟨_, rfl⟩,
    onOption_orderly v "output-functions" _ (by owned) fun t => .inl ⟨_, rfl⟩, onOption_orderly v "timing" _ (by owned) (asLong_orderly _ _),
    onOption_orderly v "max-threads" _ (by owned) (asLong_orderly _ _), onOption_orderly v "debug" _ (by owned) (asLong_orderly _ _), fun o => .inl ⟨_, rfl⟩⟩
  · intro o
    split
    · rename_i h
      rw [CLine.argument, rd_ok h, ok_bind]
      exact .inl ⟨_, rfl⟩
    · exact .inl ⟨_, rfl⟩
  · intro o
    split
    · exact .inr (.inl rfl)
    · exact .inl ⟨_, rfl⟩

/-- Whatever the arguments are, nothing but a message, an error message or an integer that is too large ends the program. -/
theorem C108_orderly_partial (num : Str → α) (cores : Int) (prog : Str) (as : List Str) (hp : ∀ a ∈ as, Plain a) :
    (∃ o, makeInput num cores (prog :: as) = .ok o) ∨ makeInput num cores (prog :: as) = .error .exit ∨ makeInput num cores (prog :: as) = .error .overflow := by
  cases hm : meaning makeDecls true none as with
  | none =>
    obtain ⟨q, e⟩ := (make_reports prog as hp).1 hm
    rw [makeInput, e, ok_bind, if_pos (show (-1 : Int) < 0 by decide)]
    exact .inr (.inl rfl)
  | some es =>
    obtain ⟨q, e1, e2, v⟩ := (make_reports prog as hp).2 es hm
    rw [makeInput, e1, ok_bind, if_neg (show ¬ ((0 : Int) < 0) by decide)]
    exact steps_orderly _ (makeSteps_orderly v num) _

/-- A command line that is wrong, empty, or has a value that does not begin like a number is refused. -/
theorem C108_refused (num : Str → α) (cores : Int) (prog : Str) (as : List Str) (hp : ∀ a ∈ as, Plain a)
    (h : as = [] ∨ meaning makeDecls true none as = none ∨ ∃ es, meaning makeDecls true none as = some es ∧
      ((∃ n ∈ ["ncols", "nrows", "estimation-size", "timing", "max-threads"], ∃ t ∈ (cmdGiven makeDecls es).first n, ¬ ∃ c s, t = c :: s ∧ c ∈ "123456789".toList) ∨
       (∃ t ∈ (cmdGiven makeDecls es).first "zero-point", ¬ ∃ c s, t = c :: s ∧ (c = '.' ∨ c = '-' ∨ c ∈ "0123456789".toList)) ∨
       (∃ t ∈ (cmdGiven makeDecls es).every "overpsf_scale", ¬ ∃ c s, t = c :: s ∧ c ∈ "123456789".toList))) (o : MakeOpts α) :
    makeInput num cores (prog :: as) ≠ .ok o := by
  cases hm : meaning makeDecls true none as with
  | none =>
    obtain ⟨q, e⟩ := (make_reports prog as hp).1 hm
    rw [makeInput, e, ok_bind, if_pos (show (-1 : Int) < 0 by decide)]
    exact fun h => by cases h
  | some es =>
    obtain ⟨q, e1, e2, v⟩ := (make_reports prog as hp).2 es hm
    rw [makeInput, e1, ok_bind, if_neg (show ¬ ((0 : Int) < 0) by decide)]
    rcases h with rfl | h | ⟨es', h1, h⟩
    · refine step_bad _ 2 _ rfl ?_ _ _
      intro o r e
      rw [e2] at e
      cases e
    · rw [hm] at h; cases h
    · rw [hm] at h1
      injection h1 with h1
      subst h1
      have hL : ∀ (set : Int → MakeOpts α → MakeOpts α) t, (¬ ∃ c s, t = c :: s ∧ c ∈ "123456789".toList) → ∀ r, asLong .posInt set t ≠ .ok r := by
        intro set t ht r e
        rw [asLong, if_pos (notPosInt t ht)] at e
        cases e
      rcases h with ⟨n, hn, t, ht, h⟩ | ⟨t, ht, h⟩ | ⟨t, ht, h⟩
      · simp only [List.mem_cons, List.not_mem_nil, or_false] at hn
        rcases hn with rfl | rfl | rfl | rfl | rfl
        · exact step_bad _ 19 _ rfl (onOption_bad v "ncols" _ (by owned) t ht (hL _ t h)) _ _
        · exact step_bad _ 20 _ rfl (onOption_bad v "nrows" _ (by owned) t ht (hL _ t h)) _ _
        · exact step_bad _ 22 _ rfl (onOption_bad v "estimation-size" _ (by owned) t ht (hL _ t h)) _ _
        · exact step_bad _ 25 _ rfl (onOption_bad v "timing" _ (by owned) t ht (hL _ t h)) _ _
        · exact step_bad _ 26 _ rfl (onOption_bad v "max-threads" _ (by owned) t ht (hL _ t h)) _ _
      · refine step_bad _ 21 _ rfl (onOption_bad v "zero-point" _ (by owned) t ht ?_) _ _
        intro r e
        rw [asReal, if_pos (notAnyReal t h)] at e
        cases e
      · refine step_bad _ 17 _ rfl ?_ _ _
        intro o r e
        rw [onQueue_eq v "overpsf_scale" (by owned)] at e
        split at e
        · rename_i hn
          rw [hn] at ht
          cases ht
        · cases hz : readScales ((cmdGiven makeDecls es).every "overpsf_scale") with
          | error f => rw [hz] at e; cases e
          | ok zs => exact readScales_bad _ t ht (notPosInt t h) zs hz

/-! ## Where the code differs -/

/-- A command line. -/
def makeLine (as : List String) : List Str := ("makeimage" :: as).map String.toList

set_option maxRecDepth 100000 in
/-- Requests that exclude each other are not refused. With `--print-fluxes` or `--timing` no image is saved, even if a name for it or for images of the functions is given. -/
theorem C108_contradiction_false (num : Str → α) (cores : Int) :
    (makeInput num cores (makeLine ["m.dat", "-o", "out.fits", "--print-fluxes", "--output-functions", "f"])).map (fun o => (o.output, o.functionRoot, o.saveImage)) =
      .ok ("out.fits".toList, some "f".toList, false) ∧
    (makeInput num cores (makeLine ["m.dat", "-o", "out.fits", "--timing", "3"])).map (fun o => (o.output, o.saveImage)) = .ok ("out.fits".toList, false) := by
  exact ⟨by with_unfolding_all rfl, by with_unfolding_all rfl⟩

set_option maxRecDepth 100000 in
/-- Without a configuration file the program goes on, and looks for one with an empty name. 4294967296 columns are none. -/
theorem C108_unchecked_false (num : Str → α) (cores : Int) :
    (makeInput num cores (makeLine ["--ncols", "10"])).map (·.config) = .ok [] ∧
    (makeInput num cores (makeLine ["m.dat", "--ncols", "4294967296", "--nrows", "5"])).map (fun o => (o.nColumns, o.nColumnsSet, o.noDims)) = .ok (0, true, true) := by
  exact ⟨by with_unfolding_all rfl, by with_unfolding_all rfl⟩

/-- A command line with sizes, a zero point and a short option. -/
def exMakeLine : List Str := ["m.dat", "--ncols=100", "--nrows", "50", "-o", "x.fits", "--zero-point", "25.5", "--debug=-1"].map String.toList

def exMakeEvents : List Ev := (meaning makeDecls true none exMakeLine).getD []

theorem exMakeMeaning : meaning makeDecls true none exMakeLine = some exMakeEvents := by
  have : (meaning makeDecls true none exMakeLine).isSome = true := by decide +kernel
  obtain ⟨es, h⟩ := Option.isSome_iff_exists.1 this
  rw [exMakeEvents, h]
  rfl

theorem exMakeWorking : Working (cmdGiven makeDecls exMakeEvents) := by
  have : ["help", "version", "list-functions", "list-parameters", "sample-config"].all (fun n => (cmdGiven makeDecls exMakeEvents).has n == false) = true := by decide +kernel
  intro n hn
  simpa using List.all_eq_true.1 this n hn

theorem exMakeWell : MakeWellFormed (cmdGiven makeDecls exMakeEvents) := by
  have none_of : ∀ n, (cmdGiven makeDecls exMakeEvents).first n = none → ∀ (Q : Str → Prop), ∀ t ∈ (cmdGiven makeDecls exMakeEvents).first n, Q t := by
    intro n h Q t ht
    rw [h] at ht
    cases ht
  refine ⟨?_, ?_, ?_, none_of _ (by decide +kernel) _, none_of _ (by decide +kernel) _, none_of _ (by decide +kernel) _, ?_, ?_⟩
  · intro t ht
    rw [show (cmdGiven makeDecls exMakeEvents).first "ncols" = some "100".toList by decide +kernel] at ht
    cases ht
    exact ⟨100, by decide, by decide, by decide +kernel⟩
  · intro t ht
    rw [show (cmdGiven makeDecls exMakeEvents).first "nrows" = some "50".toList by decide +kernel] at ht
    cases ht
    exact ⟨50, by decide, by decide, by decide +kernel⟩
  · intro t ht
    rw [show (cmdGiven makeDecls exMakeEvents).first "zero-point" = some "25.5".toList by decide +kernel] at ht
    cases ht
    exact .inl ⟨"25".toList, ".5".toList, [], by decide, by unfold Digits; decide, .inr ⟨"5".toList, by decide, by unfold Digits; decide, .inl (by decide)⟩, .inl rfl⟩
  · intro t ht
    rw [show (cmdGiven makeDecls exMakeEvents).first "debug" = some "-1".toList by decide +kernel] at ht
    cases ht
    exact ⟨1, by decide, .inr (by decide +kernel)⟩
  · intro t ht
    rw [show (cmdGiven makeDecls exMakeEvents).every "overpsf_scale" = [] by decide +kernel] at ht
    cases ht

theorem exMakePlain : ∀ a ∈ exMakeLine, Plain a := by
  intro a ha
  simp only [exMakeLine, List.map_cons, List.map_nil, List.mem_cons, List.not_mem_nil, or_false] at ha
  rcases ha with rfl | rfl | rfl | rfl | rfl | rfl | rfl | rfl | rfl
  · exact fun h => absurd h (by decide)
  · exact fun _ => Or.inr ⟨"ncols".toList, "100".toList, by decide, by decide, by decide, by decide, by decide⟩
  · exact fun _ => Or.inl (by decide)
  · exact fun h => absurd h (by decide)
  · exact fun _ => Or.inl (by decide)
  · exact fun h => absurd h (by decide)
  · exact fun _ => Or.inl (by decide)
  · exact fun h => absurd h (by decide)
  · exact fun _ => Or.inr ⟨"debug".toList, "-1".toList, by decide, by decide, by decide, by decide, by decide⟩

example : ∃ o, makeInput (α := XR) (fun _ => 0) 4 ("makeimage".toList :: exMakeLine) = .ok o ∧
    o.nColumns = 100 ∧ o.nRows = 50 ∧ o.noDims = false ∧ o.output = "x.fits".toList ∧ o.debug = -1 ∧ o.saveImage = true ∧ o.config = "m.dat".toList := by
  obtain ⟨o, h1, h2⟩ := C108_settings_partial (α := XR) (fun _ => 0) 4 "makeimage".toList exMakeLine exMakePlain (by decide) exMakeEvents exMakeMeaning exMakeWorking exMakeWell
  refine ⟨o, h1, ?_, ?_, ?_, ?_, ?_, ?_, ?_⟩
  · rw [h2.nColumns.1]; decide +kernel
  · rw [h2.nRows.1]; decide +kernel
  · rw [h2.noDims]; decide +kernel
  · rw [h2.output]; decide +kernel
  · rw [h2.debug]; decide +kernel
  · rw [h2.saveImage]; decide +kernel
  · rw [h2.config]; decide +kernel

end Imfit
