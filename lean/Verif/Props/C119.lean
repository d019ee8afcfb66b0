import Verif.Lemmas.Options
import Verif.Spec.Makemulti
import Verif.Props.C37
import Verif.Props.C80b
import Verif.Props.C108

/-!
# C119 — `makemultimages` makes the images that its files describe

The options are those of the command line (`C119_settings_partial`, `C119_orderly_partial`, `C119_refused`); the size of an image is the one described, or that of its data image
(`C119_size`); every image is made from the functions of the configuration file and its own, with the parameters that belong to it, and written to a file with its number
(`C119_pictures_partial`).

It fails in these cases.

* The number of parameters is computed from a counter that has no value (`C119_count_false`). `C119_pictures_partial` is about a counter that happens to be 0.
* With two functions of its own in a set of an image a list is read behind its end (`C119_overrun_false`).
* When the image-info file cannot be understood, the program goes on, and reads descriptions that are not there (`C119_unread_false`).
* `--nosave`, `--timing`, `--output-functions`, `--save-expanded` and `--estimation-size` have no effect: the images are written (`C119_nosave_false`).
* Optional parameters of the functions are not used (`C119_optional_false`).
-/

namespace Imfit

open Spec

variable {α : Type}

theorem multiMakeParser_eq : multiMakeParser = parser multiMakeDecls true := by rfl

theorem multiMake_reports (prog : Str) (as : List Str) (hp : ∀ a ∈ as, Plain a) :
    (meaning multiMakeDecls true none as = none → ∃ q, parseCommandLine multiMakeParser (prog :: as) = .ok (-1, q)) ∧
    ∀ es, meaning multiMakeDecls true none as = some es →
      ∃ q, parseCommandLine multiMakeParser (prog :: as) = .ok (0, q) ∧ q.empty = as.isEmpty ∧ Reports multiMakeDecls q (cmdGiven multiMakeDecls es) := by
  rw [multiMakeParser_eq]
  exact cmd_reports multiMakeDecls prog as hp

/-- What the blocks of `ProcessInput` do to the options. -/
def multiMakeUpdates (g : CmdGiven) : List (MultiMakeOpts → MultiMakeOpts) :=
  [fun o => { o with config := g.args.head?.getD o.config },
    id,
    id,
    id,
    id,
    id,
    id,
    fun o => { o with saveExpanded := bif g.has "save-expanded" then true else o.saveExpanded },
    fun o => { o with subsampling := bif g.has "nosubsampling" then false else o.subsampling },
    fun o => { o with saveImage := bif g.has "nosave" then false else o.saveImage },
    fun o => { o with imageInfo := (g.first "image-info").or o.imageInfo },
    fun o => { o with root := (g.first "output").getD o.root },
    fun o => { o with estimationSize := ((g.first "estimation-size").map wholeVal).getD o.estimationSize },
    fun o => { o with functionRoot := (g.first "output-functions").or o.functionRoot },
    fun o => { o with timing := ((g.first "timing").map wholeVal).getD o.timing, saveImage := bif (g.first "timing").isSome then false else o.saveImage },
    fun o => { o with maxThreads := ((g.first "max-threads").map wholeVal).or o.maxThreads },
    fun o => { o with debug := ((g.first "debug").map integerVal).getD o.debug }]

theorem multiMakeSteps_updates {p : CLine} {g : CmdGiven} (v : Reports multiMakeDecls p g) (he : p.empty = false) (hw : Working g) (hf : MultiMakeWellFormed g) :
    List.Forall₂ (fun s u => ∀ o, s o = .ok (u o)) (multiMakeSteps p) (multiMakeUpdates g) := by
  unfold multiMakeSteps multiMakeUpdates
  refine .cons ?_ (.cons ?_ (.cons ?_ (.cons ?_ (.cons ?_ (.cons ?_ (.cons ?_ (.cons ?_ (.cons ?_ (.cons ?_ (.cons ?_ (.cons ?_ (.cons ?_ (.cons ?_ (.cons ?_ (.cons ?_ (.cons ?_ .nil))))))))))))))))
  · intro o
    rw [v.args]
    cases h : g.args with
    | nil => rfl
    | cons a as => simp [CLine.argument, v.args, h, rd_ok, ok_bind]
  · exact exitFlag_upd v "help" (by owned) (hw _ (by simp))
  · intro o; rw [he]; rfl
  · exact exitFlag_upd v "version" (by owned) (hw _ (by simp))
  · exact exitFlag_upd v "list-functions" (by owned) (hw _ (by simp))
  · exact exitFlag_upd v "list-parameters" (by owned) (hw _ (by simp))
  · exact exitFlag_upd v "sample-config" (by owned) (hw _ (by simp))
  · exact onFlag_upd v "save-expanded" _ _ (by owned) fun o => by cases g.has "save-expanded" <;> rfl
  · exact onFlag_upd v "nosubsampling" _ _ (by owned) fun o => by cases g.has "nosubsampling" <;> rfl
  · exact onFlag_upd v "nosave" _ _ (by owned) fun o => by cases g.has "nosave" <;> rfl
  · exact onOption_upd v "image-info" _ (fun t o => { o with imageInfo := some t }) _ (by owned) (fun _ _ => rfl) fun o => by cases g.first "image-info" <;> rfl
  · exact onOption_upd v "output" _ (fun t o => { o with root := t }) _ (by owned) (fun _ _ => rfl) fun o => by cases g.first "output" <;> rfl
  · refine onOption_upd v "estimation-size" _ (fun t o => { o with estimationSize := wholeVal t }) _ (by owned) ?_ fun o => by cases g.first "estimation-size" <;> rfl
    intro t ht
    have hb := whole_bounds (hf.estimation t ht)
    rw [asLong_whole _ t (isWhole_mono (by decide) (hf.estimation t ht)), longToInt_id _ (by omega) (by omega)]
  · exact onOption_upd v "output-functions" _ (fun t o => { o with functionRoot := some t }) _ (by owned) (fun _ _ => rfl) fun o => by cases g.first "output-functions" <;> rfl
  · refine onOption_upd v "timing" _ (fun t o => { o with timing := wholeVal t, saveImage := false }) _ (by owned) ?_ fun o => by cases g.first "timing" <;> rfl
    intro t ht
    have hb := whole_bounds (hf.timing t ht)
    rw [asLong_whole _ t (isWhole_mono (by decide) (hf.timing t ht)), longToInt_id _ (by omega) (by omega)]
  · refine onOption_upd v "max-threads" _ (fun t o => { o with maxThreads := some (wholeVal t) }) _ (by owned) ?_ fun o => by cases g.first "max-threads" <;> rfl
    intro t ht
    have hb := whole_bounds (hf.threads t ht)
    rw [asLong_whole _ t (isWhole_mono (by decide) (hf.threads t ht)), longToInt_id _ (by omega) (by omega)]
  · exact onOption_upd v "debug" _ (fun t o => { o with debug := integerVal t }) _ (by owned) (fun t ht => asLong_integer (fun z (o : MultiMakeOpts) => { o with debug := z }) t (hf.debug t ht)) fun o => by
      cases g.first "debug" <;> rfl

theorem multiMakeUpdates_obey (g : CmdGiven) : ObeysMultiMake g ((multiMakeUpdates g).foldl (fun o u => u o) defaultMultiMake) where
  config := rfl
  imageInfo := show (g.first "image-info").or none = _ by cases g.first "image-info" <;> rfl
  saveExpanded := show (bif g.has "save-expanded" then true else false) = _ by cases g.has "save-expanded" <;> rfl
  subsampling := show (bif g.has "nosubsampling" then false else true) = _ by cases g.has "nosubsampling" <;> rfl
  saveImage := show (bif (g.first "timing").isSome then false else bif g.has "nosave" then false else true) = _ by cases (g.first "timing").isSome <;> cases g.has "nosave" <;> rfl
  root := rfl
  estimation := rfl
  functionRoot := show (g.first "output-functions").or none = _ by cases g.first "output-functions" <;> rfl
  timing := rfl
  maxThreads := show ((g.first "max-threads").map wholeVal).or none = _ by cases g.first "max-threads" <;> rfl
  debug := rfl

/-- The command line is understood as it is meant: every setting is the one asked for, and the default otherwise. The first value of an option counts. Missing: values that are
no numbers and repeated options (as in C105), arguments with several `=` (C36). -/
theorem C119_settings_partial (prog : Str) (as : List Str) (hp : ∀ a ∈ as, Plain a) (hne : as ≠ []) (es : List Ev)
    (hm : meaning multiMakeDecls true none as = some es) (hw : Working (cmdGiven multiMakeDecls es)) (hf : MultiMakeWellFormed (cmdGiven multiMakeDecls es)) :
    ∃ o, multiMakeInput (prog :: as) = .ok o ∧ ObeysMultiMake (cmdGiven multiMakeDecls es) o := by
  obtain ⟨q, e1, e2, v⟩ := (multiMake_reports prog as hp).2 es hm
  have he : q.empty = false := by rw [e2]; cases as with
    | nil => exact absurd rfl hne
    | cons => rfl
  refine ⟨_, ?_, multiMakeUpdates_obey _⟩
  rw [multiMakeInput, e1, ok_bind, if_neg (show ¬ ((0 : Int) < 0) by decide), steps_ok _ _ (multiMakeSteps_updates v he hw hf)]

theorem multiMakeSteps_orderly {p : CLine} {g : CmdGiven} (v : Reports multiMakeDecls p g) : ∀ s ∈ multiMakeSteps p, ∀ o, Orderly (s o) := by
  unfold multiMakeSteps
  simp only [List.forall_mem_cons, List.not_mem_nil, false_imp_iff, implies_true, and_true]
  refine ⟨?_,
    exitFlag_orderly v "help" (by owned),
    ?_,
    exitFlag_orderly v "version" (by owned),
    exitFlag_orderly v "list-functions" (by owned),
    exitFlag_orderly v "list-parameters" (by owned),
    exitFlag_orderly v "sample-config" (by owned),
    onFlag_orderly v "save-expanded" _ (by owned),
    onFlag_orderly v "nosubsampling" _ (by owned),
    onFlag_orderly v "nosave" _ (by owned),
    onOption_orderly v "image-info" _ (by owned) fun t => .inl ⟨_, rfl⟩,
    onOption_orderly v "output" _ (by owned) fun t => .inl ⟨_, rfl⟩,
    onOption_orderly v "estimation-size" _ (by owned) (asLong_orderly _ _),
    onOption_orderly v "output-functions" _ (by owned) fun t => .inl ⟨_, rfl⟩,
    onOption_orderly v "timing" _ (by owned) (asLong_orderly _ _),
    onOption_orderly v "max-threads" _ (by owned) (asLong_orderly _ _),
    onOption_orderly v "debug" _ (by owned) (asLong_orderly _ _)⟩
  · intro o
    split
    · rename_i h
      rw [CLine.argument, rd_ok h, ok_bind]
      exact .inl ⟨_, rfl⟩
    · exact .inl ⟨_, rfl⟩
  · intro o
    split
    · exact .inr (.inl rfl)
    · exact .inl ⟨_, rfl⟩

/-- Whatever the arguments are, nothing but a message, an error message or an integer that is too large ends the reading of the command line. -/
theorem C119_orderly_partial (prog : Str) (as : List Str) (hp : ∀ a ∈ as, Plain a) :
    (∃ o, multiMakeInput (prog :: as) = .ok o) ∨ multiMakeInput (prog :: as) = .error .exit ∨ multiMakeInput (prog :: as) = .error .overflow := by
  cases hm : meaning multiMakeDecls true none as with
  | none =>
    obtain ⟨q, e⟩ := (multiMake_reports prog as hp).1 hm
    rw [multiMakeInput, e, ok_bind, if_pos (show (-1 : Int) < 0 by decide)]
    exact .inr (.inl rfl)
  | some es =>
    obtain ⟨q, e1, e2, v⟩ := (multiMake_reports prog as hp).2 es hm
    rw [multiMakeInput, e1, ok_bind, if_neg (show ¬ ((0 : Int) < 0) by decide)]
    exact steps_orderly _ (multiMakeSteps_orderly v) _

/-- A command line that is wrong, empty, or has a value that does not begin like a number is refused. -/
theorem C119_refused (prog : Str) (as : List Str) (hp : ∀ a ∈ as, Plain a)
    (h : as = [] ∨ meaning multiMakeDecls true none as = none ∨ ∃ es, meaning multiMakeDecls true none as = some es ∧
      ∃ n ∈ ["estimation-size", "timing", "max-threads"], ∃ t ∈ (cmdGiven multiMakeDecls es).first n, ¬ ∃ c s, t = c :: s ∧ c ∈ "123456789".toList) (o : MultiMakeOpts) :
    multiMakeInput (prog :: as) ≠ .ok o := by
  cases hm : meaning multiMakeDecls true none as with
  | none =>
    obtain ⟨q, e⟩ := (multiMake_reports prog as hp).1 hm
    rw [multiMakeInput, e, ok_bind, if_pos (show (-1 : Int) < 0 by decide)]
    exact fun h => by cases h
  | some es =>
    obtain ⟨q, e1, e2, v⟩ := (multiMake_reports prog as hp).2 es hm
    rw [multiMakeInput, e1, ok_bind, if_neg (show ¬ ((0 : Int) < 0) by decide)]
    rcases h with rfl | h | ⟨es', h1, n, hn, t, ht, h⟩
    · refine step_bad _ 2 _ rfl ?_ _ _
      intro o r e
      rw [e2] at e
      cases e
    · rw [hm] at h; cases h
    · rw [hm] at h1
      injection h1 with h1
      subst h1
      have hL : ∀ (set : Int → MultiMakeOpts → MultiMakeOpts) t, (¬ ∃ c s, t = c :: s ∧ c ∈ "123456789".toList) → ∀ r, asLong .posInt set t ≠ .ok r := by
        intro set t ht r e
        rw [asLong, if_pos (notPosInt t ht)] at e
        cases e
      simp only [List.mem_cons, List.not_mem_nil, or_false] at hn
      rcases hn with rfl | rfl | rfl
      · exact step_bad _ 12 _ rfl (onOption_bad v "estimation-size" _ (by owned) t ht (hL _ t h)) _ _
      · exact step_bad _ 14 _ rfl (onOption_bad v "timing" _ (by owned) t ht (hL _ t h)) _ _
      · exact step_bad _ 15 _ rfl (onOption_bad v "max-threads" _ (by owned) t ht (hL _ t h)) _ _

/-! ## Sizes -/

/-- The sizes of data images that can be read. -/
def dataSizeOf (w : Disk α) (f : Str) : Option (Int × Int) :=
  match getImageSize w f with
  | .ok (_, c, r, true) => some (c, r)
  | _ => none

theorem describedSize_eq (w : Disk α) (i : ImgInfo α) (s : Int × Int) (h : SizeIs (dataSizeOf w) i s) : describedSize w i = .ok s := by
  unfold SizeIs at h
  unfold describedSize
  split at h
  · rename_i hd
    subst h
    rw [if_pos hd, setupSize, if_pos ⟨by omega, by omega⟩]
  · rename_i hd
    obtain ⟨h1, h2, f, hf, hs⟩ := h
    rw [if_neg hd, hf]
    simp only
    unfold dataSizeOf at hs
    split at hs
    · rename_i w' c r hg
      rw [hg, ok_bind, if_pos rfl]
      injection hs with hs
      subst hs
      rw [setupSize, if_pos ⟨h1, h2⟩]
    · cases hs

/-- The size is the one described if both numbers are positive, else that of the data image; if there is no such size, no image is made. -/
theorem C119_size (w : Disk α) (i : ImgInfo α) : (∀ s, SizeIs (dataSizeOf w) i s → describedSize w i = .ok s) ∧ ∀ s, describedSize w i = .ok s → SizeIs (dataSizeOf w) i s := by
  refine ⟨fun s => describedSize_eq w i s, ?_⟩
  intro s h
  unfold describedSize at h
  unfold SizeIs
  split at h
  · rename_i hd
    rw [if_pos hd]
    unfold setupSize at h
    split at h <;> cases h
    rfl
  · rename_i hd
    rw [if_neg hd]
    cases hf : i.data with
    | none => rw [hf] at h; cases h
    | some f =>
      rw [hf] at h
      simp only at h
      obtain ⟨r, hg, h⟩ := bind_ok h
      obtain ⟨w', c, n, b⟩ := r
      cases b with
      | false => cases h
      | true =>
        rw [if_pos rfl] at h
        unfold setupSize at h
        split at h
        · rename_i h1
          cases h
          exact ⟨h1.1, h1.2, f, rfl, by rw [dataSizeOf, hg]⟩
        · cases h

/-! ## The images -/

/-- An image to be made: its description, its size, its own functions, and what it is to be. -/
structure Scene (α : Type) where
  info : ImgInfo α
  size : Int × Int
  own : List (SetWritten α)
  pixels : List α

/-- Description and own functions fit together, each set of them has one function, and everything is known. -/
structure Scene.Fits (cat : Catalogue) (w : Disk α) (j : Scene α) : Prop where
  size : SizeIs (dataSizeOf w) j.info j.size
  own : match j.info.functions with | none => j.own = [] | some st => OwnSays st j.own
  single : ∀ s ∈ j.own, s.fns.length = 1
  known : ∀ f ∈ functions j.own, ∃ ps, cat.params f.name = some ps ∧ ps.length = f.entries.length ∧ cat.accepts f.name = true

/-- The model of one image. -/
def builtFor (cat : Catalogue) (plan own : List (SetWritten α)) : Built :=
  ⟨(functions (plan ++ own)).map (builtOf cat fun _ => []), planFlags (plan ++ own), (planNames cat (plan ++ own)).length, planNames cat (plan ++ own)⟩

theorem buildImage_job (cat : Catalogue) (w : Disk α) (c : Config α) (plan : List (SetWritten α)) (hs : Says c plan) (hf : Filled plan)
    (hk : ∀ f ∈ functions plan, (cat.params f.name).isSome ∧ cat.accepts f.name = true) (j : Scene α) (hj : j.Fits cat w) :
    buildImage cat c j.info = .ok (some (builtFor cat plan j.own)) := by
  have ho := hj.own
  cases hi : j.info.functions with
  | none =>
    rw [hi] at ho
    simp only at ho
    have := buildImages_plan cat c plan hs hf hk [j.info] (by simp [hi])
    unfold buildImages at this
    obtain ⟨b, hb, this⟩ := bind_ok this
    rw [hb, ho]
    cases b with
    | none => cases this
    | some b =>
      simp only [buildImages, ok_bind, List.map_cons, List.map_nil, Except.ok.injEq, Option.some.injEq, List.cons.injEq, and_true] at this
      rw [this, builtFor, List.append_nil]
  | some st =>
    rw [hi] at ho
    simp only at ho
    refine C80_ownFunctions_partial cat c plan j.own j.info st hs ho hf hj.single hi ?_
    intro f h
    rw [functions_append] at h
    rcases List.mem_append.1 h with h | h
    · exact hk f h
    · obtain ⟨ps, h1, -, h2⟩ := hj.known f h
      exact ⟨by rw [h1]; rfl, h2⟩

theorem makeModels_jobs (cat : Catalogue) (w : Disk α) (c : Config α) (plan : List (SetWritten α)) (hs : Says c plan) (hf : Filled plan)
    (hk : ∀ f ∈ functions plan, (cat.params f.name).isSome ∧ cat.accepts f.name = true) (js : List (Scene α)) (hj : ∀ j ∈ js, j.Fits cat w) :
    makeModels cat w c js.length (js.map Scene.info) = .ok (js.map fun j => (j.size, builtFor cat plan j.own)) := by
  unfold makeModels
  refine loopMap_list js _ _ fun i hi => ?_
  beta_reduce
  have hm := hj js[i] (List.getElem_mem hi)
  rw [rd_ok (by simpa using hi), ok_bind, List.getElem_map, makeModel, describedSize_eq w _ _ hm.size, ok_bind, buildImage_job cat w c plan hs hf hk _ hm, ok_bind]

/-- The values of a function set by set, for a function class that is known by its number of parameters only. -/
def sizedDesc [FP α] (cat : Catalogue) (n : Str) : FnDesc α := ⟨((cat.params n).getD []).length, false, fun _ _ _ _ _ => 0⟩

/-- All values of the images. -/
def jobValues [FP α] (cat : Catalogue) (plan : List (SetWritten α)) (j : Scene α) (js : List (Scene α)) : MultiVals α where
  images := js.map fun j => ⟨j.info.pixelScale, j.info.rotation, j.info.intensityScale, j.info.x0, j.info.y0⟩
  sets := setVals (sizedDesc cat) plan
  locals := (j :: js).map fun j => writtenValues j.own

theorem paramVector_setVals (d : Str → FnDesc α) (plan : List (SetWritten α)) : paramVector (setVals d plan) = writtenValues plan := by
  unfold paramVector setVals writtenValues lines
  rw [List.map_flatMap, List.flatMap_map]
  congr 1
  funext s
  simp [List.map_flatMap, List.flatMap_map]

theorem paramVector_seen (d : Str → FnDesc α) (place : α → α → α → α → α × α) (p : α × α) (plan : List (SetWritten α)) :
    paramVector (moved (fun s t => place s.x0 s.y0 t.x0 t.y0) p (setVals d plan)) = writtenValues (seenBy (fun a b => place a.1 a.2 b.1 b.2) p plan) := by
  rw [← paramVector_setVals d]
  cases plan with
  | nil => rfl
  | cons s rest => simp [setVals, moved, seenBy, SetWritten.put, SetVals.at, Function.comp_def]

theorem planNames_append (cat : Catalogue) (a b : List (SetWritten α)) : planNames cat (a ++ b) = planNames cat a ++ planNames cat b := by simp [planNames]

theorem planNames_written (cat : Catalogue) (plan : List (SetWritten α)) (h : ∀ f ∈ functions plan, ∃ ps, cat.params f.name = some ps ∧ ps.length = f.entries.length) :
    (planNames cat plan).length = (writtenValues plan).length := by
  have hl : ∀ f ∈ functions plan, (parsOf cat f).length = f.entries.length := by
    intro f hf
    obtain ⟨ps, h1, h2⟩ := h f hf
    rw [parsOf, h1]
    exact h2
  rw [(zip_tagged cat plan hl).2, writtenValues, List.length_map]

theorem jobValues_flagged [FP α] (cat : Catalogue) (plan : List (SetWritten α)) :
    flagged (sizesOf (setVals (sizedDesc (α := α) cat) plan)) = (((functions plan).map (builtOf cat fun _ => [])).map fun f => f.pars.length).zip (planFlags plan) := by
  have e1 : sizesOf (setVals (sizedDesc (α := α) cat) plan) = (plan.map SetWritten.fns).map (List.map fun f => (parsOf cat f).length) := by
    unfold sizesOf setVals
    rw [List.map_map, List.map_map]
    apply List.map_congr_left
    intro s _
    simp [sizedDesc, parsOf, Function.comp_def]
  have e2 : (((functions plan).map (builtOf cat fun _ => [])).map fun f => f.pars.length) = (flagged (sizesOf (setVals (sizedDesc (α := α) cat) plan))).map Prod.fst := by
    rw [flagged_fst, e1, List.map_map, functions, List.flatMap_def, List.map_flatten]
    rfl
  have e3 : planFlags plan = (flagged (sizesOf (setVals (sizedDesc (α := α) cat) plan))).map Prod.snd := by
    rw [e1, flagged_snd]
    rfl
  rw [e2, e3, zip_fst_snd]

theorem jobValues_well [FP α] (cat : Catalogue) (plan : List (SetWritten α)) (hf : Filled plan)
    (h : ∀ f ∈ functions plan, ∃ ps, cat.params f.name = some ps ∧ ps.length = f.entries.length) : WellFormed (setVals (sizedDesc (α := α) cat) plan) := by
  refine ⟨by simp [setVals, hf.1], ?_⟩
  intro s hs
  obtain ⟨t, ht, rfl⟩ := List.mem_map.1 hs
  refine ⟨by simpa using hf.2 t ht, ?_⟩
  intro f hfm
  obtain ⟨g, hg, rfl⟩ := List.mem_map.1 hfm
  obtain ⟨ps, h1, h2⟩ := h g (List.mem_flatMap.2 ⟨t, ht, hg⟩)
  simp [sizedDesc, h1, h2]

/-- The values of all images, put in order. -/
theorem jobValues_vector [FP α] (cat : Catalogue) (plan : List (SetWritten α)) (j : Scene α) (js : List (Scene α)) :
    (jobValues cat plan j js).vector = ((js.map Scene.info).flatMap described).map Entry.value ++ writtenValues plan ++ (j :: js).flatMap fun j => writtenValues j.own := by
  unfold MultiVals.vector jobValues
  rw [paramVector_setVals, List.flatMap_map, List.flatMap_map, List.map_flatMap, ← List.flatMap_def]
  rfl

theorem localVals_jobs (cat : Catalogue) (w : Disk α) (js : List (Scene α)) (hj : ∀ j ∈ js, j.Fits cat w) : localVals (js.map Scene.info) = js.flatMap fun j => writtenValues j.own := by
  unfold localVals
  rw [List.flatMap_map, List.flatMap_def, List.flatMap_def]
  congr 1
  apply List.map_congr_left
  intro j h
  have ho := (hj j h).own
  cases hi : j.info.functions with
  | none => rw [hi] at ho; simp only at ho; rw [ho]; rfl
  | some st => rw [hi] at ho; simp only at ho; simp [ho.vals, writtenValues]

theorem makeReady_jobs [FP α] (cat : Catalogue) (w : Disk α) (c : Config α) (plan : List (SetWritten α)) (hs : Says c plan) (hf : Filled plan)
    (hk : ∀ f ∈ functions plan, ∃ ps, cat.params f.name = some ps ∧ ps.length = f.entries.length) (j : Scene α) (js : List (Scene α)) (hj : ∀ i ∈ j :: js, i.Fits cat w) :
    makeReady cat (some 0) c (js.length + 1) ((j :: js).map Scene.info) ((j :: js).map fun j => (builtFor cat plan j.own).total) =
      .ok ⟨holderOf (jobValues cat plan j js), (jobValues cat plan j js).locals.map fun l => (paramVector (jobValues cat plan j js).sets).length + l.length,
        (jobValues cat plan j js).vector⟩ := by
  have hadd := addFunctions_plan cat (fun _ => decide (0 < js.length + 1)) (N_IMAGE_PARAMS * (js.length + 1 - 1))
    (descLabels (js.length + 1 - 1)) plan hf [] [] (fun _ => []) (fun k hk => ⟨rfl, true, rfl⟩)
    fun f h => ⟨by obtain ⟨ps, h1, -⟩ := hk f h; rw [h1]; rfl, Or.inl rfl, by simp⟩
  obtain ⟨flag, hd⟩ := imageDesc_eq j.info (js.map Scene.info)
  have hg := generalSetup_eq (jobValues cat plan j js) (by simp [jobValues])
  have hv := jobValues_vector cat plan j js
  have hown : ∀ i ∈ j :: js, (planNames cat i.own).length = (writtenValues i.own).length := fun i hi =>
    planNames_written cat i.own fun f hf => by
      obtain ⟨ps, h1, h2, -⟩ := (hj i hi).known f hf
      exact ⟨ps, h1, h2⟩
  have e : (((((functions plan).map (builtOf cat fun _ => [])).map fun f => f.pars.length).sum : ℕ) : ℤ) + 2 * (startIndices 0 (plan.map SetWritten.fns)).length =
      (planNames cat plan).length := by
    rw [planNames_length, List.map_map, startIndices_len, List.length_map, Nat.cast_add, Nat.cast_mul]
    rfl
  have hextra : ((j :: js).map fun j => (builtFor cat plan j.own).total).map (fun n : ℕ => (n : ℤ) - (planNames cat plan).length) =
      (jobValues cat plan j js).locals.map fun l => (l.length : ℤ) := by
    unfold jobValues
    simp only
    rw [List.map_map, List.map_map]
    apply List.map_congr_left
    intro i hi
    simp only [Function.comp, builtFor, planNames_append, List.length_append, hown i hi]
    push_cast
    ring
  have hper : ((((jobValues cat plan j js).locals.map fun l => (l.length : ℤ)).map fun e => if 0 < e then e else 0).sum : ℤ) = (((j :: js).flatMap fun j => writtenValues j.own).length : ℕ) := by
    have : ∀ L : List (List α), ((L.map fun l => (l.length : ℤ)).map fun e => if 0 < e then e else 0).sum = ((L.flatten.length : ℕ) : ℤ) := by
      intro L
      induction L with
      | nil => rfl
      | cons l L ih =>
        simp only [List.map_cons, List.sum_cons, List.flatten_cons, List.length_append] at ih ⊢
        rw [ih]
        split <;> push_cast <;> omega
    rw [this, List.flatMap_def]
    rfl
  have hdl : ((js.map Scene.info).flatMap described).length = 5 * js.length := by
    rw [List.length_flatMap, List.map_map]; simp [described, Function.comp_def]; omega
  have hlen : (jobValues cat plan j js).vector.length = 5 * js.length + (planNames cat plan).length + ((j :: js).flatMap fun j => writtenValues j.own).length := by
    rw [hv, List.length_append, List.length_append, List.length_map, hdl, planNames_written cat plan hk]
  have hcounts : finalModelCounts (some 0) (((functions plan).map (builtOf cat fun _ => [])).map fun f => f.pars.length).sum
      (startIndices 0 (plan.map SetWritten.fns)).length (N_IMAGE_PARAMS * (js.length + 1 - 1) + (planNames cat plan).length)
      ((j :: js).map fun j => (builtFor cat plan j.own).total) =
      (some (((jobValues cat plan j js).vector.length : ℕ) : ℤ), (jobValues cat plan j js).locals.map fun l => (l.length : ℤ)) := by
    unfold finalModelCounts
    simp only [e, hextra, Option.map_some, hper, hlen]
    simp only [N_IMAGE_PARAMS, Nat.add_sub_cancel, Prod.mk.injEq, Option.some.injEq, and_true]
    push_cast
    ring
  have hset : (jobValues cat plan j js).sets.length = (startIndices 0 (plan.map SetWritten.fns)).length := by
    rw [startIndices_len]; simp [jobValues, setVals]
  have himg : (jobValues cat plan j js).images.length + 1 = js.length + 1 := by simp [jobValues]
  unfold makeReady
  rw [List.map_cons, hd, ok_bind, hs.names, hs.labels, hs.starts, hadd, ok_bind]
  simp only
  rw [hcounts]
  simp only [knownTotal, ok_bind, Int.toNat_natCast]
  rw [← hset, ← jobValues_flagged, ← himg]
  rw [show sizesOf (setVals (sizedDesc (α := α) cat) plan) = sizesOf (jobValues cat plan j js).sets from rfl, hg, ok_bind, himg]
  rw [← List.map_cons (f := Scene.info), List.take_of_length_le (by simp), localVals_jobs cat w _ hj]
  rw [if_neg, hv, hs.vals]
  · rfl
  · rw [hlen, hs.vals, List.length_map, List.length_map, ← show (writtenValues plan).length = (lines plan).length from List.length_map .., planNames_written cat plan hk]
    push_cast
    omega

/-- Where a set is put in a further image, given the first and another set of the first image. By `C37_similarity` this is a similarity. -/
def putIn [FP α] [FM α] (i : ImgInfo α) (a b : α × α) : α × α :=
  ((calculateOffset a.1 a.2 b.1 b.2 i.x0 i.y0 i.pixelScale i.rotation).1, (calculateOffset a.1 a.2 b.1 b.2 i.x0 i.y0 i.pixelScale i.rotation).2.1)

/-- Every image is made from the functions of all images and its own, with its description and its parameters, and written to the file with its number. In the first image the parameters of
the configuration file are taken as they are; in every other image the first set is where the description says, the other sets follow it, and everything else is the same. The parameters of
its own functions come last. The images that are written are exactly those whose file can be opened. Missing: the counter of parameters of single images is 0 before it is used, which
nothing takes care of (`C119_count_false`), and there is one function in each set of functions of a single image (`C119_overrun_false`). -/
theorem C119_pictures_partial [FP α] [FM α] (cat : Catalogue) (w : Disk α) (can : Str → Bool) (render : Renders α) (o : MultiMakeOpts) (info : Str) (hi : o.imageInfo = some info)
    (c : Config α) (plan : List (SetWritten α)) (hs : Says c plan) (hf : Filled plan)
    (hk : ∀ f ∈ functions plan, ∃ ps, cat.params f.name = some ps ∧ ps.length = f.entries.length ∧ cat.accepts f.name = true)
    (j : Scene α) (js : List (Scene α)) (hj : ∀ i ∈ j :: js, i.Fits cat w)
    (h0 : render 0 ((functions (plan ++ j.own)).map (plainFunction cat)) (1, 0, 1) (writtenValues plan ++ writtenValues j.own) = .ok j.pixels)
    (hr : ∀ k (hk : k < js.length), render (k + 1) ((functions (plan ++ js[k].own)).map (plainFunction cat))
      (js[k].info.pixelScale, js[k].info.rotation, js[k].info.intensityScale)
      (writtenValues (seenBy (putIn js[k].info) (js[k].info.x0, js[k].info.y0) plan) ++ writtenValues js[k].own) = .ok js[k].pixels) :
    multiMake cat (some 0) w can render o c (js.length + 1) ((j :: js).map Scene.info) =
      .ok (((j :: js).zipIdx.map fun p => (⟨numbered o.root p.2, p.1.size.1, p.1.size.2, p.1.pixels⟩ : Picture α)).filter fun p => can p.name) := by
  have hk1 : ∀ f ∈ functions plan, (cat.params f.name).isSome ∧ cat.accepts f.name = true := fun f h => by
    obtain ⟨ps, h1, -, h2⟩ := hk f h
    exact ⟨by rw [h1]; rfl, h2⟩
  have hk2 : ∀ f ∈ functions plan, ∃ ps, cat.params f.name = some ps ∧ ps.length = f.entries.length := fun f h => by
    obtain ⟨ps, h1, h2, -⟩ := hk f h
    exact ⟨ps, h1, h2⟩
  have hms := makeModels_jobs cat w c plan hs hf hk1 (j :: js) hj
  have hrd := makeReady_jobs cat w c plan hs hf hk2 j js hj
  obtain ⟨hh, hsz, hge, ha0, ha1⟩ := C37_assembly (jobValues cat plan j js) (jobValues_well cat plan hf hk2) (by simp [jobValues])
  rw [generalSetup_eq _ (by simp [jobValues])] at hge
  simp only [Except.ok.injEq, Prod.mk.injEq] at hge
  obtain ⟨rfl, rfl⟩ := hge
  have hp : paramVector (jobValues cat plan j js).sets = writtenValues plan := paramVector_setVals _ plan
  have hone : ∀ k (hk : k < (j :: js).length), makeOne render ⟨holderOf (jobValues cat plan j js),
      (jobValues cat plan j js).locals.map fun l => (paramVector (jobValues cat plan j js).sets).length + l.length, (jobValues cat plan j js).vector⟩
      (builtFor cat plan (j :: js)[k].own).fns k = .ok (j :: js)[k].pixels := by
    intro k hk
    have harr : ((jobValues cat plan j js).locals.map fun l => (paramVector (jobValues cat plan j js).sets).length + l.length)[k]? =
        some ((writtenValues plan).length + (writtenValues (j :: js)[k].own).length) := by
      rw [hp, jobValues, List.map_map, List.getElem?_map, List.getElem?_eq_getElem hk]
      rfl
    have hlk : (jobValues cat plan j js).locals[k]? = some (writtenValues (j :: js)[k].own) := by
      rw [jobValues, List.getElem?_map, List.getElem?_eq_getElem hk]
      rfl
    have hrdk : rd ((jobValues cat plan j js).locals.map fun l => (paramVector (jobValues cat plan j js).sets).length + l.length) k =
        .ok ((writtenValues plan).length + (writtenValues (j :: js)[k].own).length) := by
      unfold rd
      rw [harr]
    unfold makeOne
    simp only
    cases k with
    | zero =>
      rw [show imageDesc (jobValues cat plan j js).vector 0 = .ok (1, 0, 1) from rfl, ok_bind, hrdk, ok_bind,
        ha0 _ (List.replicate ((writtenValues plan).length + (writtenValues (j :: js)[0].own).length) 0) hlk (by simp only [harr, List.length_replicate]), ok_bind, hp]
      exact h0
    | succ k =>
      have hk' : k < js.length := by simpa using hk
      have him : (jobValues cat plan j js).images[k]? = some ⟨js[k].info.pixelScale, js[k].info.rotation, js[k].info.intensityScale, js[k].info.x0, js[k].info.y0⟩ := by
        rw [jobValues, List.getElem?_map, List.getElem?_eq_getElem hk']
        rfl
      rw [(C37_description _ k _ him).1, ok_bind, hrdk, ok_bind,
        ha1 k _ _ (List.replicate ((writtenValues plan).length + (writtenValues (j :: js)[k + 1].own).length) 0) him hlk (by simp only [harr, List.length_replicate]), ok_bind]
      have := paramVector_seen (sizedDesc cat) (fun a b d e => ((calculateOffset a b d e js[k].info.x0 js[k].info.y0 js[k].info.pixelScale js[k].info.rotation).1,
        (calculateOffset a b d e js[k].info.x0 js[k].info.y0 js[k].info.pixelScale js[k].info.rotation).2.1)) (js[k].info.x0, js[k].info.y0) plan
      simp only [jobValues]
      rw [this]
      exact hr k hk'
  unfold multiMake
  rw [hi]
  simp only
  rw [List.length_cons] at hms
  rw [hms, ok_bind, List.map_map, show ((fun m : (ℤ × ℤ) × Built => m.2.total) ∘ fun j : Scene α => (j.size, builtFor cat plan j.own)) = fun j => (builtFor cat plan j.own).total from rfl,
    hrd, ok_bind, loopMap_of_forall _ _ ((j :: js).zipIdx.map fun p => (⟨numbered o.root p.2, p.1.size.1, p.1.size.2, p.1.pixels⟩ : Picture α)) (by simp), ok_bind]
  intro k hk
  have hk' : k < (j :: js).length := by simpa using hk
  rw [rd_ok (by simpa using hk'), ok_bind, List.getElem_map]
  simp only
  rw [hone k hk', ok_bind]
  simp only [List.getElem_map, List.getElem_zipIdx, Nat.zero_add]
  congr 2
  simp only [numbered, multiFile, List.append_assoc]
  rfl

/-! ## Where the code differs -/

/-- As the program is, the number of parameters is computed from a counter without a value. -/
theorem C119_count_false [FP α] [FM α] (cat : Catalogue) (w : Disk α) (can : Str → Bool) (render : Renders α) (o : MultiMakeOpts) (info : Str) (hi : o.imageInfo = some info)
    (c : Config α) (plan : List (SetWritten α)) (hs : Says c plan) (hf : Filled plan)
    (hk : ∀ f ∈ functions plan, ∃ ps, cat.params f.name = some ps ∧ ps.length = f.entries.length ∧ cat.accepts f.name = true)
    (j : Scene α) (js : List (Scene α)) (hj : ∀ i ∈ j :: js, i.Fits cat w) :
    multiMake cat none w can render o c (js.length + 1) ((j :: js).map Scene.info) = .error .uninit := by
  have hk1 : ∀ f ∈ functions plan, (cat.params f.name).isSome ∧ cat.accepts f.name = true := fun f h => by
    obtain ⟨ps, h1, -, h2⟩ := hk f h
    exact ⟨by rw [h1]; rfl, h2⟩
  have hms := makeModels_jobs cat w c plan hs hf hk1 (j :: js) hj
  have hadd := addFunctions_plan cat (fun _ => decide (0 < js.length + 1)) (N_IMAGE_PARAMS * (js.length + 1 - 1))
    (descLabels (js.length + 1 - 1)) plan hf [] [] (fun _ => []) (fun k hk => ⟨rfl, true, rfl⟩)
    fun f h => ⟨(hk1 f h).1, Or.inl rfl, by simp⟩
  obtain ⟨flag, hd⟩ := imageDesc_eq j.info (js.map Scene.info)
  unfold multiMake
  rw [hi]
  simp only
  rw [List.length_cons] at hms
  rw [hms, ok_bind]
  unfold makeReady
  rw [List.map_cons (f := Scene.info), hd, ok_bind, hs.names, hs.labels, hs.starts, hadd, ok_bind]
  rfl

/-- If fewer images have been described than counted, as after an error in the file, then no image is made; and if those described are in order, a description that is not there is read. -/
theorem C119_unread_false [FP α] [FM α] (cat : Catalogue) (per0 : Option Int) (w : Disk α) (can : Str → Bool) (render : Renders α) (o : MultiMakeOpts) (info : Str) (hi : o.imageInfo = some info)
    (c : Config α) (plan : List (SetWritten α)) (hs : Says c plan) (hf : Filled plan)
    (hk : ∀ f ∈ functions plan, (cat.params f.name).isSome ∧ cat.accepts f.name = true)
    (js : List (Scene α)) (hj : ∀ i ∈ js, i.Fits cat w) (n : Nat) (hn : js.length < n) :
    multiMake cat per0 w can render o c n (js.map Scene.info) = .error .oob := by
  have hms : makeModels cat w c n (js.map Scene.info) = .error .oob := by
    have h1 := makeModels_jobs cat w c plan hs hf hk js hj
    unfold makeModels at h1 ⊢
    obtain ⟨m, rfl⟩ : ∃ m, n = js.length + 1 + m := ⟨n - (js.length + 1), by omega⟩
    clear hn
    have h2 : loopMap (js.length + 1) (fun k => do
        let i ← rd (js.map Scene.info) k
        makeModel cat w c i) = .error .oob := by
      rw [loopMap, h1, ok_bind, rd_oob (by simp), error_bind, error_bind]
    induction m with
    | zero => exact h2
    | succ m ih => rw [← Nat.add_assoc, loopMap, ih, error_bind]
  unfold multiMake
  rw [hi]
  simp only
  rw [hms, error_bind]

/-- The requests to save no images, to measure time, to save images of the functions, to save the image with its margins and the size for estimates have no effect. -/
theorem C119_nosave_false [FP α] [FM α] (cat : Catalogue) (per0 : Option Int) (w : Disk α) (can : Str → Bool) (render : Renders α) (c : Config α) (n : Nat) (infos : List (ImgInfo α))
    (g g' : CmdGiven) (o o' : MultiMakeOpts) (ho : ObeysMultiMake g o) (ho' : ObeysMultiMake g' o') (hi : g.first "image-info" = g'.first "image-info")
    (hr : g.first "output" = g'.first "output") : multiMake cat per0 w can render o c n infos = multiMake cat per0 w can render o' c n infos := by
  unfold multiMake
  rw [ho.imageInfo, ho'.imageInfo, hi, ho.root, ho'.root, hr]

/-- Optional parameters of the configuration file are not used: none of the functions of an image is given any. -/
theorem C119_optional_false (cat : Catalogue) (w : Disk α) (c : Config α) (n : Nat) (infos : List (ImgInfo α)) (ms : List ((Int × Int) × Built)) (h : makeModels cat w c n infos = .ok ms) :
    ∀ m ∈ ms, ∀ f ∈ m.2.fns, f.extra = [] := by
  have hadd : ∀ acc t l names labels starts flags b, addFunctions cat acc t l names labels starts [] flags = .ok (some b) → ∀ f ∈ b.fns, f.extra = [] := by
    intro acc t l names labels starts flags b hb
    unfold addFunctions at hb
    obtain ⟨fs, hfs, hb⟩ := bind_ok hb
    cases fs with
    | none => cases hb
    | some fs =>
      simp only at hb
      obtain ⟨dd, -, hb⟩ := bind_ok hb
      simp only [Except.ok.injEq, Option.some.injEq] at hb
      rw [← hb]
      exact addLoop_no_extra cat _ _ _ _ _ _ hfs
  unfold makeModels at h
  induction n generalizing ms with
  | zero => cases h; simp
  | succ n ih =>
    rw [loopMap] at h
    obtain ⟨l, h1, h⟩ := bind_ok h
    obtain ⟨m, h2, h⟩ := bind_ok h
    cases h
    intro m' hm'
    rcases List.mem_append.1 hm' with hm' | hm'
    · exact ih l h1 m' hm'
    · rw [List.mem_singleton] at hm'
      subst hm'
      obtain ⟨i, -, h2⟩ := bind_ok h2
      unfold makeModel at h2
      obtain ⟨s, -, h2⟩ := bind_ok h2
      obtain ⟨b, hb, h2⟩ := bind_ok h2
      cases b with
      | none => cases h2
      | some b =>
        cases h2
        unfold buildImage at hb
        cases hfn : i.functions with
        | none => rw [hfn] at hb; exact hadd _ _ _ _ _ _ _ _ hb
        | some st =>
          rw [hfn] at hb
          simp only at hb
          obtain ⟨ls, -, hb⟩ := bind_ok hb
          exact hadd _ _ _ _ _ _ _ _ hb

/-- Settings with an image-info file. -/
def exMultiMake : MultiMakeOpts := { defaultMultiMake with imageInfo := some "info.dat".toList }

/-- A disk without files. -/
def bareDisk : Disk XR := ⟨fun _ => none, 0, []⟩

/-- A renderer that shows the parameters. -/
def showing : Renders XR := fun _ _ _ p => .ok p

/-- With two functions in a set of its own, the start indices of an image are read behind their end. -/
theorem C119_overrun_false :
    (multiMake oneClass (some 0) bareDisk (fun _ => true) showing exMultiMake oneSet 2 ((ownFunctions 2).map fun i => { i with nColumns := 5, nRows := 4 })).map List.length = .error .oob := by
  decide +kernel

noncomputable def exPlan : List (SetWritten XR) := [⟨⟨.fin 1, ParInfo.zero⟩, ⟨.fin 2, ParInfo.zero⟩, [⟨['F'], [], [(['a'], ['b'])], [⟨.fin 3, ParInfo.zero⟩]⟩]⟩]

/-- Two images of different sizes, the second with a function of its own. -/
noncomputable def exScenes : Scene XR × Scene XR :=
  (⟨{ ImgInfo.init with nColumns := 5, nRows := 4 }, (5, 4), [], [.fin 1, .fin 2, .fin 3]⟩,
   ⟨{ ImgInfo.init with nColumns := 7, nRows := 6, x0 := .fin 10, y0 := .fin 20, functions :=
      (some ⟨[['F']], [[]], [.fin 4, .fin 5, .fin 6], [ParInfo.zero, ParInfo.zero, ParInfo.zero], [0], false, [], 1, false⟩) }, (7, 6),
    [⟨⟨.fin 4, ParInfo.zero⟩, ⟨.fin 5, ParInfo.zero⟩, [⟨['F'], [], [], [⟨.fin 6, ParInfo.zero⟩]⟩]⟩], [.fin 10, .fin 20, .fin 3, .fin 4, .fin 5, .fin 6]⟩)

/-- The hypotheses can be met. -/
example : multiMake oneClass (some 0) bareDisk (fun _ => true) showing exMultiMake oneSet 2 [exScenes.1.info, exScenes.2.info] =
    .ok [⟨"modelimage_multi_0.fits".toList, 5, 4, [.fin 1, .fin 2, .fin 3]⟩, ⟨"modelimage_multi_1.fits".toList, 7, 6, [.fin 10, .fin 20, .fin 3, .fin 4, .fin 5, .fin 6]⟩] := by
  have h := C119_pictures_partial oneClass bareDisk (fun _ => true) showing exMultiMake "info.dat".toList rfl oneSet exPlan ⟨rfl, rfl, rfl, rfl, rfl, rfl⟩
    ⟨by simp [exPlan], by simp [exPlan]⟩ (by simp [functions, exPlan, oneClass]) exScenes.1 [exScenes.2] (by
      intro i hi
      simp only [List.mem_cons, List.not_mem_nil, or_false] at hi
      rcases hi with rfl | rfl
      · exact ⟨by simp [SizeIs, exScenes], rfl, by simp [exScenes], by simp [exScenes, functions]⟩
      · exact ⟨by simp [SizeIs, exScenes], (show OwnSays _ _ from ⟨rfl, rfl, rfl, rfl, rfl⟩), by simp [exScenes], by simp [exScenes, functions, oneClass]⟩) rfl (by
      intro k hk
      have : k = 0 := by simpa using hk
      subst this
      rfl)
  rw [show [exScenes.1.info, exScenes.2.info] = [exScenes.1, exScenes.2].map Scene.info from rfl]
  exact h.trans rfl

/-- A command line. -/
def exMultiLine : List Str := ["model.dat", "--image-info", "info.dat", "-o", "pic", "--nosave"].map String.toList

def exMultiEvents : List Ev := (meaning multiMakeDecls true none exMultiLine).getD []

theorem exMultiMeaning : meaning multiMakeDecls true none exMultiLine = some exMultiEvents := by
  have : (meaning multiMakeDecls true none exMultiLine).isSome = true := by decide +kernel
  obtain ⟨es, h⟩ := Option.isSome_iff_exists.1 this
  rw [exMultiEvents, h]
  rfl

/-- The settings, and that `--nosave` is set, without effect. -/
example : ∃ o, multiMakeInput ("makemultimages".toList :: exMultiLine) = .ok o ∧ o.config = "model.dat".toList ∧ o.imageInfo = some "info.dat".toList ∧ o.root = "pic".toList ∧
    o.saveImage = false ∧ multiMake oneClass (some 0) bareDisk (fun _ => true) showing o oneSet 2 [exScenes.1.info, exScenes.2.info] =
    multiMake oneClass (some 0) bareDisk (fun _ => true) showing { exMultiMake with root := "pic".toList } oneSet 2 [exScenes.1.info, exScenes.2.info] := by
  have hw : Working (cmdGiven multiMakeDecls exMultiEvents) := by
    have : ["help", "version", "list-functions", "list-parameters", "sample-config"].all (fun n => (cmdGiven multiMakeDecls exMultiEvents).has n == false) = true := by decide +kernel
    intro n hn
    simpa using List.all_eq_true.1 this n hn
  have none_of : ∀ n, (cmdGiven multiMakeDecls exMultiEvents).first n = none → ∀ (Q : Str → Prop), ∀ t ∈ (cmdGiven multiMakeDecls exMultiEvents).first n, Q t := by
    intro n h Q t ht
    rw [h] at ht
    cases ht
  have hp : ∀ a ∈ exMultiLine, Plain a := by
    intro a ha
    simp only [exMultiLine, List.map_cons, List.map_nil, List.mem_cons, List.not_mem_nil, or_false] at ha
    rcases ha with rfl | rfl | rfl | rfl | rfl | rfl
    · exact fun h => absurd h (by decide)
    · exact fun _ => Or.inl (by decide)
    · exact fun h => absurd h (by decide)
    · exact fun _ => Or.inl (by decide)
    · exact fun h => absurd h (by decide)
    · exact fun _ => Or.inl (by decide)
  obtain ⟨o, h1, h2⟩ := C119_settings_partial "makemultimages".toList exMultiLine hp (by decide) exMultiEvents exMultiMeaning hw
    ⟨none_of _ (by decide +kernel) _, none_of _ (by decide +kernel) _, none_of _ (by decide +kernel) _, none_of _ (by decide +kernel) _⟩
  have hi : o.imageInfo = some "info.dat".toList := by rw [h2.imageInfo]; decide +kernel
  have hr : o.root = "pic".toList := by rw [h2.root]; decide +kernel
  refine ⟨o, h1, ?_, hi, hr, ?_, ?_⟩
  · rw [h2.config]; decide +kernel
  · rw [h2.saveImage]; decide +kernel
  · unfold multiMake
    rw [hi, hr]
    rfl

end Imfit
