import Verif.Lemmas.Options

/-!
# C105 — The options of `imfit` are what the command line says
-/

namespace Imfit

open Spec

variable {α : Type}

theorem imfitParser_eq : imfitParser = parser imfitDecls true := by rfl

theorem imfit_reports (prog : Str) (as : List Str) (hp : ∀ a ∈ as, Plain a) :
    (meaning imfitDecls true none as = none → ∃ q, parseCommandLine imfitParser (prog :: as) = .ok (-1, q)) ∧
    ∀ es, meaning imfitDecls true none as = some es →
      ∃ q, parseCommandLine imfitParser (prog :: as) = .ok (0, q) ∧ q.empty = as.isEmpty ∧ Reports imfitDecls q (cmdGiven imfitDecls es) := by
  rw [imfitParser_eq]
  exact cmd_reports imfitDecls prog as hp

/-- What the blocks of `ProcessInput` do to the options. -/
def inputUpdates (num : Str → α) (g : CmdGiven) : List (ImfitOpts α → ImfitOpts α) :=
  [fun o => { o with image := g.args.head?.or o.image },
    id, id, id, id, id, id,
    fun o => { o with printImages := bif g.has "printimage" then true else o.printImages },
    fun o => { o with statOnly := bif g.has "chisquare-only" then true else o.statOnly },
    fun o => { o with statOnly := bif g.has "fitstat-only" then true else o.statOnly },
    fun o => { o with modelErrors := bif g.has "model-errors" then true else o.modelErrors },
    fun o => { o with cash := bif g.has "cashstat" then true else o.cash },
    fun o => { o with mlr := bif g.has "poisson-mlr" then true else o.mlr },
    fun o => { o with mlr := bif g.has "mlr" then true else o.mlr },
    fun o => { o with solver := bif g.has "nm" then 3 else o.solver },
    fun o => { o with solver := bif (g.first "nlopt").isSome then 5 else o.solver, nloptName := (g.first "nlopt").getD o.nloptName },
    fun o => { o with solver := bif g.has "de" then 2 else o.solver },
    fun o => { o with solver := bif g.has "de-lhs" then 2 else o.solver, useLHS := bif g.has "de-lhs" then true else o.useLHS },
    fun o => { o with normalizePSF := bif g.has "no-normalize" then false else o.normalizePSF },
    fun o => { o with subsampling := bif g.has "no-subsampling" then false else o.subsampling },
    fun o => { o with verbose := bif g.has "silent" then -1 else o.verbose },
    fun o => { o with verbose := bif g.has "quiet" then 0 else o.verbose },
    fun o => { o with verbose := bif g.has "loud" then 2 else o.verbose },
    fun o => { o with errorType := bif g.has "errors-are-variances" then WEIGHTS_ARE_VARIANCES else o.errorType },
    fun o => { o with errorType := bif g.has "errors-are-weights" then WEIGHTS_ARE_WEIGHTS else o.errorType },
    fun o => { o with maskFormat := bif g.has "mask-zero-is-bad" then MASK_ZERO_IS_BAD else o.maskFormat },
    fun o => { o with configFile := (g.first "config").getD o.configFile },
    fun o => { o with noise := (g.first "noise").or o.noise },
    fun o => { o with psf := (g.first "psf").or o.psf },
    fun o => { o with overPsfs := if g.every "overpsf" = [] then o.overPsfs else some (g.every "overpsf") },
    fun o => { o with overScales := if g.every "overpsf_scale" = [] then o.overScales else (g.every "overpsf_scale").map wholeVal },
    fun o => { o with overRegions := if g.every "overpsf_region" = [] then o.overRegions else g.every "overpsf_region" },
    fun o => { o with mask := (g.first "mask").or o.mask },
    fun o => { o with saveModel := (g.first "save-model").or o.saveModel },
    fun o => { o with saveResidual := (g.first "save-residual").or o.saveResidual },
    fun o => { o with saveWeights := (g.first "save-weights").or o.saveWeights },
    fun o => { o with saveParams := (g.first "save-params").getD o.saveParams },
    fun o => { o with sky := ((g.first "sky").map num).getD o.sky, skySet := bif (g.first "sky").isSome then true else o.skySet },
    fun o => { o with gain := ((g.first "gain").map num).getD o.gain, gainSet := bif (g.first "gain").isSome then true else o.gainSet },
    fun o => { o with readNoise := ((g.first "readnoise").map num).getD o.readNoise, readNoiseSet := bif (g.first "readnoise").isSome then true else o.readNoiseSet },
    fun o => { o with expTime := ((g.first "exptime").map num).getD o.expTime, expTimeSet := bif (g.first "exptime").isSome then true else o.expTimeSet },
    fun o => { o with nCombined := ((g.first "ncombined").map wholeVal).getD o.nCombined, nCombinedSet := bif (g.first "ncombined").isSome then true else o.nCombinedSet },
    fun o => { o with ftol := ((g.first "ftol").map num).getD o.ftol },
    fun o => { o with bootstrap := ((g.first "bootstrap").map wholeVal).or o.bootstrap },
    fun o => { o with saveBootstrap := (g.first "save-bootstrap").or o.saveBootstrap },
    fun o => { o with maxThreads := ((g.first "max-threads").map wholeVal).getD o.maxThreads },
    fun o => { o with seed := ((g.first "seed").map wholeVal).getD o.seed }]

theorem inputSteps_updates (num : Str → α) {p : CLine} {g : CmdGiven} (v : Reports imfitDecls p g) (he : p.empty = false) (hw : Working g) (hf : WellFormed g) :
    List.Forall₂ (fun s u => ∀ o, s o = .ok (u o)) (inputSteps num p) (inputUpdates num g) := by
  unfold inputSteps inputUpdates
  refine .cons ?_ (.cons ?_ (.cons ?_ (.cons ?_ (.cons ?_ (.cons ?_ (.cons ?_ (.cons ?_ (.cons ?_ (.cons ?_ (.cons ?_ (.cons ?_ (.cons ?_ (.cons ?_ (.cons ?_ (.cons ?_ (
    .cons ?_ (.cons ?_ (.cons ?_ (.cons ?_ (.cons ?_ (.cons ?_ (.cons ?_ (.cons ?_ (.cons ?_ (.cons ?_ (.cons ?_ (.cons ?_ (.cons ?_ (.cons ?_ (.cons ?_ (.cons ?_ (
    .cons ?_ (.cons ?_ (.cons ?_ (.cons ?_ (.cons ?_ (.cons ?_ (.cons ?_ (.cons ?_ (.cons ?_ (.cons ?_ (.cons ?_ (.cons ?_ (.cons ?_ (.cons ?_ (.cons ?_ .nil
    ))))))))))))))))))))))))))))))))))))))))))))))
  · intro o
    rw [v.args]
    cases h : g.args with
    | nil => rfl
    | cons a as => simp [CLine.argument, v.args, h, rd_ok, ok_bind]
  · exact exitFlag_upd v "help" (by owned) (hw _ (by simp))
  · intro o; rw [he]; rfl
  · exact exitFlag_upd v "version" (by owned) (hw _ (by simp))
  · exact exitFlag_upd v "list-functions" (by owned) (hw _ (by simp))
  · exact exitFlag_upd v "list-parameters" (by owned) (hw _ (by simp))
  · exact exitFlag_upd v "sample-config" (by owned) (hw _ (by simp))
  · exact onFlag_upd v "printimage" _ _ (by owned) fun o => by cases g.has "printimage" <;> rfl
  · exact onFlag_upd v "chisquare-only" _ _ (by owned) fun o => by cases g.has "chisquare-only" <;> rfl
  · exact onFlag_upd v "fitstat-only" _ _ (by owned) fun o => by cases g.has "fitstat-only" <;> rfl
  · exact onFlag_upd v "model-errors" _ _ (by owned) fun o => by cases g.has "model-errors" <;> rfl
  · exact onFlag_upd v "cashstat" _ _ (by owned) fun o => by cases g.has "cashstat" <;> rfl
  · exact onFlag_upd v "poisson-mlr" _ _ (by owned) fun o => by cases g.has "poisson-mlr" <;> rfl
  · exact onFlag_upd v "mlr" _ _ (by owned) fun o => by cases g.has "mlr" <;> rfl
  · exact onFlag_upd v "nm" _ _ (by owned) fun o => by cases g.has "nm" <;> rfl
  · refine onOption_upd v "nlopt" _ (fun t o => { o with solver := GENERIC_NLOPT_SOLVER, nloptName := t }) _ (by owned) ?_ fun o => by cases g.first "nlopt" <;> rfl
    intro t ht
    have hv : validNLOptSolverName t = true := by
      have := hf.nlopt t ht
      simp only [List.map_cons, List.map_nil, List.mem_cons, List.not_mem_nil, or_false] at this
      rcases this with rfl | rfl | rfl | rfl | rfl | rfl <;> decide
    rw [if_pos hv]
  · exact onFlag_upd v "de" _ _ (by owned) fun o => by cases g.has "de" <;> rfl
  · exact onFlag_upd v "de-lhs" _ _ (by owned) fun o => by cases g.has "de-lhs" <;> rfl
  · exact onFlag_upd v "no-normalize" _ _ (by owned) fun o => by cases g.has "no-normalize" <;> rfl
  · exact onFlag_upd v "no-subsampling" _ _ (by owned) fun o => by cases g.has "no-subsampling" <;> rfl
  · exact onFlag_upd v "silent" _ _ (by owned) fun o => by cases g.has "silent" <;> rfl
  · exact onFlag_upd v "quiet" _ _ (by owned) fun o => by cases g.has "quiet" <;> rfl
  · exact onFlag_upd v "loud" _ _ (by owned) fun o => by cases g.has "loud" <;> rfl
  · exact onFlag_upd v "errors-are-variances" _ _ (by owned) fun o => by cases g.has "errors-are-variances" <;> rfl
  · exact onFlag_upd v "errors-are-weights" _ _ (by owned) fun o => by cases g.has "errors-are-weights" <;> rfl
  · exact onFlag_upd v "mask-zero-is-bad" _ _ (by owned) fun o => by cases g.has "mask-zero-is-bad" <;> rfl
  · exact onOption_upd v "config" _ (fun t o => { o with configFile := t }) _ (by owned) (fun _ _ => rfl) fun o => by cases g.first "config" <;> rfl
  · exact onOption_upd v "noise" _ (fun t o => { o with noise := some t }) _ (by owned) (fun _ _ => rfl) fun o => by cases g.first "noise" <;> rfl
  · exact onOption_upd v "psf" _ (fun t o => { o with psf := some t }) _ (by owned) (fun _ _ => rfl) fun o => by cases g.first "psf" <;> rfl
  · exact onQueue_upd v "overpsf" _ (fun ts o => { o with overPsfs := some ts }) _ (by owned) rfl fun o => by split <;> rfl
  · refine onQueue_upd v "overpsf_scale" _ (fun ts o => { o with overScales := ts.map wholeVal }) _ (by owned) ?_ fun o => by split <;> rfl
    rw [readScales_whole _ hf.scales, ok_bind]
  · exact onQueue_upd v "overpsf_region" _ (fun ts o => { o with overRegions := ts }) _ (by owned) rfl fun o => by split <;> rfl
  · exact onOption_upd v "mask" _ (fun t o => { o with mask := some t }) _ (by owned) (fun _ _ => rfl) fun o => by cases g.first "mask" <;> rfl
  · exact onOption_upd v "save-model" _ (fun t o => { o with saveModel := some t }) _ (by owned) (fun _ _ => rfl) fun o => by cases g.first "save-model" <;> rfl
  · exact onOption_upd v "save-residual" _ (fun t o => { o with saveResidual := some t }) _ (by owned) (fun _ _ => rfl) fun o => by cases g.first "save-residual" <;> rfl
  · exact onOption_upd v "save-weights" _ (fun t o => { o with saveWeights := some t }) _ (by owned) (fun _ _ => rfl) fun o => by cases g.first "save-weights" <;> rfl
  · exact onOption_upd v "save-params" _ (fun t o => { o with saveParams := t }) _ (by owned) (fun _ _ => rfl) fun o => by cases g.first "save-params" <;> rfl
  · exact onOption_upd v "sky" _ (fun t o => { o with sky := num t, skySet := true }) _ (by owned)
      (fun t ht => by rw [asReal, notANumber_real t (hf.sky t ht)]; rfl) fun o => by cases g.first "sky" <;> rfl
  · exact onOption_upd v "gain" _ (fun t o => { o with gain := num t, gainSet := true }) _ (by owned)
      (fun t ht => by rw [asReal, (notANumber_unsigned t (hf.gain t ht)).1]; rfl) fun o => by cases g.first "gain" <;> rfl
  · exact onOption_upd v "readnoise" _ (fun t o => { o with readNoise := num t, readNoiseSet := true }) _ (by owned)
      (fun t ht => by rw [asReal, (notANumber_unsigned t (hf.readnoise t ht)).1]; rfl) fun o => by cases g.first "readnoise" <;> rfl
  · exact onOption_upd v "exptime" _ (fun t o => { o with expTime := num t, expTimeSet := true }) _ (by owned)
      (fun t ht => by rw [asReal, (notANumber_unsigned t (hf.exptime t ht)).1]; rfl) fun o => by cases g.first "exptime" <;> rfl
  · exact onOption_upd v "ncombined" _ (fun t o => { o with nCombined := wholeVal t, nCombinedSet := true }) _ (by owned)
      (fun t ht => asInt_whole _ t (hf.ncombined t ht)) fun o => by cases g.first "ncombined" <;> rfl
  · exact onOption_upd v "ftol" _ (fun t o => { o with ftol := num t }) _ (by owned)
      (fun t ht => by rw [asReal, (notANumber_unsigned t (hf.ftol t ht)).1]; rfl) fun o => by cases g.first "ftol" <;> rfl
  · refine onOption_upd v "bootstrap" _ (fun t o => { o with bootstrap := some (wholeVal t) }) _ (by owned) ?_ fun o => by cases g.first "bootstrap" <;> rfl
    intro t ht
    have hb := whole_bounds (hf.bootstrap t ht)
    rw [asLong_whole _ t (isWhole_mono (by decide) (hf.bootstrap t ht)), longToInt_id _ (by omega) (by omega)]
  · exact onOption_upd v "save-bootstrap" _ (fun t o => { o with saveBootstrap := some t }) _ (by owned) (fun _ _ => rfl) fun o => by
      cases g.first "save-bootstrap" <;> rfl
  · refine onOption_upd v "max-threads" _ (fun t o => { o with maxThreads := wholeVal t }) _ (by owned) ?_ fun o => by cases g.first "max-threads" <;> rfl
    intro t ht
    have hb := whole_bounds (hf.threads t ht)
    rw [asLong_whole _ t (isWhole_mono (by decide) (hf.threads t ht)), longToInt_id _ (by omega) (by omega)]
  · exact onOption_upd v "seed" _ (fun t o => { o with seed := wholeVal t }) _ (by owned) (fun t ht => asLong_whole _ t (hf.seed t ht)) fun o => by
      cases g.first "seed" <;> rfl

variable [FP α]

theorem updates_obey (num : Str → α) (cores : Int) (g : CmdGiven) :
    ObeysCmd num cores g ((inputUpdates num g).foldl (fun o u => u o) (defaultOpts cores)) where
  image := show g.args.head?.or none = _ from Option.or_none
  printImages := show (bif g.has "printimage" then true else false) = _ by cases g.has "printimage" <;> rfl
  statOnly := show (bif g.has "fitstat-only" then true else bif g.has "chisquare-only" then true else false) = _ by
    cases g.has "fitstat-only" <;> cases g.has "chisquare-only" <;> rfl
  modelErrors := show (bif g.has "model-errors" then true else false) = _ by cases g.has "model-errors" <;> rfl
  cash := show (bif g.has "cashstat" then true else false) = _ by cases g.has "cashstat" <;> rfl
  mlr := show (bif g.has "mlr" then true else bif g.has "poisson-mlr" then true else false) = _ by cases g.has "mlr" <;> cases g.has "poisson-mlr" <;> rfl
  solver := show (bif g.has "de-lhs" then (2 : Int) else bif g.has "de" then 2 else bif (g.first "nlopt").isSome then 5 else bif g.has "nm" then 3 else 1) = _ by
    cases g.has "de-lhs" <;> cases g.has "de" <;> cases (g.first "nlopt").isSome <;> cases g.has "nm" <;> rfl
  nloptName := rfl
  useLHS := show (bif g.has "de-lhs" then true else false) = _ by cases g.has "de-lhs" <;> rfl
  normalizePSF := show (bif g.has "no-normalize" then false else true) = _ by cases g.has "no-normalize" <;> rfl
  subsampling := show (bif g.has "no-subsampling" then false else true) = _ by cases g.has "no-subsampling" <;> rfl
  verbose := show (bif g.has "loud" then (2 : Int) else bif g.has "quiet" then 0 else bif g.has "silent" then -1 else 1) = _ by
    cases g.has "loud" <;> cases g.has "quiet" <;> cases g.has "silent" <;> rfl
  errorType := show (bif g.has "errors-are-weights" then WEIGHTS_ARE_WEIGHTS else bif g.has "errors-are-variances" then WEIGHTS_ARE_VARIANCES else WEIGHTS_ARE_SIGMAS) = _ by
    cases g.has "errors-are-weights" <;> cases g.has "errors-are-variances" <;> rfl
  maskFormat := show (bif g.has "mask-zero-is-bad" then MASK_ZERO_IS_BAD else MASK_ZERO_IS_GOOD) = _ by cases g.has "mask-zero-is-bad" <;> rfl
  configFile := rfl
  noise := show (g.first "noise").or none = _ from Option.or_none
  psf := show (g.first "psf").or none = _ from Option.or_none
  overPsfs := rfl
  overScales := show (if g.every "overpsf_scale" = [] then [] else (g.every "overpsf_scale").map wholeVal) = _ by
    split
    · rename_i h; rw [h]; rfl
    · rfl
  overRegions := show (if g.every "overpsf_region" = [] then [] else g.every "overpsf_region") = _ by
    split
    · rename_i h; rw [h]
    · rfl
  mask := show (g.first "mask").or none = _ from Option.or_none
  saveModel := show (g.first "save-model").or none = _ from Option.or_none
  saveResidual := show (g.first "save-residual").or none = _ from Option.or_none
  saveWeights := show (g.first "save-weights").or none = _ from Option.or_none
  saveParams := rfl
  sky := ⟨rfl, show (bif (g.first "sky").isSome then true else false) = _ by cases (g.first "sky").isSome <;> rfl⟩
  gain := ⟨rfl, show (bif (g.first "gain").isSome then true else false) = _ by cases (g.first "gain").isSome <;> rfl⟩
  readNoise := ⟨rfl, show (bif (g.first "readnoise").isSome then true else false) = _ by cases (g.first "readnoise").isSome <;> rfl⟩
  expTime := ⟨rfl, show (bif (g.first "exptime").isSome then true else false) = _ by cases (g.first "exptime").isSome <;> rfl⟩
  nCombined := ⟨rfl, show (bif (g.first "ncombined").isSome then true else false) = _ by cases (g.first "ncombined").isSome <;> rfl⟩
  ftol := by
    rw [show (1 / 10 ^ 8 : ℚ) = 1 / 100000000 by norm_num]
    rfl
  bootstrap := show ((g.first "bootstrap").map wholeVal).or none = _ from Option.or_none
  saveBootstrap := show (g.first "save-bootstrap").or none = _ from Option.or_none
  maxThreads := rfl
  seed := rfl

/-- The command line is understood as it is meant: every setting is the one asked for, and the default otherwise. The first value of an option counts. Missing: values that are
no numbers (`C105_garbage_false`), arguments with several `=` (C36), repeated options (`C105_first_false`) and flags that contradict each other (`C105_order_false`). -/
theorem C105_settings_partial (num : Str → α) (cores : Int) (prog : Str) (as : List Str) (hp : ∀ a ∈ as, Plain a) (hne : as ≠ []) (es : List Ev)
    (hm : meaning imfitDecls true none as = some es) (hw : Working (cmdGiven imfitDecls es)) (hf : WellFormed (cmdGiven imfitDecls es)) :
    ∃ o, processInput num cores (prog :: as) = .ok o ∧ ObeysCmd num cores (cmdGiven imfitDecls es) o := by
  obtain ⟨q, e1, e2, v⟩ := (imfit_reports prog as hp).2 es hm
  have he : q.empty = false := by rw [e2]; cases as with
    | nil => exact absurd rfl hne
    | cons => rfl
  refine ⟨_, ?_, updates_obey num cores _⟩
  rw [processInput, e1, ok_bind, if_neg (show ¬ ((0 : Int) < 0) by decide), steps_ok _ _ (inputSteps_updates num v he hw hf)]

/-! ## Errors -/

omit [FP α] in
theorem inputSteps_orderly {p : CLine} {g : CmdGiven} (v : Reports imfitDecls p g) (num : Str → α) : ∀ s ∈ inputSteps num p, ∀ o, Orderly (s o) := by
  unfold inputSteps
  simp only [List.forall_mem_cons, List.not_mem_nil, false_imp_iff, implies_true, and_true]
  refine ⟨?_, exitFlag_orderly v "help" (by owned), ?_, exitFlag_orderly v "version" (by owned), exitFlag_orderly v "list-functions" (by owned),
    exitFlag_orderly v "list-parameters" (by owned), exitFlag_orderly v "sample-config" (by owned), onFlag_orderly v "printimage" _ (by owned),
    onFlag_orderly v "chisquare-only" _ (by owned), onFlag_orderly v "fitstat-only" _ (by owned), onFlag_orderly v "model-errors" _ (by owned),
    onFlag_orderly v "cashstat" _ (by owned), onFlag_orderly v "poisson-mlr" _ (by owned), onFlag_orderly v "mlr" _ (by owned), onFlag_orderly v "nm" _ (by owned),
    onOption_orderly v "nlopt" _ (by owned) ?_, onFlag_orderly v "de" _ (by owned), onFlag_orderly v "de-lhs" _ (by owned), onFlag_orderly v "no-normalize" _ (by owned),
    onFlag_orderly v "no-subsampling" _ (by owned), onFlag_orderly v "silent" _ (by owned), onFlag_orderly v "quiet" _ (by owned), onFlag_orderly v "loud" _ (by owned),
    onFlag_orderly v "errors-are-variances" _ (by owned), onFlag_orderly v "errors-are-weights" _ (by owned), onFlag_orderly v "mask-zero-is-bad" _ (by owned),
    onOption_orderly v "config" _ (by owned) fun t => .inl ⟨_, rfl⟩, onOption_orderly v "noise" _ (by owned) fun t => .inl ⟨_, rfl⟩,
    onOption_orderly v "psf" _ (by owned) fun t => .inl ⟨_, rfl⟩, onQueue_orderly v "overpsf" _ (by owned) fun t => .inl ⟨_, rfl⟩,
    onQueue_orderly v "overpsf_scale" _ (by owned) fun t => orderly_bind _ (fun zs (o : ImfitOpts α) => { o with overScales := zs }) (readScales_orderly t),
    onQueue_orderly v "overpsf_region" _ (by owned) fun t => .inl ⟨_, rfl⟩, onOption_orderly v "mask" _ (by owned) fun t => .inl ⟨_, rfl⟩,
    onOption_orderly v "save-model" _ (by owned) fun t => .inl ⟨_, rfl⟩, onOption_orderly v "save-residual" _ (by owned) fun t => .inl ⟨_, rfl⟩,
    onOption_orderly v "save-weights" _ (by owned) fun t => .inl ⟨_, rfl⟩, onOption_orderly v "save-params" _ (by owned) fun t => .inl ⟨_, rfl⟩,
    onOption_orderly v "sky" _ (by owned) (asReal_orderly num _ _), onOption_orderly v "gain" _ (by owned) (asReal_orderly num _ _),
    onOption_orderly v "readnoise" _ (by owned) (asReal_orderly num _ _), onOption_orderly v "exptime" _ (by owned) (asReal_orderly num _ _),
    onOption_orderly v "ncombined" _ (by owned) (asInt_orderly _ _), onOption_orderly v "ftol" _ (by owned) (asReal_orderly num _ _),
    onOption_orderly v "bootstrap" _ (by owned) (asLong_orderly _ _), onOption_orderly v "save-bootstrap" _ (by owned) fun t => .inl ⟨_, rfl⟩,
    onOption_orderly v "max-threads" _ (by owned) (asLong_orderly _ _), onOption_orderly v "seed" _ (by owned) (asLong_orderly _ _)⟩
  · intro o
    split
    · rename_i h
      rw [CLine.argument, rd_ok h, ok_bind]
      exact .inl ⟨_, rfl⟩
    · exact .inl ⟨_, rfl⟩
  · intro o
    split
    · exact .inr (.inl rfl)
    · exact .inl ⟨_, rfl⟩
  · intro t
    split
    · exact .inl ⟨_, rfl⟩
    · exact .inr (.inl rfl)
/-- Whatever the arguments are, nothing but a message, an error message or an integer that is too large ends the program. -/
theorem C105_orderly_partial (num : Str → α) (cores : Int) (prog : Str) (as : List Str) (hp : ∀ a ∈ as, Plain a) :
    (∃ o, processInput num cores (prog :: as) = .ok o) ∨ processInput num cores (prog :: as) = .error .exit ∨
      processInput num cores (prog :: as) = .error .overflow := by
  cases hm : meaning imfitDecls true none as with
  | none =>
    obtain ⟨q, e⟩ := (imfit_reports prog as hp).1 hm
    rw [processInput, e, ok_bind, if_pos (show (-1 : Int) < 0 by decide)]
    exact .inr (.inl rfl)
  | some es =>
    obtain ⟨q, e1, e2, v⟩ := (imfit_reports prog as hp).2 es hm
    rw [processInput, e1, ok_bind, if_neg (show ¬ ((0 : Int) < 0) by decide)]
    exact steps_orderly _ (inputSteps_orderly v num) _

/-- A command line that is wrong, empty, or has a value that does not begin like a number is refused. -/
theorem C105_refused (num : Str → α) (cores : Int) (prog : Str) (as : List Str) (hp : ∀ a ∈ as, Plain a)
    (h : as = [] ∨ meaning imfitDecls true none as = none ∨ ∃ es, meaning imfitDecls true none as = some es ∧
      ((∃ n ∈ ["ncombined", "bootstrap", "max-threads", "seed"], ∃ t ∈ (cmdGiven imfitDecls es).first n, ¬ ∃ c s, t = c :: s ∧ c ∈ "123456789".toList) ∨
       (∃ n ∈ ["gain", "readnoise", "exptime", "ftol"], ∃ t ∈ (cmdGiven imfitDecls es).first n, ¬ ∃ c s, t = c :: s ∧ (c = '.' ∨ c ∈ "0123456789".toList)) ∨
       (∃ t ∈ (cmdGiven imfitDecls es).first "sky", ¬ ∃ c s, t = c :: s ∧ (c = '.' ∨ c = '-' ∨ c ∈ "0123456789".toList)) ∨
       (∃ t ∈ (cmdGiven imfitDecls es).every "overpsf_scale", ¬ ∃ c s, t = c :: s ∧ c ∈ "123456789".toList) ∨
       (∃ t ∈ (cmdGiven imfitDecls es).first "nlopt", t ∉ ["COBYLA", "BOBYQA", "NEWUOA", "PRAXIS", "NM", "SBPLX"].map String.toList))) (o : ImfitOpts α) :
    processInput num cores (prog :: as) ≠ .ok o := by
  cases hm : meaning imfitDecls true none as with
  | none =>
    obtain ⟨q, e⟩ := (imfit_reports prog as hp).1 hm
    rw [processInput, e, ok_bind, if_pos (show (-1 : Int) < 0 by decide)]
    exact fun h => by cases h
  | some es =>
    obtain ⟨q, e1, e2, v⟩ := (imfit_reports prog as hp).2 es hm
    rw [processInput, e1, ok_bind, if_neg (show ¬ ((0 : Int) < 0) by decide)]
    rcases h with rfl | h | ⟨es', h1, h⟩
    · refine step_bad _ 2 _ rfl ?_ _ _
      intro o r e
      rw [e2] at e
      cases e
    · rw [hm] at h; cases h
    · rw [hm] at h1
      injection h1 with h1
      subst h1
      have hI : ∀ (set : Int → ImfitOpts α → ImfitOpts α) t, (¬ ∃ c s, t = c :: s ∧ c ∈ "123456789".toList) → ∀ r, asInt .posInt set t ≠ .ok r := by
        intro set t ht r e
        rw [asInt, if_pos (notPosInt t ht)] at e
        cases e
      have hL : ∀ (set : Int → ImfitOpts α → ImfitOpts α) t, (¬ ∃ c s, t = c :: s ∧ c ∈ "123456789".toList) → ∀ r, asLong .posInt set t ≠ .ok r := by
        intro set t ht r e
        rw [asLong, if_pos (notPosInt t ht)] at e
        cases e
      have hR : ∀ (set : α → ImfitOpts α → ImfitOpts α) t, (¬ ∃ c s, t = c :: s ∧ (c = '.' ∨ c ∈ "0123456789".toList)) → ∀ r, asReal num .posReal set t ≠ .ok r := by
        intro set t ht r e
        rw [asReal, if_pos (notPosReal t ht)] at e
        cases e
      rcases h with ⟨n, hn, t, ht, h⟩ | ⟨n, hn, t, ht, h⟩ | ⟨t, ht, h⟩ | ⟨t, ht, h⟩ | ⟨t, ht, h⟩
      · simp only [List.mem_cons, List.not_mem_nil, or_false] at hn
        rcases hn with rfl | rfl | rfl | rfl
        · exact step_bad _ 41 _ rfl (onOption_bad v "ncombined" _ (by owned) t ht (hI _ t h)) _ _
        · exact step_bad _ 43 _ rfl (onOption_bad v "bootstrap" _ (by owned) t ht (hL _ t h)) _ _
        · exact step_bad _ 45 _ rfl (onOption_bad v "max-threads" _ (by owned) t ht (hL _ t h)) _ _
        · exact step_bad _ 46 _ rfl (onOption_bad v "seed" _ (by owned) t ht (hL _ t h)) _ _
      · simp only [List.mem_cons, List.not_mem_nil, or_false] at hn
        rcases hn with rfl | rfl | rfl | rfl
        · exact step_bad _ 38 _ rfl (onOption_bad v "gain" _ (by owned) t ht (hR _ t h)) _ _
        · exact step_bad _ 39 _ rfl (onOption_bad v "readnoise" _ (by owned) t ht (hR _ t h)) _ _
        · exact step_bad _ 40 _ rfl (onOption_bad v "exptime" _ (by owned) t ht (hR _ t h)) _ _
        · exact step_bad _ 42 _ rfl (onOption_bad v "ftol" _ (by owned) t ht (hR _ t h)) _ _
      · refine step_bad _ 37 _ rfl (onOption_bad v "sky" _ (by owned) t ht ?_) _ _
        intro r e
        rw [asReal, if_pos (notAnyReal t h)] at e
        cases e
      · refine step_bad _ 30 _ rfl ?_ _ _
        intro o r e
        rw [onQueue_eq v "overpsf_scale" (by owned)] at e
        split at e
        · rename_i hn
          rw [hn] at ht
          cases ht
        · cases hz : readScales ((cmdGiven imfitDecls es).every "overpsf_scale") with
          | error f => rw [hz] at e; cases e
          | ok zs => exact readScales_bad _ t ht (notPosInt t h) zs hz
      · refine step_bad _ 15 _ rfl (onOption_bad v "nlopt" _ (by owned) t ht ?_) _ _
        intro r e
        split at e
        · rename_i hv
          apply h
          simpa [validNLOptSolverName, nloptNames] using hv
        · cases e

/-! ## Where the code differs -/

/-- A command line. -/
def imfitLine (as : List String) : List Str := ("imfit" :: as).map String.toList

set_option maxRecDepth 100000 in
/-- Only the beginning of a value is looked at. `--ncombined=3abc` is 3, `--gain=1x2` and `--gain=.-5` go to `strtod`, and 0 is a "positive" real number. `+5`, which `strtod` would
read, is refused. -/
theorem C105_garbage_false (num : Str → α) (cores : Int) :
    (¬ (∃ m, IsWhole m "3abc".toList) ∧ (processInput num cores (imfitLine ["a.fits", "--ncombined=3abc"])).map (·.nCombined) = .ok 3) ∧
    (¬ IsUnsigned "1x2".toList ∧ (processInput num cores (imfitLine ["a.fits", "--gain=1x2"])).map (·.gain) = .ok (num "1x2".toList)) ∧
    (processInput num cores (imfitLine ["a.fits", "--gain=.-5"])).map (·.gain) = .ok (num ".-5".toList) ∧
    (processInput num cores (imfitLine ["a.fits", "--gain", "0"])).map (·.gain) = .ok (num "0".toList) ∧
    processInput num cores (imfitLine ["a.fits", "--gain", "+5"]) = .error .exit := by
  refine ⟨⟨?_, by with_unfolding_all rfl⟩, ⟨?_, by with_unfolding_all rfl⟩, by with_unfolding_all rfl, by with_unfolding_all rfl, by with_unfolding_all rfl⟩
  · rintro ⟨m, n, -, -, h⟩
    have := repr_digit n 'a' (h ▸ by decide)
    revert this
    decide
  · rintro ⟨a, b, e, h, ha, hb, he⟩
    have hx : ∀ c ∈ "1x2".toList, c.isDigit = true ∨ c = '.' ∨ c = 'e' ∨ c = 'E' ∨ c = '-' ∨ c = '+' := by
      rw [h]
      intro c hc
      simp only [List.mem_append] at hc
      rcases hc with (hc | hc) | hc
      · exact .inl (ha c hc)
      · rcases hb with ⟨rfl, -⟩ | ⟨d, rfl, hd, -⟩
        · cases hc
        · rcases List.mem_cons.1 hc with rfl | hc
          · exact .inr (.inl rfl)
          · exact .inl (hd c hc)
      · rcases he with rfl | ⟨x, s, d, rfl, hx, hs, -, hd⟩
        · cases hc
        · simp only [List.cons_append, List.mem_cons, List.mem_append] at hc
          rcases hc with rfl | hc | hc
          · rcases hx with rfl | rfl <;> simp
          · rcases hs with rfl | rfl | rfl
            · cases hc
            · rcases List.mem_singleton.1 hc with rfl; simp
            · rcases List.mem_singleton.1 hc with rfl; simp
          · exact .inl (hd c hc)
    have := hx 'x' (by decide)
    revert this
    decide

set_option maxRecDepth 100000 in
/-- If an option is given twice, the second value is dropped without a message; so are all images but the first. -/
theorem C105_first_false (num : Str → α) (cores : Int) :
    (processInput num cores (imfitLine ["a.fits", "--gain", "2", "--gain", "3"])).map (·.gain) = .ok (num "2".toList) ∧
    (processInput num cores (imfitLine ["a.fits", "b.fits"])).map (·.image) = .ok (some "a.fits".toList) := by
  exact ⟨by with_unfolding_all rfl, by with_unfolding_all rfl⟩

set_option maxRecDepth 100000 in
/-- Of contradicting flags, neither the first nor the last one counts, but an order fixed in the code. -/
theorem C105_order_false (num : Str → α) (cores : Int) :
    (∀ as ∈ [["a.fits", "--errors-are-weights", "--errors-are-variances"], ["a.fits", "--errors-are-variances", "--errors-are-weights"]],
      (processInput num cores (imfitLine as)).map (·.errorType) = .ok WEIGHTS_ARE_WEIGHTS) ∧
    (∀ as ∈ [["a.fits", "--nm", "--de"], ["a.fits", "--de", "--nm"]], (processInput num cores (imfitLine as)).map (·.solver) = .ok DIFF_EVOLN_SOLVER) ∧
    (∀ as ∈ [["a.fits", "--quiet", "--silent"], ["a.fits", "--silent", "--quiet"]], (processInput num cores (imfitLine as)).map (·.verbose) = .ok 0) := by
  simp only [List.forall_mem_cons, List.not_mem_nil, false_imp_iff, implies_true, and_true]
  exact ⟨⟨by with_unfolding_all rfl, by with_unfolding_all rfl⟩, ⟨by with_unfolding_all rfl, by with_unfolding_all rfl⟩,
    ⟨by with_unfolding_all rfl, by with_unfolding_all rfl⟩⟩

set_option maxRecDepth 100000 in
/-- Large numbers are cut to 32 bits: 4294967296 bootstrap iterations are none, and so many threads end the program in an assertion. 99999999999 combined images are undefined. -/
theorem C105_large_false (num : Str → α) (cores : Int) :
    (processInput num cores (imfitLine ["a.fits", "--bootstrap", "4294967296"])).map (·.bootstrap) = .ok (some 0) ∧
    (processInput num cores (imfitLine ["a.fits", "--max-threads", "4294967296"])).map (·.maxThreads) = .ok 0 ∧ setMaxThreads 0 = .error .assert ∧
    processInput num cores (imfitLine ["a.fits", "--ncombined", "99999999999"]) = .error .overflow := by
  exact ⟨by with_unfolding_all rfl, by with_unfolding_all rfl, rfl, by with_unfolding_all rfl⟩

/-- A command line with a configuration file under its short name, numbers, two oversampled PSFs and flags. -/
def exLine : List Str := ["n.fits", "-c", "m.dat", "--gain=4.5", "--ncombined", "3", "--overpsf_scale=10", "--overpsf_scale", "3", "--nm", "--sky", "-1.5e2"].map String.toList

def exEvents : List Ev := (meaning imfitDecls true none exLine).getD []

example : ∃ o, meaning imfitDecls true none exLine = some exEvents ∧ WellFormed (cmdGiven imfitDecls exEvents) ∧ Working (cmdGiven imfitDecls exEvents) ∧
    processInput (α := XR) (fun _ => 0) 4 ("imfit".toList :: exLine) = .ok o ∧
    o.overScales = [10, 3] ∧ o.solver = 3 ∧ o.mlr = false ∧ o.nCombined = 3 ∧ o.maxThreads = 4 ∧ o.configFile = "m.dat".toList ∧ o.image = some "n.fits".toList := by
  have hm : meaning imfitDecls true none exLine = some exEvents := by
    have : (meaning imfitDecls true none exLine).isSome = true := by decide +kernel
    obtain ⟨es, h⟩ := Option.isSome_iff_exists.1 this
    rw [exEvents, h]
    rfl
  have none_of : ∀ n, (cmdGiven imfitDecls exEvents).first n = none → ∀ (Q : Str → Prop), ∀ t ∈ (cmdGiven imfitDecls exEvents).first n, Q t := by
    intro n h Q t ht
    rw [h] at ht
    cases ht
  have hw : Working (cmdGiven imfitDecls exEvents) := by
    have : ["help", "version", "list-functions", "list-parameters", "sample-config"].all (fun n => (cmdGiven imfitDecls exEvents).has n == false) = true := by decide +kernel
    intro n hn
    simpa using List.all_eq_true.1 this n hn
  have hf : WellFormed (cmdGiven imfitDecls exEvents) := by
    refine ⟨none_of _ (by decide +kernel) _, ?_, ?_, none_of _ (by decide +kernel) _, none_of _ (by decide +kernel) _, none_of _ (by decide +kernel) _, ?_,
      none_of _ (by decide +kernel) _, none_of _ (by decide +kernel) _, none_of _ (by decide +kernel) _, ?_⟩
    · intro t ht
      rw [show (cmdGiven imfitDecls exEvents).first "sky" = some "-1.5e2".toList by decide +kernel] at ht
      cases ht
      exact .inr ⟨"1.5e2".toList, by decide, "1".toList, ".5".toList, "e2".toList, by decide, by unfold Digits; decide, .inr ⟨"5".toList, by decide, by unfold Digits; decide, .inl (by decide)⟩,
        .inr ⟨'e', [], "2".toList, by decide, .inl rfl, .inl rfl, by decide, by unfold Digits; decide⟩⟩
    · intro t ht
      rw [show (cmdGiven imfitDecls exEvents).first "gain" = some "4.5".toList by decide +kernel] at ht
      cases ht
      exact ⟨"4".toList, ".5".toList, [], by decide, by unfold Digits; decide, .inr ⟨"5".toList, by decide, by unfold Digits; decide, .inl (by decide)⟩, .inl rfl⟩
    · intro t ht
      rw [show (cmdGiven imfitDecls exEvents).first "ncombined" = some "3".toList by decide +kernel] at ht
      cases ht
      exact ⟨3, by decide, by decide, by decide +kernel⟩
    · intro t ht
      rw [show (cmdGiven imfitDecls exEvents).every "overpsf_scale" = ["10".toList, "3".toList] by decide +kernel] at ht
      simp only [List.mem_cons, List.not_mem_nil, or_false] at ht
      rcases ht with rfl | rfl
      · exact ⟨10, by decide, by decide, by decide +kernel⟩
      · exact ⟨3, by decide, by decide, by decide +kernel⟩
  have hp : ∀ a ∈ exLine, Plain a := by
    intro a ha
    simp only [exLine, List.map_cons, List.map_nil, List.mem_cons, List.not_mem_nil, or_false] at ha
    rcases ha with rfl | rfl | rfl | rfl | rfl | rfl | rfl | rfl | rfl | rfl | rfl | rfl
    · exact fun h => absurd h (by decide)
    · exact fun _ => Or.inl (by decide)
    · exact fun h => absurd h (by decide)
    · exact fun _ => Or.inr ⟨"gain".toList, "4.5".toList, by decide, by decide, by decide, by decide, by decide⟩
    · exact fun _ => Or.inl (by decide)
    · exact fun h => absurd h (by decide)
    · exact fun _ => Or.inr ⟨"overpsf_scale".toList, "10".toList, by decide, by decide, by decide, by decide, by decide⟩
    · exact fun _ => Or.inl (by decide)
    · exact fun h => absurd h (by decide)
    · exact fun _ => Or.inl (by decide)
    · exact fun _ => Or.inl (by decide)
    · exact fun _ => Or.inl (by decide)
  obtain ⟨o, h1, h2⟩ := C105_settings_partial (α := XR) (fun _ => 0) 4 "imfit".toList exLine hp (by decide) exEvents hm hw hf
  refine ⟨o, hm, hf, hw, h1, ?_, ?_, ?_, ?_, ?_, ?_, ?_⟩
  · rw [h2.overScales]; decide +kernel
  · rw [h2.solver]; decide +kernel
  · rw [h2.mlr]; decide +kernel
  · rw [h2.nCombined.1]; decide +kernel
  · rw [h2.maxThreads]; decide +kernel
  · rw [h2.configFile]; decide +kernel
  · rw [h2.image]; decide +kernel

end Imfit
