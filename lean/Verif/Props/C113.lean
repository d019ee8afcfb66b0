import Verif.Lemmas.Options
import Verif.Spec.Mcmc
import Verif.Props.C106
import Verif.Props.C59

/-!
# C113 — The options of `imfit-mcmc` are what the command line says
-/

namespace Imfit

open Spec

variable {α : Type}

theorem mcmcParser_eq : mcmcParser = parser mcmcDecls true := by rfl

theorem mcmc_reports (prog : Str) (as : List Str) (hp : ∀ a ∈ as, Plain a) :
    (meaning mcmcDecls true none as = none → ∃ q, parseCommandLine mcmcParser (prog :: as) = .ok (-1, q)) ∧
    ∀ es, meaning mcmcDecls true none as = some es →
      ∃ q, parseCommandLine mcmcParser (prog :: as) = .ok (0, q) ∧ q.empty = as.isEmpty ∧ Reports mcmcDecls q (cmdGiven mcmcDecls es) := by
  rw [mcmcParser_eq]
  exact cmd_reports mcmcDecls prog as hp

/-- What the blocks of `ProcessInput` do to the options. -/
def mcmcUpdates (num : Str → α) (g : CmdGiven) : List (McmcOpts α → McmcOpts α) :=
  [fun o => { o with base.image := g.args.head?.or o.base.image },
    id,
    id,
    id,
    id,
    id,
    id,
    fun o => { o with base.modelErrors := bif g.has "model-errors" then true else o.base.modelErrors },
    fun o => { o with base.cash := bif g.has "cashstat" then true else o.base.cash },
    fun o => { o with base.mlr := bif g.has "poisson-mlr" then true else o.base.mlr },
    fun o => { o with base.mlr := bif g.has "mlr" then true else o.base.mlr },
    fun o => { o with base.normalizePSF := bif g.has "no-normalize" then false else o.base.normalizePSF },
    fun o => { o with base.subsampling := bif g.has "no-subsampling" then false else o.base.subsampling },
    fun o => { o with base.verbose := bif g.has "silent" then -1 else o.base.verbose },
    fun o => { o with base.verbose := bif g.has "quiet" then 0 else o.base.verbose },
    fun o => { o with base.verbose := bif g.has "loud" then 2 else o.base.verbose },
    fun o => { o with base.errorType := bif g.has "errors-are-variances" then WEIGHTS_ARE_VARIANCES else o.base.errorType },
    fun o => { o with base.errorType := bif g.has "errors-are-weights" then WEIGHTS_ARE_WEIGHTS else o.base.errorType },
    fun o => { o with base.maskFormat := bif g.has "mask-zero-is-bad" then MASK_ZERO_IS_BAD else o.base.maskFormat },
    fun o => { o with base.configFile := (g.first "config").getD o.base.configFile },
    fun o => { o with base.noise := (g.first "noise").or o.base.noise },
    fun o => { o with base.psf := (g.first "psf").or o.base.psf },
    fun o => { o with base.overPsfs := if g.every "overpsf" = [] then o.base.overPsfs else some (g.every "overpsf") },
    fun o => { o with base.overScales := if g.every "overpsf_scale" = [] then o.base.overScales else (g.every "overpsf_scale").map wholeVal },
    fun o => { o with base.overRegions := if g.every "overpsf_region" = [] then o.base.overRegions else g.every "overpsf_region" },
    fun o => { o with base.mask := (g.first "mask").or o.base.mask },
    fun o => { o with base.sky := ((g.first "sky").map num).getD o.base.sky, base.skySet := bif (g.first "sky").isSome then true else o.base.skySet },
    fun o => { o with base.gain := ((g.first "gain").map num).getD o.base.gain, base.gainSet := bif (g.first "gain").isSome then true else o.base.gainSet },
    fun o => { o with base.readNoise := ((g.first "readnoise").map num).getD o.base.readNoise, base.readNoiseSet := bif (g.first "readnoise").isSome then true else o.base.readNoiseSet },
    fun o => { o with base.expTime := ((g.first "exptime").map num).getD o.base.expTime, base.expTimeSet := bif (g.first "exptime").isSome then true else o.base.expTimeSet },
    fun o => { o with base.nCombined := ((g.first "ncombined").map wholeVal).getD o.base.nCombined, base.nCombinedSet := bif (g.first "ncombined").isSome then true else o.base.nCombinedSet },
    fun o => { o with outputRoot := (g.first "output").getD o.outputRoot },
    fun o => { o with append := bif g.has "append" then true else o.append },
    fun o => { o with nChains := ((g.first "nchains").map wholeVal).getD o.nChains },
    fun o => { o with maxEvals := ((g.first "max-chain-length").map wholeVal).getD o.maxEvals },
    fun o => { o with nBurnIn := ((g.first "burnin-length").map wholeVal).getD o.nBurnIn },
    fun o => { o with nGelmanEvals := ((g.first "gelman-evals").map wholeVal).getD o.nGelmanEvals },
    fun o => { o with limit := ((g.first "gelman-rubin-limit").map num).getD o.limit },
    fun o => { o with noise := ((g.first "uniform-offset").map num).getD o.noise },
    fun o => { o with bstar := ((g.first "gaussian-offset").map num).getD o.bstar },
    fun o => { o with base.maxThreads := ((g.first "max-threads").map wholeVal).getD o.base.maxThreads },
    fun o => { o with base.seed := ((g.first "seed").map wholeVal).getD o.base.seed }]

theorem mcmcSteps_updates (num : Str → α) {p : CLine} {g : CmdGiven} (v : Reports mcmcDecls p g) (he : p.empty = false) (hw : Working g) (hf : McmcWellFormed g) :
    List.Forall₂ (fun s u => ∀ o, s o = .ok (u o)) (mcmcSteps num p) (mcmcUpdates num g) := by
  unfold mcmcSteps mcmcUpdates
  refine .cons ?_ (.cons ?_ (.cons ?_ (.cons ?_ (.cons ?_ (.cons ?_ (.cons ?_ (.cons ?_ (.cons ?_ (.cons ?_ (.cons ?_ (.cons ?_ (.cons ?_ (.cons ?_ (.cons ?_ (.cons ?_ (.cons ?_ (.cons ?_ (.cons ?_ (.cons ?_ (.cons ?_ (.cons ?_ (.cons ?_ (.cons ?_ (.cons ?_ (.cons ?_ (.cons ?_ (.cons ?_ (.cons ?_ (.cons ?_ (.cons ?_ (.cons ?_ (.cons ?_ (.cons ?_ (.cons ?_ (.cons ?_ (.cons ?_ (.cons ?_ (.cons ?_ (.cons ?_ (.cons ?_ (.cons ?_ .nil)))))))))))))))))))))))))))))))))))))))))
  · intro o
    rw [v.args]
    cases h : g.args with
    | nil => rfl
    | cons a as => simp [CLine.argument, v.args, h, rd_ok, ok_bind]
  · exact exitFlag_upd v "help" (by owned) (hw _ (by simp))
  · intro o; rw [he]; rfl
  · exact exitFlag_upd v "version" (by owned) (hw _ (by simp))
  · exact exitFlag_upd v "list-functions" (by owned) (hw _ (by simp))
  · exact exitFlag_upd v "list-parameters" (by owned) (hw _ (by simp))
  · exact exitFlag_upd v "sample-config" (by owned) (hw _ (by simp))
  · exact onFlag_upd v "model-errors" _ _ (by owned) fun o => by cases g.has "model-errors" <;> rfl
  · exact onFlag_upd v "cashstat" _ _ (by owned) fun o => by cases g.has "cashstat" <;> rfl
  · exact onFlag_upd v "poisson-mlr" _ _ (by owned) fun o => by cases g.has "poisson-mlr" <;> rfl
  · exact onFlag_upd v "mlr" _ _ (by owned) fun o => by cases g.has "mlr" <;> rfl
  · exact onFlag_upd v "no-normalize" _ _ (by owned) fun o => by cases g.has "no-normalize" <;> rfl
  · exact onFlag_upd v "no-subsampling" _ _ (by owned) fun o => by cases g.has "no-subsampling" <;> rfl
  · exact onFlag_upd v "silent" _ _ (by owned) fun o => by cases g.has "silent" <;> rfl
  · exact onFlag_upd v "quiet" _ _ (by owned) fun o => by cases g.has "quiet" <;> rfl
  · exact onFlag_upd v "loud" _ _ (by owned) fun o => by cases g.has "loud" <;> rfl
  · exact onFlag_upd v "errors-are-variances" _ _ (by owned) fun o => by cases g.has "errors-are-variances" <;> rfl
  · exact onFlag_upd v "errors-are-weights" _ _ (by owned) fun o => by cases g.has "errors-are-weights" <;> rfl
  · exact onFlag_upd v "mask-zero-is-bad" _ _ (by owned) fun o => by cases g.has "mask-zero-is-bad" <;> rfl
  · exact onOption_upd v "config" _ (fun t o => { o with base.configFile := t }) _ (by owned) (fun _ _ => rfl) fun o => by cases g.first "config" <;> rfl
  · exact onOption_upd v "noise" _ (fun t o => { o with base.noise := some t }) _ (by owned) (fun _ _ => rfl) fun o => by cases g.first "noise" <;> rfl
  · exact onOption_upd v "psf" _ (fun t o => { o with base.psf := some t }) _ (by owned) (fun _ _ => rfl) fun o => by cases g.first "psf" <;> rfl
  · exact onQueue_upd v "overpsf" _ (fun ts o => { o with base.overPsfs := some ts }) _ (by owned) rfl fun o => by split <;> rfl
  · refine onQueue_upd v "overpsf_scale" _ (fun ts o => { o with base.overScales := ts.map wholeVal }) _ (by owned) ?_ fun o => by split <;> rfl
    rw [readScales_whole _ hf.scales, ok_bind]
  · exact onQueue_upd v "overpsf_region" _ (fun ts o => { o with base.overRegions := ts }) _ (by owned) rfl fun o => by split <;> rfl
  · exact onOption_upd v "mask" _ (fun t o => { o with base.mask := some t }) _ (by owned) (fun _ _ => rfl) fun o => by cases g.first "mask" <;> rfl
  · exact onOption_upd v "sky" _ (fun t o => { o with base.sky := num t, base.skySet := true }) _ (by owned)
      (fun t ht => by rw [asReal, notANumber_real t (hf.sky t ht)]; rfl) fun o => by cases g.first "sky" <;> rfl
  · exact onOption_upd v "gain" _ (fun t o => { o with base.gain := num t, base.gainSet := true }) _ (by owned)
      (fun t ht => by rw [asReal, (notANumber_unsigned t (hf.gain t ht)).1]; rfl) fun o => by cases g.first "gain" <;> rfl
  · exact onOption_upd v "readnoise" _ (fun t o => { o with base.readNoise := num t, base.readNoiseSet := true }) _ (by owned)
      (fun t ht => by rw [asReal, (notANumber_unsigned t (hf.readnoise t ht)).1]; rfl) fun o => by cases g.first "readnoise" <;> rfl
  · exact onOption_upd v "exptime" _ (fun t o => { o with base.expTime := num t, base.expTimeSet := true }) _ (by owned)
      (fun t ht => by rw [asReal, (notANumber_unsigned t (hf.exptime t ht)).1]; rfl) fun o => by cases g.first "exptime" <;> rfl
  · exact onOption_upd v "ncombined" _ (fun t o => { o with base.nCombined := wholeVal t, base.nCombinedSet := true }) _ (by owned)
      (fun t ht => asInt_whole _ t (hf.ncombined t ht)) fun o => by cases g.first "ncombined" <;> rfl
  · exact onOption_upd v "output" _ (fun t o => { o with outputRoot := t }) _ (by owned) (fun _ _ => rfl) fun o => by cases g.first "output" <;> rfl
  · exact onFlag_upd v "append" _ _ (by owned) fun o => by cases g.has "append" <;> rfl
  · refine onOption_upd v "nchains" _ (fun t o => { o with nChains := wholeVal t }) _ (by owned) ?_ fun o => by cases g.first "nchains" <;> rfl
    intro t ht
    have hb := whole_bounds (hf.nchains t ht)
    rw [asLong_whole _ t (isWhole_mono (by decide) (hf.nchains t ht)), longToInt_id _ (by omega) (by omega)]
  · refine onOption_upd v "max-chain-length" _ (fun t o => { o with maxEvals := wholeVal t }) _ (by owned) ?_ fun o => by cases g.first "max-chain-length" <;> rfl
    intro t ht
    have hb := whole_bounds (hf.maxLength t ht)
    rw [asLong_whole _ t (isWhole_mono (by decide) (hf.maxLength t ht)), longToInt_id _ (by omega) (by omega)]
  · refine onOption_upd v "burnin-length" _ (fun t o => { o with nBurnIn := wholeVal t }) _ (by owned) ?_ fun o => by cases g.first "burnin-length" <;> rfl
    intro t ht
    have hb := whole_bounds (hf.burnin t ht)
    rw [asLong_whole _ t (isWhole_mono (by decide) (hf.burnin t ht)), longToInt_id _ (by omega) (by omega)]
  · refine onOption_upd v "gelman-evals" _ (fun t o => { o with nGelmanEvals := wholeVal t }) _ (by owned) ?_ fun o => by cases g.first "gelman-evals" <;> rfl
    intro t ht
    have hb := whole_bounds (hf.gelman t ht)
    rw [asLong_whole _ t (isWhole_mono (by decide) (hf.gelman t ht)), longToInt_id _ (by omega) (by omega)]
  · exact onOption_upd v "gelman-rubin-limit" _ (fun t o => { o with limit := num t }) _ (by owned)
      (fun t ht => by rw [asReal, (notANumber_unsigned t (hf.limit t ht)).1]; rfl) fun o => by cases g.first "gelman-rubin-limit" <;> rfl
  · exact onOption_upd v "uniform-offset" _ (fun t o => { o with noise := num t }) _ (by owned)
      (fun t ht => by rw [asReal, (notANumber_unsigned t (hf.uniform t ht)).1]; rfl) fun o => by cases g.first "uniform-offset" <;> rfl
  · exact onOption_upd v "gaussian-offset" _ (fun t o => { o with bstar := num t }) _ (by owned)
      (fun t ht => by rw [asReal, (notANumber_unsigned t (hf.gaussian t ht)).1]; rfl) fun o => by cases g.first "gaussian-offset" <;> rfl
  · refine onOption_upd v "max-threads" _ (fun t o => { o with base.maxThreads := wholeVal t }) _ (by owned) ?_ fun o => by cases g.first "max-threads" <;> rfl
    intro t ht
    have hb := whole_bounds (hf.threads t ht)
    rw [asLong_whole _ t (isWhole_mono (by decide) (hf.threads t ht)), longToInt_id _ (by omega) (by omega)]
  · exact onOption_upd v "seed" _ (fun t o => { o with base.seed := wholeVal t }) _ (by owned) (fun t ht => asLong_whole _ t (hf.seed t ht)) fun o => by cases g.first "seed" <;> rfl

variable [FP α]

theorem mcmcUpdates_obey (num : Str → α) (cores : Int) (g : CmdGiven) :
    ObeysMcmc num cores g ((mcmcUpdates num g).foldl (fun o u => u o) (defaultMcmc cores)) where
  image := show g.args.head?.or none = _ from Option.or_none
  modelErrors := show (bif g.has "model-errors" then true else false) = _ by cases g.has "model-errors" <;> rfl
  cash := show (bif g.has "cashstat" then true else false) = _ by cases g.has "cashstat" <;> rfl
  mlr := show (bif g.has "mlr" then true else bif g.has "poisson-mlr" then true else false) = _ by cases g.has "mlr" <;> cases g.has "poisson-mlr" <;> rfl
  solver := ⟨rfl, rfl⟩
  normalizePSF := show (bif g.has "no-normalize" then false else true) = _ by cases g.has "no-normalize" <;> rfl
  subsampling := show (bif g.has "no-subsampling" then false else true) = _ by cases g.has "no-subsampling" <;> rfl
  verbose := show (bif g.has "loud" then (2 : Int) else bif g.has "quiet" then 0 else bif g.has "silent" then -1 else 1) = _ by
    cases g.has "loud" <;> cases g.has "quiet" <;> cases g.has "silent" <;> rfl
  errorType := show (bif g.has "errors-are-weights" then WEIGHTS_ARE_WEIGHTS else bif g.has "errors-are-variances" then WEIGHTS_ARE_VARIANCES else WEIGHTS_ARE_SIGMAS) = _ by
    cases g.has "errors-are-weights" <;> cases g.has "errors-are-variances" <;> rfl
  maskFormat := show (bif g.has "mask-zero-is-bad" then MASK_ZERO_IS_BAD else MASK_ZERO_IS_GOOD) = _ by cases g.has "mask-zero-is-bad" <;> rfl
  configFile := rfl
  noiseImage := show (g.first "noise").or none = _ from Option.or_none
  psf := show (g.first "psf").or none = _ from Option.or_none
  overPsfs := rfl
  overScales := show (if g.every "overpsf_scale" = [] then [] else (g.every "overpsf_scale").map wholeVal) = _ by
    split
    · rename_i h; rw [h]; rfl
    · rfl
  overRegions := show (if g.every "overpsf_region" = [] then [] else g.every "overpsf_region") = _ by
    split
    · rename_i h; rw [h]
    · rfl
  mask := show (g.first "mask").or none = _ from Option.or_none
  sky := ⟨rfl, show (bif (g.first "sky").isSome then true else false) = _ by cases (g.first "sky").isSome <;> rfl⟩
  gain := ⟨rfl, show (bif (g.first "gain").isSome then true else false) = _ by cases (g.first "gain").isSome <;> rfl⟩
  readNoise := ⟨rfl, show (bif (g.first "readnoise").isSome then true else false) = _ by cases (g.first "readnoise").isSome <;> rfl⟩
  expTime := ⟨rfl, show (bif (g.first "exptime").isSome then true else false) = _ by cases (g.first "exptime").isSome <;> rfl⟩
  nCombined := ⟨rfl, show (bif (g.first "ncombined").isSome then true else false) = _ by cases (g.first "ncombined").isSome <;> rfl⟩
  outputRoot := rfl
  append := show (bif g.has "append" then true else false) = _ by cases g.has "append" <;> rfl
  nChains := rfl
  maxEvals := rfl
  nBurnIn := rfl
  nGelmanEvals := rfl
  limit := by
    rw [show (1 + 1 / 100 : ℚ) = 101 / 100 by norm_num]
    rfl
  noise := rfl
  bstar := by
    rw [show (1 / 10 ^ 6 : ℚ) = 1 / 1000000 by norm_num]
    rfl
  maxThreads := rfl
  seed := rfl

/-- The command line is understood as it is meant: every setting is the one asked for, and the default otherwise. The first value of an option counts. Missing: values that are
no numbers and repeated options (as in C105), arguments with several `=` (C36). -/
theorem C113_settings_partial (num : Str → α) (cores : Int) (prog : Str) (as : List Str) (hp : ∀ a ∈ as, Plain a) (hne : as ≠ []) (es : List Ev)
    (hm : meaning mcmcDecls true none as = some es) (hw : Working (cmdGiven mcmcDecls es)) (hf : McmcWellFormed (cmdGiven mcmcDecls es)) :
    ∃ o, mcmcInput num cores (prog :: as) = .ok o ∧ ObeysMcmc num cores (cmdGiven mcmcDecls es) o := by
  obtain ⟨q, e1, e2, v⟩ := (mcmc_reports prog as hp).2 es hm
  have he : q.empty = false := by rw [e2]; cases as with
    | nil => exact absurd rfl hne
    | cons => rfl
  refine ⟨_, ?_, mcmcUpdates_obey num cores _⟩
  rw [mcmcInput, e1, ok_bind, if_neg (show ¬ ((0 : Int) < 0) by decide), steps_ok _ _ (mcmcSteps_updates num v he hw hf)]

/-! ## Errors -/

omit [FP α] in
theorem mcmcSteps_orderly {p : CLine} {g : CmdGiven} (v : Reports mcmcDecls p g) (num : Str → α) : ∀ s ∈ mcmcSteps num p, ∀ o, Orderly (s o) := by
  unfold mcmcSteps
  simp only [List.forall_mem_cons, List.not_mem_nil, false_imp_iff, implies_true, and_true]
  refine ⟨?_,
    exitFlag_orderly v "help" (by owned),
    ?_,
    exitFlag_orderly v "version" (by owned),
    exitFlag_orderly v "list-functions" (by owned),
    exitFlag_orderly v "list-parameters" (by owned),
    exitFlag_orderly v "sample-config" (by owned),
    onFlag_orderly v "model-errors" _ (by owned),
    onFlag_orderly v "cashstat" _ (by owned),
    onFlag_orderly v "poisson-mlr" _ (by owned),
    onFlag_orderly v "mlr" _ (by owned),
    onFlag_orderly v "no-normalize" _ (by owned),
    onFlag_orderly v "no-subsampling" _ (by owned),
    onFlag_orderly v "silent" _ (by owned),
    onFlag_orderly v "quiet" _ (by owned),
    onFlag_orderly v "loud" _ (by owned),
    onFlag_orderly v "errors-are-variances" _ (by owned),
    onFlag_orderly v "errors-are-weights" _ (by owned),
    onFlag_orderly v "mask-zero-is-bad" _ (by owned),
    onOption_orderly v "config" _ (by owned) fun t => .inl ⟨_, rfl⟩,
    onOption_orderly v "noise" _ (by owned) fun t => .inl ⟨_, rfl⟩,
    onOption_orderly v "psf" _ (by owned) fun t => .inl ⟨_, rfl⟩,
    onQueue_orderly v "overpsf" _ (by owned) fun t => .inl ⟨_, rfl⟩,
    onQueue_orderly v "overpsf_scale" _ (by owned) fun t => orderly_bind _ (fun zs (o : McmcOpts α) => { o with base.overScales := zs }) (readScales_orderly t),
    onQueue_orderly v "overpsf_region" _ (by owned) fun t => .inl ⟨_, rfl⟩,
    onOption_orderly v "mask" _ (by owned) fun t => .inl ⟨_, rfl⟩,
    onOption_orderly v "sky" _ (by owned) (asReal_orderly num _ _),
    onOption_orderly v "gain" _ (by owned) (asReal_orderly num _ _),
    onOption_orderly v "readnoise" _ (by owned) (asReal_orderly num _ _),
    onOption_orderly v "exptime" _ (by owned) (asReal_orderly num _ _),
    onOption_orderly v "ncombined" _ (by owned) (asInt_orderly _ _),
    onOption_orderly v "output" _ (by owned) fun t => .inl ⟨_, rfl⟩,
    onFlag_orderly v "append" _ (by owned),
    onOption_orderly v "nchains" _ (by owned) (asLong_orderly _ _),
    onOption_orderly v "max-chain-length" _ (by owned) (asLong_orderly _ _),
    onOption_orderly v "burnin-length" _ (by owned) (asLong_orderly _ _),
    onOption_orderly v "gelman-evals" _ (by owned) (asLong_orderly _ _),
    onOption_orderly v "gelman-rubin-limit" _ (by owned) (asReal_orderly num _ _),
    onOption_orderly v "uniform-offset" _ (by owned) (asReal_orderly num _ _),
    onOption_orderly v "gaussian-offset" _ (by owned) (asReal_orderly num _ _),
    onOption_orderly v "max-threads" _ (by owned) (asLong_orderly _ _),
    onOption_orderly v "seed" _ (by owned) (asLong_orderly _ _)⟩
  · intro o
    split
    · rename_i h
      rw [CLine.argument, rd_ok h, ok_bind]
      exact .inl ⟨_, rfl⟩
    · exact .inl ⟨_, rfl⟩
  · intro o
    split
    · exact .inr (.inl rfl)
    · exact .inl ⟨_, rfl⟩

/-- Whatever the arguments are, nothing but a message, an error message or an integer that is too large ends the program. -/
theorem C113_orderly_partial (num : Str → α) (cores : Int) (prog : Str) (as : List Str) (hp : ∀ a ∈ as, Plain a) :
    (∃ o, mcmcInput num cores (prog :: as) = .ok o) ∨ mcmcInput num cores (prog :: as) = .error .exit ∨ mcmcInput num cores (prog :: as) = .error .overflow := by
  cases hm : meaning mcmcDecls true none as with
  | none =>
    obtain ⟨q, e⟩ := (mcmc_reports prog as hp).1 hm
    rw [mcmcInput, e, ok_bind, if_pos (show (-1 : Int) < 0 by decide)]
    exact .inr (.inl rfl)
  | some es =>
    obtain ⟨q, e1, e2, v⟩ := (mcmc_reports prog as hp).2 es hm
    rw [mcmcInput, e1, ok_bind, if_neg (show ¬ ((0 : Int) < 0) by decide)]
    exact steps_orderly _ (mcmcSteps_orderly v num) _

/-- A command line that is wrong, empty, or has a value that does not begin like a number is refused. -/
theorem C113_refused (num : Str → α) (cores : Int) (prog : Str) (as : List Str) (hp : ∀ a ∈ as, Plain a)
    (h : as = [] ∨ meaning mcmcDecls true none as = none ∨ ∃ es, meaning mcmcDecls true none as = some es ∧
      ((∃ n ∈ ["ncombined", "nchains", "max-chain-length", "burnin-length", "gelman-evals", "max-threads", "seed"],
          ∃ t ∈ (cmdGiven mcmcDecls es).first n, ¬ ∃ c s, t = c :: s ∧ c ∈ "123456789".toList) ∨
       (∃ n ∈ ["gain", "readnoise", "exptime", "gelman-rubin-limit", "uniform-offset", "gaussian-offset"],
          ∃ t ∈ (cmdGiven mcmcDecls es).first n, ¬ ∃ c s, t = c :: s ∧ (c = '.' ∨ c ∈ "0123456789".toList)) ∨
       (∃ t ∈ (cmdGiven mcmcDecls es).first "sky", ¬ ∃ c s, t = c :: s ∧ (c = '.' ∨ c = '-' ∨ c ∈ "0123456789".toList)) ∨
       (∃ t ∈ (cmdGiven mcmcDecls es).every "overpsf_scale", ¬ ∃ c s, t = c :: s ∧ c ∈ "123456789".toList))) (o : McmcOpts α) :
    mcmcInput num cores (prog :: as) ≠ .ok o := by
  cases hm : meaning mcmcDecls true none as with
  | none =>
    obtain ⟨q, e⟩ := (mcmc_reports prog as hp).1 hm
    rw [mcmcInput, e, ok_bind, if_pos (show (-1 : Int) < 0 by decide)]
    exact fun h => by cases h
  | some es =>
    obtain ⟨q, e1, e2, v⟩ := (mcmc_reports prog as hp).2 es hm
    rw [mcmcInput, e1, ok_bind, if_neg (show ¬ ((0 : Int) < 0) by decide)]
    rcases h with rfl | h | ⟨es', h1, h⟩
    · refine step_bad _ 2 _ rfl ?_ _ _
      intro o r e
      rw [e2] at e
      cases e
    · rw [hm] at h; cases h
    · rw [hm] at h1
      injection h1 with h1
      subst h1
      have hL : ∀ (set : Int → McmcOpts α → McmcOpts α) t, (¬ ∃ c s, t = c :: s ∧ c ∈ "123456789".toList) → ∀ r, asLong .posInt set t ≠ .ok r := by
        intro set t ht r e
        rw [asLong, if_pos (notPosInt t ht)] at e
        cases e
      have hI : ∀ (set : Int → McmcOpts α → McmcOpts α) t, (¬ ∃ c s, t = c :: s ∧ c ∈ "123456789".toList) → ∀ r, asInt .posInt set t ≠ .ok r := by
        intro set t ht r e
        rw [asInt, if_pos (notPosInt t ht)] at e
        cases e
      have hR : ∀ (set : α → McmcOpts α → McmcOpts α) t, (¬ ∃ c s, t = c :: s ∧ (c = '.' ∨ c ∈ "0123456789".toList)) → ∀ r, asReal num .posReal set t ≠ .ok r := by
        intro set t ht r e
        rw [asReal, if_pos (notPosReal t ht)] at e
        cases e
      rcases h with ⟨n, hn, t, ht, h⟩ | ⟨n, hn, t, ht, h⟩ | ⟨t, ht, h⟩ | ⟨t, ht, h⟩
      · simp only [List.mem_cons, List.not_mem_nil, or_false] at hn
        rcases hn with rfl | rfl | rfl | rfl | rfl | rfl | rfl
        · exact step_bad _ 30 _ rfl (onOption_bad v "ncombined" _ (by owned) t ht (hI _ t h)) _ _
        · exact step_bad _ 33 _ rfl (onOption_bad v "nchains" _ (by owned) t ht (hL _ t h)) _ _
        · exact step_bad _ 34 _ rfl (onOption_bad v "max-chain-length" _ (by owned) t ht (hL _ t h)) _ _
        · exact step_bad _ 35 _ rfl (onOption_bad v "burnin-length" _ (by owned) t ht (hL _ t h)) _ _
        · exact step_bad _ 36 _ rfl (onOption_bad v "gelman-evals" _ (by owned) t ht (hL _ t h)) _ _
        · exact step_bad _ 40 _ rfl (onOption_bad v "max-threads" _ (by owned) t ht (hL _ t h)) _ _
        · exact step_bad _ 41 _ rfl (onOption_bad v "seed" _ (by owned) t ht (hL _ t h)) _ _
      · simp only [List.mem_cons, List.not_mem_nil, or_false] at hn
        rcases hn with rfl | rfl | rfl | rfl | rfl | rfl
        · exact step_bad _ 27 _ rfl (onOption_bad v "gain" _ (by owned) t ht (hR _ t h)) _ _
        · exact step_bad _ 28 _ rfl (onOption_bad v "readnoise" _ (by owned) t ht (hR _ t h)) _ _
        · exact step_bad _ 29 _ rfl (onOption_bad v "exptime" _ (by owned) t ht (hR _ t h)) _ _
        · exact step_bad _ 37 _ rfl (onOption_bad v "gelman-rubin-limit" _ (by owned) t ht (hR _ t h)) _ _
        · exact step_bad _ 38 _ rfl (onOption_bad v "uniform-offset" _ (by owned) t ht (hR _ t h)) _ _
        · exact step_bad _ 39 _ rfl (onOption_bad v "gaussian-offset" _ (by owned) t ht (hR _ t h)) _ _
      · refine step_bad _ 26 _ rfl (onOption_bad v "sky" _ (by owned) t ht ?_) _ _
        intro r e
        rw [asReal, if_pos (notAnyReal t h)] at e
        cases e
      · refine step_bad _ 23 _ rfl ?_ _ _
        intro o r e
        rw [onQueue_eq v "overpsf_scale" (by owned)] at e
        split at e
        · rename_i hn
          rw [hn] at ht
          cases ht
        · cases hz : readScales ((cmdGiven mcmcDecls es).every "overpsf_scale") with
          | error f => rw [hz] at e; cases e
          | ok zs => exact readScales_bad _ t ht (notPosInt t h) zs hz

/-! ## The settings of DREAM -/

/-- From the command line to DREAM: every free parameter needs two limits; the number of chains is that of the command line, or that of the free parameters; length, burn-in, limit and
offsets are those of the command line; fixed parameters are locked at their values, free ones lie between their limits; without a seed the clock is used. -/
theorem C113_dream (num : Str → α) (cores : Int) (g : CmdGiven) (hf : McmcWellFormed g) (o : McmcOpts α) (ho : ObeysMcmc num cores g o) (params : List (McmcParam α)) :
    if ∃ p ∈ params, p.fixed = false ∧ p.limited ≠ (true, true) then mcmcSettings params o = .error .exit
    else ∃ c s, mcmcSettings params o = .ok (c, s) ∧ (c.numChains : Int) = ((g.first "nchains").map wholeVal).getD (params.countP fun p => !p.fixed) ∧
      (c.maxEvals : Int) = ((g.first "max-chain-length").map wholeVal).getD 100000 ∧ (c.burnIn : Int) = ((g.first "burnin-length").map wholeVal).getD 5000 ∧
      c.crit = ((g.first "gelman-rubin-limit").map num).getD (lit (1 + 1 / 100)) ∧ c.noise = ((g.first "uniform-offset").map num).getD (lit (1 / 100)) ∧
      c.bstar = ((g.first "gaussian-offset").map num).getD (lit (1 / 10 ^ 6)) ∧ c.append = g.has "append" ∧ s = (g.first "seed").map wholeVal ∧
      c.nvar = params.length ∧ c.lock = params.map (·.fixed) ∧ c.lo = (params.map fun p => if p.fixed then p.value else p.lo) ∧
      c.hi = params.map fun p => if p.fixed then p.value else p.hi := by
  have hany : (params.any fun p => !p.fixed && (!p.limited.1 || !p.limited.2)) = true ↔ ∃ p ∈ params, p.fixed = false ∧ p.limited ≠ (true, true) := by
    rw [List.any_eq_true]
    constructor
    · rintro ⟨p, hp, h⟩
      refine ⟨p, hp, ?_⟩
      rcases p with ⟨f, v, ⟨a, b⟩, l, h'⟩
      cases f <;> cases a <;> cases b <;> simp_all
    · rintro ⟨p, hp, h⟩
      refine ⟨p, hp, ?_⟩
      rcases p with ⟨f, v, ⟨a, b⟩, l, h'⟩
      cases f <;> cases a <;> cases b <;> simp_all
  split
  · rename_i h
    rw [mcmcSettings, if_pos (hany.2 h)]
  · rename_i h
    have nat : ∀ {n : String} (d : Int), 0 ≤ d → (∀ t ∈ g.first n, IsWhole 2147483647 t) → ((((g.first n).map wholeVal).getD d).toNat : Int) = ((g.first n).map wholeVal).getD d := by
      intro n d hd hw
      cases hg : g.first n with
      | none => simp [Int.toNat_of_nonneg hd]
      | some t =>
        have := (whole_bounds (hw t (by simp [hg]))).1
        simp only [Option.map_some, Option.getD_some]
        omega
    refine ⟨_, _, by rw [mcmcSettings, if_neg (fun e => h (hany.1 e))], ?_, ?_, ?_, ho.limit, ho.noise, ho.bstar, ho.append, ?_, ?_, ?_, ?_, ?_⟩
    · show (((if o.nChains.toNat = 0 then _ else o.nChains.toNat : Nat) : Nat) : Int) = _
      rw [ho.nChains]
      cases hg : g.first "nchains" with
      | none =>
        simp only [Option.map_none, Option.getD_none]
        rw [if_pos (by rfl), List.countP_eq_length_filter, List.filter_map, List.length_map]
        rfl
      | some t =>
        have := (whole_bounds (hf.nchains t (by simp [hg]))).1
        simp only [Option.map_some, Option.getD_some]
        rw [if_neg (by omega)]
        omega
    · show (o.maxEvals.toNat : Int) = _
      rw [ho.maxEvals]
      exact nat _ (by decide) hf.maxLength
    · show (o.nBurnIn.toNat : Int) = _
      rw [ho.nBurnIn]
      exact nat _ (by decide) hf.burnin
    · rw [ho.seed]
      cases hg : g.first "seed" with
      | none => rfl
      | some t =>
        have := (whole_bounds (hf.seed t (by simp [hg]))).1
        simp only [Option.map_some, Option.getD_some]
        rw [if_pos (by omega)]
    · exact List.length_map ..
    · exact List.map_map ..
    · exact List.map_map ..
    · exact List.map_map ..

/-- The convergence of the chains is tested when `m` generations have passed since the last test (or the end of burn-in), where `m` is what was asked for if that is a multiple of ten.
`k` is the number of earlier turns, each of ten generations. -/
theorem C113_gelman_partial {σ : Type} (params : List (McmcParam α)) (o : McmcOpts α) (c : DreamCfg α) (seed : Option Int) (h : mcmcSettings params o = .ok (c, seed)) (m : Nat)
    (ho : o.nGelmanEvals = (10 * m : Nat)) (G : Gsl α) (t : Nat) (st : DreamSt σ α) (hb : st.inBurn = false) :
    c.loopSteps = 10 ∧
    (10 * (st.curRun + 1) < 10 * m → convergence c G t st = .ok ({ st with curRun := st.curRun + 1 }, false)) ∧
    (10 * m ≤ 10 * (st.curRun + 1) → convergence c G t st = (do
      let s ← gelmanRubin c G st.state st.scaleRed (st.burnStart + c.burnIn) t
      let b ← allConverged c s
      if b then .ok ({ st with scaleRed := s, curRun := st.curRun + 1 }, true) else .ok ({ st with scaleRed := s, curRun := 0 }, false))) := by
  have hc : c.loopSteps = 10 ∧ c.gelmanEvals = m := by
    unfold mcmcSettings at h
    split at h
    · cases h
    · injection h with h
      injection h with h1 h2
      subst h1
      refine ⟨rfl, ?_⟩
      show o.nGelmanEvals.toNat / 10 = m
      rw [ho]
      omega
  refine ⟨hc.1, fun hk => ?_, fun hk => ?_⟩
  · rw [convergence, hb, if_neg (by decide), if_neg (by rw [hc.2]; omega)]
  · rw [convergence, hb, if_neg (by decide), if_pos (by rw [hc.2]; omega)]

/-- The settings that the configuration file can make as well, as in C106. -/
theorem C113_precedence_partial (num : Str → α) (cores : Int) (prog : Str) (as : List Str) (hp : ∀ a ∈ as, Plain a) (hne : as ≠ []) (es : List Ev)
    (hm : meaning mcmcDecls true none as = some es) (hw : Working (cmdGiven mcmcDecls es)) (hf : McmcWellFormed (cmdGiven mcmcDecls es)) (opts : List (Str × Str))
    (hc : ∀ kv ∈ opts, kv.1 = "NCOMBINED".toList → IsWhole 2147483647 kv.2) :
    ∃ o o', ObeysMcmc num cores (cmdGiven mcmcDecls es) o ∧ (mcmcInput num cores (prog :: as) >>= mcmcConfig num opts) = .ok o' ∧
      o'.base.gain = (((cmdGiven mcmcDecls es).first "gain").or (lastValue opts "GAIN") |>.map num).getD 1 ∧
      o'.base.readNoise = (((cmdGiven mcmcDecls es).first "readnoise").or (lastValue opts "READNOISE") |>.map num).getD 0 ∧
      o'.base.expTime = (((cmdGiven mcmcDecls es).first "exptime").or (lastValue opts "EXPTIME") |>.map num).getD 1 ∧
      o'.base.sky = (((cmdGiven mcmcDecls es).first "sky").or (lastValue opts "ORIGINAL_SKY") |>.map num).getD 0 ∧
      o'.base.nCombined = (((cmdGiven mcmcDecls es).first "ncombined").or (lastValue opts "NCOMBINED") |>.map wholeVal).getD 1 ∧
      o' = { o with base := { o.base with gain := o'.base.gain, readNoise := o'.base.readNoise, expTime := o'.base.expTime, sky := o'.base.sky, nCombined := o'.base.nCombined } } := by
  obtain ⟨o, h1, h2⟩ := C113_settings_partial num cores prog as hp hne es hm hw hf
  refine ⟨o, { o with base := afterConfig num opts o.base }, h2, ?_, ?_, ?_, ?_, ?_, ?_, rfl⟩
  · rw [h1, ok_bind, mcmcConfig, configOptions_eq num opts o.base (.inr hc), ok_bind]
  · simp only [afterConfig, h2.gain.1, h2.gain.2]
    cases (cmdGiven mcmcDecls es).first "gain" <;> simp
  · simp only [afterConfig, h2.readNoise.1, h2.readNoise.2]
    cases (cmdGiven mcmcDecls es).first "readnoise" <;> simp
  · simp only [afterConfig, h2.expTime.1, h2.expTime.2]
    cases (cmdGiven mcmcDecls es).first "exptime" <;> simp
  · simp only [afterConfig, h2.sky.1, h2.sky.2]
    cases (cmdGiven mcmcDecls es).first "sky" <;> simp
  · simp only [afterConfig, h2.nCombined.1, h2.nCombined.2]
    cases (cmdGiven mcmcDecls es).first "ncombined" <;> simp

/-! ## Where the code differs -/

/-- `--cashstat` never works: the choice of the statistic takes the default solver of `OptionsBase`, Levenberg-Marquardt, for the one in use, and ends the program. -/
theorem C113_cash_false (num : Str → α) (cores : Int) (g : CmdGiven) (o : McmcOpts α) (ho : ObeysMcmc num cores g o) (h : g.has "cashstat" = true) : mcmcStat o = .error .exit := by
  rw [mcmcStat, chooseStat, if_pos (by rw [ho.cash, h]), if_pos ⟨ho.solver.1, ho.solver.2⟩]

/-- Numbers of generations between tests that are not multiples of ten are rounded down, and those below ten up: 19 and 5 are both 10, as the first turn of ten generations already
tests. -/
theorem C113_gelman_false {σ : Type} (params : List (McmcParam α)) (o : McmcOpts α) (c : DreamCfg α) (seed : Option Int) (h : mcmcSettings params o = .ok (c, seed))
    (ho : o.nGelmanEvals = 19 ∨ o.nGelmanEvals = 5) (G : Gsl α) (t : Nat) (st : DreamSt σ α) (hb : st.inBurn = false) (h0 : st.curRun = 0) :
    convergence c G t st = (do
      let s ← gelmanRubin c G st.state st.scaleRed (st.burnStart + c.burnIn) t
      let b ← allConverged c s
      if b then .ok ({ st with scaleRed := s, curRun := st.curRun + 1 }, true) else .ok ({ st with scaleRed := s, curRun := 0 }, false)) := by
  have hc : c.gelmanEvals ≤ 1 := by
    unfold mcmcSettings at h
    split at h
    · cases h
    · injection h with h
      injection h with h1 h2
      subst h1
      show o.nGelmanEvals.toNat / 10 ≤ 1
      rcases ho with ho | ho <;> rw [ho] <;> decide
  rw [convergence, hb, if_neg (by decide), if_pos (by omega)]

/-- A model with a single free parameter: the default is a single chain, for which DREAM finds no partner (C59). -/
theorem C113_single_false {σ : Type} (hL : CmpLaws α) (num : Str → α) (cores : Int) (g : CmdGiven) (o : McmcOpts α) (ho : ObeysMcmc num cores g o) (hn : g.first "nchains" = none)
    (ha : g.has "append" = false) (hm : 2 ≤ o.maxEvals) (p : McmcParam α) (hp : p.fixed = false) (hl : p.limited = (true, true)) (hlh : flt p.hi p.lo = false)
    (R : Rng σ α) (hR : Spec.GoodRng R) (G : Gsl α) (F : List α → α) (hF : NumberLik F) (off : List α) (fuel : Nat) (s : σ) :
    ∃ c seed, mcmcSettings [p] o = .ok (c, seed) ∧ dream c R G F off [] (fuel + 2) s = .error .exit := by
  rcases p with ⟨f, v, l, lo, hi⟩
  simp only at hp hl hlh
  subst hp hl
  refine ⟨_, _, rfl, ?_⟩
  have h := C59_default_false hL v lo hi hlh o.maxEvals.toNat o.nBurnIn.toNat o.nGelmanEvals.toNat o.limit o.noise o.bstar (by omega) R hR G F hF off fuel s
  rw [ho.append, ha, ho.nChains, hn]
  exact h

/-- A command line. -/
def mcmcLine (as : List String) : List Str := ("imfit-mcmc" :: as).map String.toList

set_option maxRecDepth 100000 in
/-- Numbers are cut to 32 bits: 4294967296 chains are as many as there are free parameters, and no evaluations are wanted from each chain. -/
theorem C113_unchecked_false (num : Str → α) (cores : Int) :
    (mcmcInput num cores (mcmcLine ["a.fits", "--nchains", "4294967296", "--max-chain-length=4294967296"])).map (fun o => (o.nChains, o.maxEvals)) = .ok (0, 0) ∧
    (mcmcInput num cores (mcmcLine ["a.fits", "--nchains", "1", "--burnin-length", "200000"])).map (fun o => (o.nChains, decide (o.maxEvals < o.nBurnIn))) = .ok (1, true) := by
  exact ⟨by with_unfolding_all rfl, by with_unfolding_all rfl⟩

/-- A command line. -/
def exMcmcLine : List Str := ["a.fits", "--nchains=4", "--gelman-evals", "200", "--gain", "4.5", "-o", "out", "--seed=7", "--append"].map String.toList

def exMcmcEvents : List Ev := (meaning mcmcDecls true none exMcmcLine).getD []

theorem exMcmcMeaning : meaning mcmcDecls true none exMcmcLine = some exMcmcEvents := by
  have : (meaning mcmcDecls true none exMcmcLine).isSome = true := by decide +kernel
  obtain ⟨es, h⟩ := Option.isSome_iff_exists.1 this
  rw [exMcmcEvents, h]
  rfl

theorem exMcmcWorking : Working (cmdGiven mcmcDecls exMcmcEvents) := by
  have : ["help", "version", "list-functions", "list-parameters", "sample-config"].all (fun n => (cmdGiven mcmcDecls exMcmcEvents).has n == false) = true := by decide +kernel
  intro n hn
  simpa using List.all_eq_true.1 this n hn

theorem exMcmcWell : McmcWellFormed (cmdGiven mcmcDecls exMcmcEvents) := by
  have none_of : ∀ n, (cmdGiven mcmcDecls exMcmcEvents).first n = none → ∀ (Q : Str → Prop), ∀ t ∈ (cmdGiven mcmcDecls exMcmcEvents).first n, Q t := by
    intro n h Q t ht
    rw [h] at ht
    cases ht
  refine ⟨none_of _ (by decide +kernel) _, ?_, none_of _ (by decide +kernel) _, none_of _ (by decide +kernel) _, none_of _ (by decide +kernel) _, ?_, none_of _ (by decide +kernel) _,
    none_of _ (by decide +kernel) _, ?_, none_of _ (by decide +kernel) _, none_of _ (by decide +kernel) _, none_of _ (by decide +kernel) _, none_of _ (by decide +kernel) _, ?_, ?_⟩
  · intro t ht
    rw [show (cmdGiven mcmcDecls exMcmcEvents).first "gain" = some "4.5".toList by decide +kernel] at ht
    cases ht
    exact ⟨"4".toList, ".5".toList, [], by decide, by unfold Digits; decide, .inr ⟨"5".toList, by decide, by unfold Digits; decide, .inl (by decide)⟩, .inl rfl⟩
  · intro t ht
    rw [show (cmdGiven mcmcDecls exMcmcEvents).first "nchains" = some "4".toList by decide +kernel] at ht
    cases ht
    exact ⟨4, by decide, by decide, by decide +kernel⟩
  · intro t ht
    rw [show (cmdGiven mcmcDecls exMcmcEvents).first "gelman-evals" = some "200".toList by decide +kernel] at ht
    cases ht
    exact ⟨200, by decide, by decide, by decide +kernel⟩
  · intro t ht
    rw [show (cmdGiven mcmcDecls exMcmcEvents).first "seed" = some "7".toList by decide +kernel] at ht
    cases ht
    exact ⟨7, by decide, by decide, by decide +kernel⟩
  · intro t ht
    rw [show (cmdGiven mcmcDecls exMcmcEvents).every "overpsf_scale" = [] by decide +kernel] at ht
    cases ht

theorem exMcmcPlain : ∀ a ∈ exMcmcLine, Plain a := by
  intro a ha
  simp only [exMcmcLine, List.map_cons, List.map_nil, List.mem_cons, List.not_mem_nil, or_false] at ha
  rcases ha with rfl | rfl | rfl | rfl | rfl | rfl | rfl | rfl | rfl | rfl
  · exact fun h => absurd h (by decide)
  · exact fun _ => Or.inr ⟨"nchains".toList, "4".toList, by decide, by decide, by decide, by decide, by decide⟩
  · exact fun _ => Or.inl (by decide)
  · exact fun h => absurd h (by decide)
  · exact fun _ => Or.inl (by decide)
  · exact fun h => absurd h (by decide)
  · exact fun _ => Or.inl (by decide)
  · exact fun h => absurd h (by decide)
  · exact fun _ => Or.inr ⟨"seed".toList, "7".toList, by decide, by decide, by decide, by decide, by decide⟩
  · exact fun _ => Or.inl (by decide)

example : ∃ o, mcmcInput (α := XR) (fun _ => 0) 4 ("imfit-mcmc".toList :: exMcmcLine) = .ok o ∧
    o.nChains = 4 ∧ o.nGelmanEvals = 200 ∧ o.outputRoot = "out".toList ∧ o.base.seed = 7 ∧ o.append = true ∧ o.base.gainSet = true ∧ o.base.image = some "a.fits".toList := by
  obtain ⟨o, h1, h2⟩ := C113_settings_partial (α := XR) (fun _ => 0) 4 "imfit-mcmc".toList exMcmcLine exMcmcPlain (by decide) exMcmcEvents exMcmcMeaning exMcmcWorking exMcmcWell
  refine ⟨o, h1, ?_, ?_, ?_, ?_, ?_, ?_, ?_⟩
  · rw [h2.nChains]; decide +kernel
  · rw [h2.nGelmanEvals]; decide +kernel
  · rw [h2.outputRoot]; decide +kernel
  · rw [h2.seed]; decide +kernel
  · rw [h2.append]; decide +kernel
  · rw [h2.gain.2]; decide +kernel
  · rw [h2.image]; decide +kernel

end Imfit
