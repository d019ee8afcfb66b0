import Verif.Lemmas.Options
import Verif.Spec.Multimfit
import Verif.Model.XR

/-!
# C117 — `multimfit` does what its command line and its image-info file say

The options are those of the command line (`C117_settings_partial`, `C117_orderly_partial`, `C117_refused`); every image is fitted with its own data, PSF, mask, noise image and
characteristics, whatever the other images are (`C117_images_partial`); the files that are written are those that were asked for (`C117_files_partial`).

It fails in these cases.

* Without `--cashstat` the choice of the statistic depends on members of the options that have no value (`C117_statistic_false`). `C117_images_partial` therefore asks for values.
* `--mask-zero-is-bad`, `--errors-are-variances` and `--errors-are-weights` have no effect (`C117_formats_false`).
* `--save-residual`, `--save-weights` and `--printimage` have none, nor has any argument that is not an option (`C117_ignored_false`, `C117_arguments_false`).
* `--fitstat-only` writes files of "best-fit" parameters without a fit, and with `--bootstrap` fits are done, without the limits of the parameters (`C117_statOnly_false`).
* A file of parameters that cannot be opened is written to all the same (`C117_unopened_false`).
-/

namespace Imfit

open Spec

variable {α : Type}

theorem multParser_eq : multParser = parser multDecls true := by rfl

theorem mult_reports (prog : Str) (as : List Str) (hp : ∀ a ∈ as, Plain a) :
    (meaning multDecls true none as = none → ∃ q, parseCommandLine multParser (prog :: as) = .ok (-1, q)) ∧
    ∀ es, meaning multDecls true none as = some es →
      ∃ q, parseCommandLine multParser (prog :: as) = .ok (0, q) ∧ q.empty = as.isEmpty ∧ Reports multDecls q (cmdGiven multDecls es) := by
  rw [multParser_eq]
  exact cmd_reports multDecls prog as hp

/-- What the blocks of `ProcessInput` do to the options. -/
def multUpdates (num : Str → α) (g : CmdGiven) : List (MultOpts α → MultOpts α) :=
  [id,
    id,
    id,
    id,
    id,
    id,
    fun o => { o with printImages := bif g.has "printimage" then true else o.printImages },
    fun o => { o with statOnly := bif g.has "chisquare-only" then true else o.statOnly },
    fun o => { o with statOnly := bif g.has "fitstat-only" then true else o.statOnly },
    fun o => { o with modelErrors := bif g.has "model-errors" then some true else o.modelErrors },
    fun o => { o with cash := bif g.has "cashstat" then some true else o.cash },
    fun o => { o with mlr := bif g.has "poisson-mlr" then some true else o.mlr },
    fun o => { o with mlr := bif g.has "mlr" then some true else o.mlr },
    fun o => { o with solver := bif g.has "nm" then NMSIMPLEX_SOLVER else o.solver },
    fun o => { o with solver := bif (g.first "nlopt").isSome then GENERIC_NLOPT_SOLVER else o.solver, nloptName := (g.first "nlopt").getD o.nloptName },
    fun o => { o with solver := bif g.has "de" then DIFF_EVOLN_SOLVER else o.solver },
    fun o => { o with subsampling := bif g.has "nosubsampling" then false else o.subsampling },
    fun o => { o with verbose := bif g.has "silent" then -1 else o.verbose },
    fun o => { o with verbose := bif g.has "quiet" then 0 else o.verbose },
    fun o => { o with verbose := bif g.has "loud" then 2 else o.verbose },
    fun o => { o with logging := bif g.has "logging" then true else o.logging },
    fun o => { o with errorType := bif g.has "errors-are-variances" then WEIGHTS_ARE_VARIANCES else o.errorType },
    fun o => { o with errorType := bif g.has "errors-are-weights" then WEIGHTS_ARE_WEIGHTS else o.errorType },
    fun o => { o with maskFormat := bif g.has "mask-zero-is-bad" then MASK_ZERO_IS_BAD else o.maskFormat },
    fun o => { o with configFile := (g.first "config").getD o.configFile },
    fun o => { o with imageInfo := (g.first "image-info").or o.imageInfo },
    fun o => { o with saveModel := (g.first "save-model").or o.saveModel },
    fun o => { o with saveResidual := (g.first "save-residual").or o.saveResidual },
    fun o => { o with saveWeights := (g.first "save-weights").or o.saveWeights },
    fun o => { o with paramsRoot := (g.first "save-params-root").getD o.paramsRoot },
    fun o => { o with ftol := ((g.first "ftol").map num).getD o.ftol },
    fun o => { o with bootstrap := ((g.first "bootstrap").map wholeVal).or o.bootstrap },
    fun o => { o with saveBootstrap := (g.first "save-bootstrap").or o.saveBootstrap },
    fun o => { o with maxThreads := ((g.first "max-threads").map wholeVal).or o.maxThreads },
    fun o => { o with seed := ((g.first "seed").map wholeVal).getD o.seed }]

theorem multSteps_updates (num : Str → α) {p : CLine} {g : CmdGiven} (v : Reports multDecls p g) (he : p.empty = false) (hw : Working g) (hf : MultWellFormed g) :
    List.Forall₂ (fun s u => ∀ o, s o = .ok (u o)) (multSteps num p) (multUpdates num g) := by
  unfold multSteps multUpdates
  refine .cons ?_ (.cons ?_ (.cons ?_ (.cons ?_ (.cons ?_ (.cons ?_ (.cons ?_ (.cons ?_ (.cons ?_ (.cons ?_ (.cons ?_ (.cons ?_ (.cons ?_ (.cons ?_ (.cons ?_ (.cons ?_ (.cons ?_ (.cons ?_ (.cons ?_ (.cons ?_ (.cons ?_ (.cons ?_ (.cons ?_ (.cons ?_ (.cons ?_ (.cons ?_ (.cons ?_ (.cons ?_ (.cons ?_ (.cons ?_ (.cons ?_ (.cons ?_ (.cons ?_ (.cons ?_ (.cons ?_ .nil))))))))))))))))))))))))))))))))))
  · exact exitFlag_upd v "help" (by owned) (hw _ (by simp))
  · intro o; rw [he]; rfl
  · exact exitFlag_upd v "version" (by owned) (hw _ (by simp))
  · exact exitFlag_upd v "list-functions" (by owned) (hw _ (by simp))
  · exact exitFlag_upd v "list-parameters" (by owned) (hw _ (by simp))
  · exact exitFlag_upd v "sample-config" (by owned) (hw _ (by simp))
  · exact onFlag_upd v "printimage" _ _ (by owned) fun o => by cases g.has "printimage" <;> rfl
  · exact onFlag_upd v "chisquare-only" _ _ (by owned) fun o => by cases g.has "chisquare-only" <;> rfl
  · exact onFlag_upd v "fitstat-only" _ _ (by owned) fun o => by cases g.has "fitstat-only" <;> rfl
  · exact onFlag_upd v "model-errors" _ _ (by owned) fun o => by cases g.has "model-errors" <;> rfl
  · exact onFlag_upd v "cashstat" _ _ (by owned) fun o => by cases g.has "cashstat" <;> rfl
  · exact onFlag_upd v "poisson-mlr" _ _ (by owned) fun o => by cases g.has "poisson-mlr" <;> rfl
  · exact onFlag_upd v "mlr" _ _ (by owned) fun o => by cases g.has "mlr" <;> rfl
  · exact onFlag_upd v "nm" _ _ (by owned) fun o => by cases g.has "nm" <;> rfl
  · refine onOption_upd v "nlopt" _ (fun t o => { o with solver := GENERIC_NLOPT_SOLVER, nloptName := t }) _ (by owned) ?_ fun o => by cases g.first "nlopt" <;> rfl
    intro t ht
    have hv : validNLOptSolverName t = true := by
      have := hf.nlopt t ht
      simp only [List.map_cons, List.map_nil, List.mem_cons, List.not_mem_nil, or_false] at this
      rcases this with rfl | rfl | rfl | rfl | rfl | rfl <;> decide
    rw [if_pos hv]
  · exact onFlag_upd v "de" _ _ (by owned) fun o => by cases g.has "de" <;> rfl
  · exact onFlag_upd v "nosubsampling" _ _ (by owned) fun o => by cases g.has "nosubsampling" <;> rfl
  · exact onFlag_upd v "silent" _ _ (by owned) fun o => by cases g.has "silent" <;> rfl
  · exact onFlag_upd v "quiet" _ _ (by owned) fun o => by cases g.has "quiet" <;> rfl
  · exact onFlag_upd v "loud" _ _ (by owned) fun o => by cases g.has "loud" <;> rfl
  · exact onFlag_upd v "logging" _ _ (by owned) fun o => by cases g.has "logging" <;> rfl
  · exact onFlag_upd v "errors-are-variances" _ _ (by owned) fun o => by cases g.has "errors-are-variances" <;> rfl
  · exact onFlag_upd v "errors-are-weights" _ _ (by owned) fun o => by cases g.has "errors-are-weights" <;> rfl
  · exact onFlag_upd v "mask-zero-is-bad" _ _ (by owned) fun o => by cases g.has "mask-zero-is-bad" <;> rfl
  · exact onOption_upd v "config" _ (fun t o => { o with configFile := t }) _ (by owned) (fun _ _ => rfl) fun o => by cases g.first "config" <;> rfl
  · exact onOption_upd v "image-info" _ (fun t o => { o with imageInfo := some t }) _ (by owned) (fun _ _ => rfl) fun o => by cases g.first "image-info" <;> rfl
  · exact onOption_upd v "save-model" _ (fun t o => { o with saveModel := some t }) _ (by owned) (fun _ _ => rfl) fun o => by cases g.first "save-model" <;> rfl
  · exact onOption_upd v "save-residual" _ (fun t o => { o with saveResidual := some t }) _ (by owned) (fun _ _ => rfl) fun o => by cases g.first "save-residual" <;> rfl
  · exact onOption_upd v "save-weights" _ (fun t o => { o with saveWeights := some t }) _ (by owned) (fun _ _ => rfl) fun o => by cases g.first "save-weights" <;> rfl
  · exact onOption_upd v "save-params-root" _ (fun t o => { o with paramsRoot := t }) _ (by owned) (fun _ _ => rfl) fun o => by cases g.first "save-params-root" <;> rfl
  · exact onOption_upd v "ftol" _ (fun t o => { o with ftol := num t }) _ (by owned)
      (fun t ht => by rw [asReal, (notANumber_unsigned t (hf.ftol t ht)).1]; rfl) fun o => by cases g.first "ftol" <;> rfl
  · refine onOption_upd v "bootstrap" _ (fun t o => { o with bootstrap := some (wholeVal t) }) _ (by owned) ?_ fun o => by cases g.first "bootstrap" <;> rfl
    intro t ht
    have hb := whole_bounds (hf.bootstrap t ht)
    rw [asLong_whole _ t (isWhole_mono (by decide) (hf.bootstrap t ht)), longToInt_id _ (by omega) (by omega)]
  · exact onOption_upd v "save-bootstrap" _ (fun t o => { o with saveBootstrap := some t }) _ (by owned) (fun _ _ => rfl) fun o => by cases g.first "save-bootstrap" <;> rfl
  · refine onOption_upd v "max-threads" _ (fun t o => { o with maxThreads := some (wholeVal t) }) _ (by owned) ?_ fun o => by cases g.first "max-threads" <;> rfl
    intro t ht
    have hb := whole_bounds (hf.threads t ht)
    rw [asLong_whole _ t (isWhole_mono (by decide) (hf.threads t ht)), longToInt_id _ (by omega) (by omega)]
  · exact onOption_upd v "seed" _ (fun t o => { o with seed := wholeVal t }) _ (by owned) (fun t ht => asLong_whole _ t (hf.seed t ht)) fun o => by cases g.first "seed" <;> rfl

variable [FP α]

theorem multUpdates_obey (num : Str → α) (g : CmdGiven) : ObeysMult num g ((multUpdates num g).foldl (fun o u => u o) defaultMult) where
  printImages := show (bif g.has "printimage" then true else false) = _ by cases g.has "printimage" <;> rfl
  statOnly := show (bif g.has "fitstat-only" then true else bif g.has "chisquare-only" then true else false) = _ by cases g.has "fitstat-only" <;> cases g.has "chisquare-only" <;> rfl
  modelErrors := show (bif g.has "model-errors" then some true else none) = _ by cases g.has "model-errors" <;> rfl
  cash := show (bif g.has "cashstat" then some true else none) = _ by cases g.has "cashstat" <;> rfl
  mlr := show (bif g.has "mlr" then some true else bif g.has "poisson-mlr" then some true else none) = _ by cases g.has "mlr" <;> cases g.has "poisson-mlr" <;> rfl
  solver := show (bif g.has "de" then (2 : Int) else bif (g.first "nlopt").isSome then 5 else bif g.has "nm" then 3 else 1) = _ by
    cases g.has "de" <;> cases (g.first "nlopt").isSome <;> cases g.has "nm" <;> rfl
  nloptName := rfl
  subsampling := show (bif g.has "nosubsampling" then false else true) = _ by cases g.has "nosubsampling" <;> rfl
  verbose := show (bif g.has "loud" then (2 : Int) else bif g.has "quiet" then 0 else bif g.has "silent" then -1 else 1) = _ by
    cases g.has "loud" <;> cases g.has "quiet" <;> cases g.has "silent" <;> rfl
  logging := show (bif g.has "logging" then true else false) = _ by cases g.has "logging" <;> rfl
  errorType := show (bif g.has "errors-are-weights" then WEIGHTS_ARE_WEIGHTS else bif g.has "errors-are-variances" then WEIGHTS_ARE_VARIANCES else WEIGHTS_ARE_SIGMAS) = _ by
    cases g.has "errors-are-weights" <;> cases g.has "errors-are-variances" <;> rfl
  maskFormat := show (bif g.has "mask-zero-is-bad" then MASK_ZERO_IS_BAD else MASK_ZERO_IS_GOOD) = _ by cases g.has "mask-zero-is-bad" <;> rfl
  configFile := rfl
  imageInfo := show (g.first "image-info").or none = _ from Option.or_none
  saveModel := show (g.first "save-model").or none = _ from Option.or_none
  saveResidual := show (g.first "save-residual").or none = _ from Option.or_none
  saveWeights := show (g.first "save-weights").or none = _ from Option.or_none
  paramsRoot := rfl
  ftol := by
    rw [show (1 / 10 ^ 8 : ℚ) = 1 / 100000000 by norm_num]
    rfl
  bootstrap := show ((g.first "bootstrap").map wholeVal).or none = _ from Option.or_none
  saveBootstrap := show (g.first "save-bootstrap").or none = _ from Option.or_none
  maxThreads := show ((g.first "max-threads").map wholeVal).or none = _ from Option.or_none
  seed := rfl

/-- The command line is understood as it is meant: every setting is the one asked for, and the default otherwise. The first value of an option counts. Missing: values that are
no numbers and repeated options (as in C105), arguments with several `=` (C36). -/
theorem C117_settings_partial (num : Str → α) (prog : Str) (as : List Str) (hp : ∀ a ∈ as, Plain a) (hne : as ≠ []) (es : List Ev)
    (hm : meaning multDecls true none as = some es) (hw : Working (cmdGiven multDecls es)) (hf : MultWellFormed (cmdGiven multDecls es)) :
    ∃ o, multInput num (prog :: as) = .ok o ∧ ObeysMult num (cmdGiven multDecls es) o := by
  obtain ⟨q, e1, e2, v⟩ := (mult_reports prog as hp).2 es hm
  have he : q.empty = false := by rw [e2]; cases as with
    | nil => exact absurd rfl hne
    | cons => rfl
  refine ⟨_, ?_, multUpdates_obey num _⟩
  rw [multInput, e1, ok_bind, if_neg (show ¬ ((0 : Int) < 0) by decide), steps_ok _ _ (multSteps_updates num v he hw hf)]

/-! ## Errors -/

omit [FP α] in
theorem multSteps_orderly {p : CLine} {g : CmdGiven} (v : Reports multDecls p g) (num : Str → α) : ∀ s ∈ multSteps num p, ∀ o, Orderly (s o) := by
  unfold multSteps
  simp only [List.forall_mem_cons, List.not_mem_nil, false_imp_iff, implies_true, and_true]
  refine ⟨exitFlag_orderly v "help" (by owned),
    ?_,
    exitFlag_orderly v "version" (by owned),
    exitFlag_orderly v "list-functions" (by owned),
    exitFlag_orderly v "list-parameters" (by owned),
    exitFlag_orderly v "sample-config" (by owned),
    onFlag_orderly v "printimage" _ (by owned),
    onFlag_orderly v "chisquare-only" _ (by owned),
    onFlag_orderly v "fitstat-only" _ (by owned),
    onFlag_orderly v "model-errors" _ (by owned),
    onFlag_orderly v "cashstat" _ (by owned),
    onFlag_orderly v "poisson-mlr" _ (by owned),
    onFlag_orderly v "mlr" _ (by owned),
    onFlag_orderly v "nm" _ (by owned),
    onOption_orderly v "nlopt" _ (by owned) ?_,
    onFlag_orderly v "de" _ (by owned),
    onFlag_orderly v "nosubsampling" _ (by owned),
    onFlag_orderly v "silent" _ (by owned),
    onFlag_orderly v "quiet" _ (by owned),
    onFlag_orderly v "loud" _ (by owned),
    onFlag_orderly v "logging" _ (by owned),
    onFlag_orderly v "errors-are-variances" _ (by owned),
    onFlag_orderly v "errors-are-weights" _ (by owned),
    onFlag_orderly v "mask-zero-is-bad" _ (by owned),
    onOption_orderly v "config" _ (by owned) fun t => .inl ⟨_, rfl⟩,
    onOption_orderly v "image-info" _ (by owned) fun t => .inl ⟨_, rfl⟩,
    onOption_orderly v "save-model" _ (by owned) fun t => .inl ⟨_, rfl⟩,
    onOption_orderly v "save-residual" _ (by owned) fun t => .inl ⟨_, rfl⟩,
    onOption_orderly v "save-weights" _ (by owned) fun t => .inl ⟨_, rfl⟩,
    onOption_orderly v "save-params-root" _ (by owned) fun t => .inl ⟨_, rfl⟩,
    onOption_orderly v "ftol" _ (by owned) (asReal_orderly num _ _),
    onOption_orderly v "bootstrap" _ (by owned) (asLong_orderly _ _),
    onOption_orderly v "save-bootstrap" _ (by owned) fun t => .inl ⟨_, rfl⟩,
    onOption_orderly v "max-threads" _ (by owned) (asLong_orderly _ _),
    onOption_orderly v "seed" _ (by owned) (asLong_orderly _ _)⟩
  · intro o
    split
    · exact .inr (.inl rfl)
    · exact .inl ⟨_, rfl⟩
  · intro t
    split
    · exact .inl ⟨_, rfl⟩
    · exact .inr (.inl rfl)

/-- Whatever the arguments are, nothing but a message, an error message or an integer that is too large ends the program. -/
theorem C117_orderly_partial (num : Str → α) (prog : Str) (as : List Str) (hp : ∀ a ∈ as, Plain a) :
    (∃ o, multInput num (prog :: as) = .ok o) ∨ multInput num (prog :: as) = .error .exit ∨ multInput num (prog :: as) = .error .overflow := by
  cases hm : meaning multDecls true none as with
  | none =>
    obtain ⟨q, e⟩ := (mult_reports prog as hp).1 hm
    rw [multInput, e, ok_bind, if_pos (show (-1 : Int) < 0 by decide)]
    exact .inr (.inl rfl)
  | some es =>
    obtain ⟨q, e1, e2, v⟩ := (mult_reports prog as hp).2 es hm
    rw [multInput, e1, ok_bind, if_neg (show ¬ ((0 : Int) < 0) by decide)]
    exact steps_orderly _ (multSteps_orderly v num) _

/-- A command line that is wrong, empty, or has a value that does not begin like a number or is not the name of a solver is refused. -/
theorem C117_refused (num : Str → α) (prog : Str) (as : List Str) (hp : ∀ a ∈ as, Plain a)
    (h : as = [] ∨ meaning multDecls true none as = none ∨ ∃ es, meaning multDecls true none as = some es ∧
      ((∃ n ∈ ["bootstrap", "max-threads", "seed"], ∃ t ∈ (cmdGiven multDecls es).first n, ¬ ∃ c s, t = c :: s ∧ c ∈ "123456789".toList) ∨
       (∃ t ∈ (cmdGiven multDecls es).first "ftol", ¬ ∃ c s, t = c :: s ∧ (c = '.' ∨ c ∈ "0123456789".toList)) ∨
       (∃ t ∈ (cmdGiven multDecls es).first "nlopt", t ∉ ["COBYLA", "BOBYQA", "NEWUOA", "PRAXIS", "NM", "SBPLX"].map String.toList))) (o : MultOpts α) :
    multInput num (prog :: as) ≠ .ok o := by
  cases hm : meaning multDecls true none as with
  | none =>
    obtain ⟨q, e⟩ := (mult_reports prog as hp).1 hm
    rw [multInput, e, ok_bind, if_pos (show (-1 : Int) < 0 by decide)]
    exact fun h => by cases h
  | some es =>
    obtain ⟨q, e1, e2, v⟩ := (mult_reports prog as hp).2 es hm
    rw [multInput, e1, ok_bind, if_neg (show ¬ ((0 : Int) < 0) by decide)]
    rcases h with rfl | h | ⟨es', h1, h⟩
    · refine step_bad _ 1 _ rfl ?_ _ _
      intro o r e
      rw [e2] at e
      cases e
    · rw [hm] at h; cases h
    · rw [hm] at h1
      injection h1 with h1
      subst h1
      have hL : ∀ (set : Int → MultOpts α → MultOpts α) t, (¬ ∃ c s, t = c :: s ∧ c ∈ "123456789".toList) → ∀ r, asLong .posInt set t ≠ .ok r := by
        intro set t ht r e
        rw [asLong, if_pos (notPosInt t ht)] at e
        cases e
      have hR : ∀ (set : α → MultOpts α → MultOpts α) t, (¬ ∃ c s, t = c :: s ∧ (c = '.' ∨ c ∈ "0123456789".toList)) → ∀ r, asReal num .posReal set t ≠ .ok r := by
        intro set t ht r e
        rw [asReal, if_pos (notPosReal t ht)] at e
        cases e
      rcases h with ⟨n, hn, t, ht, h⟩ | ⟨t, ht, h⟩ | ⟨t, ht, h⟩
      · simp only [List.mem_cons, List.not_mem_nil, or_false] at hn
        rcases hn with rfl | rfl | rfl
        · exact step_bad _ 31 _ rfl (onOption_bad v "bootstrap" _ (by owned) t ht (hL _ t h)) _ _
        · exact step_bad _ 33 _ rfl (onOption_bad v "max-threads" _ (by owned) t ht (hL _ t h)) _ _
        · exact step_bad _ 34 _ rfl (onOption_bad v "seed" _ (by owned) t ht (hL _ t h)) _ _
      · exact step_bad _ 30 _ rfl (onOption_bad v "ftol" _ (by owned) t ht (hR _ t h)) _ _
      · refine step_bad _ 14 _ rfl (onOption_bad v "nlopt" _ (by owned) t ht ?_) _ _
        intro r e
        split at e
        · rename_i hv
          apply h
          simpa [validNLOptSolverName, nloptNames] using hv
        · cases e

/-! ## The images -/

/-- The statistic is settled: the members that are looked at have values, and Cash statistic is not asked for with Levenberg-Marquardt. -/
structure MultSettled (o : MultOpts α) (c m e : Bool) : Prop where
  cash : o.cash = some c
  mlr : c = false → o.mlr = some m
  errors : c = false → m = false → o.modelErrors = some e
  solver : c = true → o.solver ≠ 1 ∨ o.statOnly = true
  threads : ∀ n ∈ o.maxThreads, 1 ≤ n

/-- The oversampled PSFs of an image. -/
def OverOf (read : Str → Option (OsPsf α)) (i : ImgInfo α) (l : List (OsPsf α) × List OsInfo) : Prop :=
  if i.overNames = [] then l = ([], []) else loadRegionsMulti read i.overRegions i.overNames i.overScales = .ok (some l)

omit [FP α] in
theorem setThreads_ok {o : MultOpts α} (h : ∀ n ∈ o.maxThreads, 1 ≤ n) : setThreads o = .ok o.maxThreads := by
  unfold setThreads
  cases hm : o.maxThreads with
  | none => rfl
  | some n => simp only [setMaxThreads]; rw [if_pos (h n (by simp [hm])), ok_bind]

omit [FP α] in
theorem setupObject_ok {o : MultOpts α} {c m e : Bool} (h : MultSettled o c m e) (v : ImageVars α) (i : ImgInfo α) (over : List (OsPsf α) × List OsInfo) :
    setupObject o v i over = .ok {
      threads := o.maxThreads, data := i.data, psf := if v.psfPresent then i.psf.map fun n => (n, true) else none, gain := v.gain, readNoise := v.readNoise, expTime := v.expTime,
      sky := v.sky, nCombined := v.nCombined, over := if v.overPresent then over else ([], []), mask := if v.maskPresent then i.mask.map fun n => (n, v.maskFormat) else none,
      stat := if c then .cash else if m then .poissonMLR else if v.noisePresent then .chi2User v.errorType else if e then .chi2Model else .chi2Data,
      noise := if c then none else if m then none else if v.noisePresent then i.err else none } := by
  have hs : multStat o v = .ok (if c then .cash else if m then .poissonMLR else if v.noisePresent then .chi2User v.errorType else if e then .chi2Model else .chi2Data) := by
    unfold multStat
    rw [h.cash, known, ok_bind]
    cases c with
    | true =>
      rw [if_pos rfl, if_neg, if_pos rfl]
      rintro ⟨h1, h2⟩
      rcases h.solver rfl with h3 | h3
      · exact h3 h1
      · rw [h3] at h2; cases h2
    | false =>
      rw [if_neg (by decide), h.mlr rfl, known, ok_bind]
      cases m with
      | true => rfl
      | false =>
        cases v.noisePresent with
        | true => rfl
        | false =>
          rw [h.errors rfl rfl]
          rfl
  unfold setupObject
  rw [setThreads_ok h.threads, ok_bind, hs, ok_bind]
  cases c <;> cases m <;> cases v.noisePresent <;> cases e <;> rfl

/-- The variables of the loop say what there is for this image. -/
structure VarsOf (i : ImgInfo α) (v : ImageVars α) : Prop where
  mask : v.maskPresent = i.mask.isSome
  noise : v.noisePresent = i.err.isSome
  psf : v.psfPresent = i.psf.isSome
  format : i.mask.isSome = true → v.maskFormat = if i.maskGood then MASK_ZERO_IS_GOOD else MASK_ZERO_IS_BAD
  type : i.err.isSome = true → v.errorType = errCode i.errType
  gain : v.gain = i.gain
  readNoise : v.readNoise = i.readNoise
  expTime : v.expTime = i.expTime
  sky : v.sky = i.originalSky
  nCombined : v.nCombined = i.nCombined

omit [FP α] in
theorem setupObject_from {o : MultOpts α} {c m e : Bool} (h : MultSettled o c m e) (v : ImageVars α) (i : ImgInfo α) (l : List (OsPsf α) × List OsInfo) (hv : VarsOf i v)
    (hl : v.overPresent = false → l = ([], [])) :
    ∃ w s, (do let obj ← setupObject o v i l; (Except.ok (v, obj) : Res _)) = .ok (w, s) ∧ FromImage i o.maxThreads c m e s ∧ s.over = l := by
  rw [setupObject_ok h, ok_bind]
  refine ⟨_, _, rfl, ⟨rfl, rfl, ?_, hv.gain, hv.readNoise, hv.expTime, hv.sky, hv.nCombined, ?_, ?_, ?_⟩, ?_⟩
  · show (if v.psfPresent then _ else _) = _
    rw [hv.psf]
    cases i.psf <;> rfl
  · show (if v.maskPresent then _ else _) = _
    rw [hv.mask]
    cases hm : i.mask with
    | none => rfl
    | some t => rw [hv.format (by rw [hm]; rfl)]; rfl
  · show (if c then StatChoice.cash else _) = _
    unfold statOf
    cases c with
    | true => rfl
    | false =>
      cases m with
      | true => rfl
      | false =>
        show (if v.noisePresent then StatChoice.chi2User v.errorType else _) = _
        rw [hv.noise]
        cases he : i.err with
        | none => rfl
        | some t =>
          rw [hv.type (by rw [he]; rfl)]
          match i.errType with
          | 0 => rfl
          | 1 => rfl
          | n + 2 => rfl
  · show (if c then (none : Option Str) else _) = _
    rw [hv.noise]
    cases c <;> cases m <;> cases i.err <;> rfl
  · show (if v.overPresent then _ else _) = _
    cases ho : v.overPresent with
    | true => rfl
    | false => rw [hl ho]; rfl

omit [FP α] in
theorem imageStep_ok {o : MultOpts α} {c m e : Bool} (h : MultSettled o c m e) (readable : ImgInfo α → Bool) (read : Str → Option (OsPsf α)) (v : ImageVars α) (i : ImgInfo α)
    (hr : readable i = true) (l : List (OsPsf α) × List OsInfo) (hl : OverOf read i l) :
    ∃ w s, imageStep o readable read v i = .ok (w, s) ∧ FromImage i o.maxThreads c m e s ∧ s.over = l := by
  unfold imageStep
  simp only [hr, if_true]
  by_cases ho : i.overNames = []
  · rw [OverOf, if_pos ho] at hl
    subst hl
    rw [if_pos ho, ok_bind]
    refine setupObject_from h _ i _ ⟨?_, ?_, ?_, ?_, ?_, ?_, ?_, ?_, ?_, ?_⟩ (fun _ => rfl)
    all_goals cases i.mask <;> cases i.err <;> cases i.psf <;> simp
  · rw [OverOf, if_neg ho] at hl
    rw [if_neg ho, hl]
    simp only [ok_bind]
    refine setupObject_from h _ i _ ⟨?_, ?_, ?_, ?_, ?_, ?_, ?_, ?_, ?_, ?_⟩ (fun h => by cases h)
    all_goals cases i.mask <;> cases i.err <;> cases i.psf <;> simp

omit [FP α] in
theorem imageLoop_ok {o : MultOpts α} {c m e : Bool} (h : MultSettled o c m e) (readable : ImgInfo α → Bool) (read : Str → Option (OsPsf α)) (over : ImgInfo α → List (OsPsf α) × List OsInfo) :
    ∀ (infos : List (ImgInfo α)) (v : ImageVars α), (∀ i ∈ infos, readable i = true) → (∀ i ∈ infos, OverOf read i (over i)) →
      ∃ os, imageLoop o readable read v infos = .ok os ∧ List.Forall₂ (fun i s => FromImage i o.maxThreads c m e s ∧ s.over = over i) infos os := by
  intro infos
  induction infos with
  | nil => exact fun v _ _ => ⟨[], rfl, .nil⟩
  | cons i is ih =>
    intro v hr hl
    obtain ⟨w, s, h1, h2⟩ := imageStep_ok h readable read v i (hr i (by simp)) (over i) (hl i (by simp))
    obtain ⟨os, h3, h4⟩ := ih w (fun j hj => hr j (by simp [hj])) (fun j hj => hl j (by simp [hj]))
    refine ⟨s :: os, ?_, .cons h2 h4⟩
    rw [imageLoop, h1, ok_bind, h3, ok_bind]

/-- Every image is fitted with its own images and characteristics, with the formats given for it in the image-info file, whatever the other images are; the statistic is the same
for all. Missing: a statistic that is not settled. -/
theorem C117_images_partial {o : MultOpts α} {c m e : Bool} (h : MultSettled o c m e) (readable : ImgInfo α → Bool) (read : Str → Option (OsPsf α)) (infos : List (ImgInfo α))
    (over : ImgInfo α → List (OsPsf α) × List OsInfo) (hi : o.imageInfo.isSome = true) (hd : ∀ i ∈ infos, i.data.isSome = true) (hr : ∀ i ∈ infos, readable i = true)
    (hl : ∀ i ∈ infos, OverOf read i (over i)) :
    ∃ os, multObjects o readable read infos = .ok (os, c, !c && m) ∧ List.Forall₂ (fun i s => FromImage i o.maxThreads c m e s ∧ s.over = over i) infos os := by
  obtain ⟨os, h1, h2⟩ := imageLoop_ok h readable read over infos (ImageVars.init o) hr hl
  refine ⟨os, ?_, h2⟩
  have ht : totalStat o = .ok (c, !c && m) := by
    unfold totalStat
    rw [h.cash, known, ok_bind]
    cases c with
    | true =>
      rw [if_pos rfl, if_neg]
      · rfl
      · rintro ⟨h1, h2⟩
        rcases h.solver rfl with h3 | h3
        · exact h3 h1
        · rw [h3] at h2; cases h2
    | false =>
      rw [if_neg (by decide), h.mlr rfl, known, ok_bind]
      rfl
  obtain ⟨nm, hn⟩ := Option.isSome_iff_exists.1 hi
  unfold multObjects
  rw [hn]
  simp only
  rw [if_pos (List.all_eq_true.2 hd), setThreads_ok h.threads, ok_bind, h1, ok_bind, ht, ok_bind]

/-- With `--cashstat` and a solver other than Levenberg-Marquardt (or no fit at all) the statistic is settled, so that the images are fitted as they should. -/
theorem C117_cash (num : Str → α) (g : CmdGiven) (hf : MultWellFormed g) (o : MultOpts α) (ho : ObeysMult num g o) (hc : g.has "cashstat" = true)
    (hs : g.has "de" = true ∨ (g.first "nlopt").isSome = true ∨ g.has "nm" = true ∨ g.has "chisquare-only" = true ∨ g.has "fitstat-only" = true) (hi : (g.first "image-info").isSome = true)
    (readable : ImgInfo α → Bool) (read : Str → Option (OsPsf α)) (infos : List (ImgInfo α)) (over : ImgInfo α → List (OsPsf α) × List OsInfo)
    (hd : ∀ i ∈ infos, i.data.isSome = true) (hr : ∀ i ∈ infos, readable i = true) (hl : ∀ i ∈ infos, OverOf read i (over i)) :
    ∃ os, multObjects o readable read infos = .ok (os, true, false) ∧
      List.Forall₂ (fun i s => FromImage i ((g.first "max-threads").map wholeVal) true false false s ∧ s.over = over i) infos os := by
  have hset : MultSettled o true false false := by
    refine ⟨by rw [ho.cash, hc]; rfl, fun h => (by cases h), fun h => (by cases h), fun _ => ?_, ?_⟩
    · rw [ho.solver, ho.statOnly]
      rcases hs with h | h | h | h | h <;> simp only [h]
      · exact .inl (by rw [if_pos trivial]; decide)
      · exact .inl (by split <;> [decide; (rw [if_pos trivial]; decide)])
      · exact .inl (by split <;> [decide; (split <;> decide)])
      · exact .inr rfl
      · exact .inr (Bool.or_true _)
    · intro n hn
      rw [ho.maxThreads] at hn
      obtain ⟨t, ht, rfl⟩ := Option.map_eq_some_iff.1 hn
      exact (whole_bounds (hf.threads t ht)).1
  rw [← ho.maxThreads]
  exact C117_images_partial hset readable read infos over (by rw [ho.imageInfo]; exact hi) hd hr hl

/-- Without `--cashstat` the members of the options that say which statistic is used are read although they have no value: whether a fit with χ² uses it depends on what the memory
held before. This holds for all command lines without `--cashstat`. -/
theorem C117_statistic_false (num : Str → α) (g : CmdGiven) (hf : MultWellFormed g) (o : MultOpts α) (ho : ObeysMult num g o) (hc : g.has "cashstat" = false)
    (hi : (g.first "image-info").isSome = true) (readable : ImgInfo α → Bool) (read : Str → Option (OsPsf α)) (i : ImgInfo α) (is : List (ImgInfo α))
    (hd : ∀ j ∈ i :: is, j.data.isSome = true) (hr : readable i = true) (l : List (OsPsf α) × List OsInfo) (hl : OverOf read i l) :
    multObjects o readable read (i :: is) = .error .uninit := by
  have hth : ∀ n ∈ o.maxThreads, 1 ≤ n := by
    intro n hn
    rw [ho.maxThreads] at hn
    obtain ⟨t, ht, rfl⟩ := Option.map_eq_some_iff.1 hn
    exact (whole_bounds (hf.threads t ht)).1
  have hs (v : ImageVars α) : setupObject o v i l = .error .uninit := by
    unfold setupObject
    rw [setThreads_ok hth, ok_bind]
    unfold multStat
    rw [ho.cash, hc]
    rfl
  have hi' : o.imageInfo.isSome = true := by rw [ho.imageInfo]; exact hi
  obtain ⟨nm, hn⟩ := Option.isSome_iff_exists.1 hi'
  have hstep (v : ImageVars α) : imageStep o readable read v i = .error .uninit := by
    unfold imageStep
    simp only [hr, if_true]
    by_cases h0 : i.overNames = []
    · rw [OverOf, if_pos h0] at hl
      subst hl
      rw [if_pos h0, ok_bind, hs]
      rfl
    · rw [OverOf, if_neg h0] at hl
      rw [if_neg h0, hl]
      simp only [ok_bind]
      rw [hs]
      rfl
  unfold multObjects
  rw [hn]
  simp only
  rw [if_pos (List.all_eq_true.2 hd), setThreads_ok hth, ok_bind, imageLoop, hstep]
  rfl

/-! ## Options without effect -/

/-- Equal but for the formats. -/
def SameButFormats (v w : ImageVars α) : Prop := w = { v with maskFormat := w.maskFormat, errorType := w.errorType }

omit [FP α] in
theorem imageStep_formats (o : MultOpts α) (f t : Int) (readable : ImgInfo α → Bool) (read : Str → Option (OsPsf α)) (v w : ImageVars α) (h : SameButFormats v w) (i : ImgInfo α) :
    (∃ x, imageStep o readable read v i = .error x ∧ imageStep { o with maskFormat := f, errorType := t } readable read w i = .error x) ∨
    ∃ v' w' s, imageStep o readable read v i = .ok (v', s) ∧ imageStep { o with maskFormat := f, errorType := t } readable read w i = .ok (w', s) ∧ SameButFormats v' w' := by
  obtain ⟨a1, a2, a3, a4, a5, a6, a7, a8, a9, a10, a11⟩ := v
  obtain ⟨b1, b2, b3, b4, b5, b6, b7, b8, b9, b10, b11⟩ := w
  simp only [SameButFormats, ImageVars.mk.injEq] at h
  obtain ⟨rfl, rfl, rfl, rfl, -, -, rfl, rfl, rfl, rfl, rfl⟩ := h
  unfold imageStep
  cases readable i with
  | false => exact .inl ⟨_, rfl, rfl⟩
  | true =>
    simp only [if_true]
    have key : ∀ (v w : ImageVars α) (l : List (OsPsf α) × List OsInfo), SameButFormats v w → (v.maskPresent = true → v.maskFormat = w.maskFormat) →
        (v.noisePresent = true → v.errorType = w.errorType) →
        setupObject o v i l = setupObject { o with maskFormat := f, errorType := t } w i l := by
      intro v w l h hm he
      obtain ⟨a1, a2, a3, a4, a5, a6, a7, a8, a9, a10, a11⟩ := v
      obtain ⟨b1, b2, b3, b4, b5, b6, b7, b8, b9, b10, b11⟩ := w
      simp only [SameButFormats, ImageVars.mk.injEq] at h
      obtain ⟨rfl, rfl, rfl, rfl, -, -, rfl, rfl, rfl, rfl, rfl⟩ := h
      simp only at hm he
      have hs : multStat o ⟨b1, b2, b3, b4, a5, a6, b7, b8, b9, b10, b11⟩ = multStat { o with maskFormat := f, errorType := t } ⟨b1, b2, b3, b4, b5, b6, b7, b8, b9, b10, b11⟩ := by
        unfold multStat
        cases b2 with
        | false => rfl
        | true => rw [he rfl]
      unfold setupObject
      rw [hs]
      cases b1 with
      | false => rfl
      | true => rw [hm rfl]; rfl
    have out : ∀ (v w : ImageVars α) (l : List (OsPsf α) × List OsInfo), SameButFormats v w → (v.maskPresent = true → v.maskFormat = w.maskFormat) →
        (v.noisePresent = true → v.errorType = w.errorType) →
        (∃ x, (do let obj ← setupObject o v i l; (Except.ok (v, obj) : Res _)) = .error x ∧
          (do let obj ← setupObject { o with maskFormat := f, errorType := t } w i l; (Except.ok (w, obj) : Res _)) = .error x) ∨
        ∃ v' w' s, (do let obj ← setupObject o v i l; (Except.ok (v, obj) : Res _)) = .ok (v', s) ∧
          (do let obj ← setupObject { o with maskFormat := f, errorType := t } w i l; (Except.ok (w, obj) : Res _)) = .ok (w', s) ∧ SameButFormats v' w' := by
      intro v w l h hm he
      rw [key v w l h hm he]
      cases setupObject { o with maskFormat := f, errorType := t } w i l with
      | error x => exact .inl ⟨x, rfl, rfl⟩
      | ok s => exact .inr ⟨v, w, s, rfl, rfl, h⟩
    by_cases h0 : i.overNames = []
    · rw [if_pos h0, if_pos h0, ok_bind, ok_bind]
      refine out _ _ _ ?_ ?_ ?_
      all_goals cases i.mask <;> cases i.err <;> cases i.psf <;> simp [SameButFormats]
    · rw [if_neg h0, if_neg h0]
      cases loadRegionsMulti read i.overRegions i.overNames i.overScales with
      | error x => exact .inl ⟨x, rfl, rfl⟩
      | ok r =>
        cases r with
        | none => exact .inl ⟨_, rfl, rfl⟩
        | some l =>
          simp only [ok_bind]
          refine out _ _ _ ?_ ?_ ?_
          all_goals cases i.mask <;> cases i.err <;> cases i.psf <;> simp [SameButFormats]

omit [FP α] in
theorem imageLoop_formats (o : MultOpts α) (f t : Int) (readable : ImgInfo α → Bool) (read : Str → Option (OsPsf α)) : ∀ (infos : List (ImgInfo α)) (v w : ImageVars α), SameButFormats v w →
    imageLoop { o with maskFormat := f, errorType := t } readable read w infos = imageLoop o readable read v infos := by
  intro infos
  induction infos with
  | nil => exact fun _ _ _ => rfl
  | cons i is ih =>
    intro v w h
    rw [imageLoop, imageLoop]
    rcases imageStep_formats o f t readable read v w h i with ⟨x, h1, h2⟩ | ⟨v', w', s, h1, h2, h3⟩
    · rw [h1, h2]; rfl
    · rw [h1, h2, ok_bind, ok_bind, ih v' w' h3]

/-- `--mask-zero-is-bad`, `--errors-are-variances` and `--errors-are-weights` have no effect: masks and noise images have the formats of the image-info file, and there is nothing
else that is read in these formats. -/
theorem C117_formats_false (o : MultOpts α) (f t : Int) (readable : ImgInfo α → Bool) (read : Str → Option (OsPsf α)) (infos : List (ImgInfo α)) (n : Nat) (limits stopped : Bool) (can : Str → Bool) :
    multObjects { o with maskFormat := f, errorType := t } readable read infos = multObjects o readable read infos ∧
    multOutputs { o with maskFormat := f, errorType := t } n limits stopped can = multOutputs o n limits stopped can := by
  refine ⟨?_, rfl⟩
  unfold multObjects
  have h := imageLoop_formats o f t readable read infos (ImageVars.init o) (ImageVars.init { o with maskFormat := f, errorType := t }) rfl
  rw [h]
  rfl

/-- `--save-residual`, `--save-weights` and `--printimage` have no effect: no residual image and no weight image is ever written. -/
theorem C117_ignored_false (o : MultOpts α) (r w : Option Str) (b : Bool) (readable : ImgInfo α → Bool) (read : Str → Option (OsPsf α)) (infos : List (ImgInfo α)) (n : Nat) (limits stopped : Bool)
    (can : Str → Bool) :
    multObjects { o with saveResidual := r, saveWeights := w, printImages := b } readable read infos = multObjects o readable read infos ∧
    multOutputs { o with saveResidual := r, saveWeights := w, printImages := b } n limits stopped can = multOutputs o n limits stopped can := by
  refine ⟨?_, rfl⟩
  have h : ∀ (infos : List (ImgInfo α)) (v : ImageVars α), imageLoop { o with saveResidual := r, saveWeights := w, printImages := b } readable read v infos = imageLoop o readable read v infos := by
    intro infos
    induction infos with
    | nil => exact fun _ => rfl
    | cons i is ih =>
      intro v
      rw [imageLoop, imageLoop]
      simp only [ih]
      rfl
  unfold multObjects
  rw [h]
  rfl

/-- A command line. -/
def multLine (as : List String) : List Str := ("multimfit" :: as).map String.toList

set_option maxRecDepth 100000 in
/-- Arguments that are not options are ignored. -/
theorem C117_arguments_false (num : Str → α) :
    multInput num (multLine ["galaxy.fits", "-i", "info.dat", "other.fits"]) = multInput num (multLine ["-i", "info.dat"]) ∧ (multInput num (multLine ["galaxy.fits", "-i", "info.dat"])).toOption.isSome = true := by
  exact ⟨by with_unfolding_all rfl, by with_unfolding_all rfl⟩

/-! ## The files -/

omit [FP α] in
theorem openAll_true (names : List Str) : openAll (fun _ => true) names = .ok () := by simp [openAll]

/-- If a fit is done and all files can be opened, the files are: the summary, the parameters of the reference image and of each further image, the image-info file with the best-fit
values, the parameters of the bootstrap if it is asked for, and the images of the model. Missing: `--fitstat-only`, files that cannot be opened, residual and weight images. -/
theorem C117_files_partial (num : Str → α) (g : CmdGiven) (hf : MultWellFormed g) (o : MultOpts α) (ho : ObeysMult num g o) (h1 : g.has "chisquare-only" = false)
    (h2 : g.has "fitstat-only" = false) (n : Nat) (limits : Bool) :
    ∃ files, multOutputs o n limits false (fun _ => true) = .ok (files, (g.first "bootstrap").map fun t => ⟨wholeVal t, limits, g.first "save-bootstrap"⟩) ∧ ∀ f, f ∈ files ↔
      f = (g.first "save-params-root").getD "bestfit_parameters_multimfit".toList ++ "_summary.dat".toList ∨
      (1 ≤ n ∧ f = (g.first "save-params-root").getD "bestfit_parameters_multimfit".toList ++ "_refimage.dat".toList) ∨
      (∃ k, 2 ≤ k ∧ k ≤ n ∧ f = (g.first "save-params-root").getD "bestfit_parameters_multimfit".toList ++ "_image".toList ++ (Nat.repr k).toList ++ ".dat".toList) ∨
      (1 ≤ n ∧ f = (g.first "save-params-root").getD "bestfit_parameters_multimfit".toList ++ "_imageinfo.dat".toList) ∨
      ((g.first "bootstrap").isSome = true ∧ g.first "save-bootstrap" = some f) ∨
      (∃ r, g.first "save-model" = some r ∧ ∃ k, k < n ∧ f = r ++ "_".toList ++ (Nat.repr k).toList ++ ".fits".toList) := by
  have hs : o.statOnly = false := by rw [ho.statOnly, h1, h2]; rfl
  have hb : (if o.bootstrap.isSome = true ∧ 0 < o.bootstrap.getD 0 ∧ (false && !o.statOnly) = false then
      some (⟨o.bootstrap.getD 0, if o.statOnly then false else limits, o.saveBootstrap.filter fun _ => true⟩ : BootCall) else none) =
      (g.first "bootstrap").map fun t => ⟨wholeVal t, limits, g.first "save-bootstrap"⟩ := by
    rw [ho.bootstrap, ho.saveBootstrap, hs]
    cases hg : g.first "bootstrap" with
    | none => rfl
    | some t =>
      have := (whole_bounds (hf.bootstrap t (by simp [hg]))).1
      rw [if_pos ⟨rfl, (by show 0 < wholeVal t; omega), rfl⟩]
      cases g.first "save-bootstrap" <;> rfl
  unfold multOutputs
  simp only
  rw [hb, hs]
  simp only [List.all_eq_true, implies_true, if_true, openAll_true, ok_bind]
  refine ⟨_, rfl, fun f => ?_⟩
  rw [ho.paramsRoot]
  generalize (g.first "save-params-root").getD "bestfit_parameters_multimfit".toList = root
  have e1 : f ∈ paramFiles root n ↔ (1 ≤ n ∧ f = root ++ "_refimage.dat".toList) ∨ (∃ k, 2 ≤ k ∧ k ≤ n ∧ f = root ++ "_image".toList ++ (Nat.repr k).toList ++ ".dat".toList) := by
    unfold paramFiles
    rw [List.mem_map]
    constructor
    · rintro ⟨i, hi, rfl⟩
      rw [List.mem_range] at hi
      by_cases h0 : i = 0
      · exact .inl ⟨by omega, if_pos h0⟩
      · exact .inr ⟨i + 1, by omega, by omega, if_neg h0⟩
    · rintro (⟨h, rfl⟩ | ⟨k, h, h', rfl⟩)
      · exact ⟨0, List.mem_range.2 h, if_pos rfl⟩
      · refine ⟨k - 1, List.mem_range.2 (by omega), ?_⟩
        rw [if_neg (by omega), show k - 1 + 1 = k by omega]
  have e2 : f ∈ (if n = 0 then [] else [root ++ "_imageinfo.dat".toList]) ↔ 1 ≤ n ∧ f = root ++ "_imageinfo.dat".toList := by
    by_cases h0 : n = 0
    · rw [if_pos h0]
      constructor
      · intro h; cases h
      · rintro ⟨h, -⟩; omega
    · rw [if_neg h0, List.mem_singleton]
      exact ⟨fun h => ⟨by omega, h⟩, fun h => h.2⟩
  have e3 : f ∈ (if ((g.first "bootstrap").map fun t => (⟨wholeVal t, limits, g.first "save-bootstrap"⟩ : BootCall)).isSome = true then o.saveBootstrap.toList else []) ↔
      (g.first "bootstrap").isSome = true ∧ g.first "save-bootstrap" = some f := by
    rw [ho.saveBootstrap]
    cases g.first "bootstrap" with
    | none => simp
    | some t => simp
  have e4 : f ∈ (match o.saveModel with
      | none => []
      | some r => ((List.range n).map fun i => r ++ "_".toList ++ (Nat.repr i).toList ++ ".fits".toList).filter fun _ => true) ↔
      ∃ r, g.first "save-model" = some r ∧ ∃ k, k < n ∧ f = r ++ "_".toList ++ (Nat.repr k).toList ++ ".fits".toList := by
    rw [ho.saveModel]
    cases g.first "save-model" with
    | none =>
      constructor
      · intro h; cases h
      · rintro ⟨r, h, -⟩; cases h
    | some r =>
      simp only
      rw [List.mem_filter, List.mem_map]
      constructor
      · rintro ⟨⟨k, hk, h⟩, -⟩
        exact ⟨r, rfl, k, List.mem_range.1 hk, h.symm⟩
      · rintro ⟨r', h, k, hk, h'⟩
        injection h with h
        subst h
        exact ⟨⟨k, List.mem_range.2 hk, h'.symm⟩, rfl⟩
  rw [List.mem_append, List.mem_append, List.mem_append, List.mem_append, e1, e2, e3, if_neg (by decide), List.mem_singleton]
  refine (or_congr Iff.rfl e4).trans ?_
  simp only [or_assoc]

/-- With `--fitstat-only`, which is said to do no fitting and quit, files with "best-fit" parameters of the images are written; with `--bootstrap` fits are done all the same, and
without the limits of the parameters. -/
theorem C117_statOnly_false (num : Str → α) (g : CmdGiven) (hf : MultWellFormed g) (o : MultOpts α) (ho : ObeysMult num g o) (h2 : g.has "fitstat-only" = true) (n : Nat) (hn : 1 ≤ n)
    (limits stopped : Bool) :
    ∃ files, multOutputs o n limits stopped (fun _ => true) = .ok (files, (g.first "bootstrap").map fun t => ⟨wholeVal t, false, g.first "save-bootstrap"⟩) ∧
      o.paramsRoot ++ "_refimage.dat".toList ∈ files ∧ o.paramsRoot ++ "_imageinfo.dat".toList ∈ files := by
  have hs : o.statOnly = true := by rw [ho.statOnly, h2, Bool.or_true]
  have hb : (if o.bootstrap.isSome = true ∧ 0 < o.bootstrap.getD 0 ∧ (stopped && !o.statOnly) = false then
      some (⟨o.bootstrap.getD 0, if o.statOnly then false else limits, o.saveBootstrap.filter fun _ => true⟩ : BootCall) else none) =
      (g.first "bootstrap").map fun t => ⟨wholeVal t, false, g.first "save-bootstrap"⟩ := by
    rw [ho.bootstrap, ho.saveBootstrap, hs]
    cases hg : g.first "bootstrap" with
    | none => rfl
    | some t =>
      have := (whole_bounds (hf.bootstrap t (by simp [hg]))).1
      rw [if_pos ⟨rfl, (by show 0 < wholeVal t; omega), by cases stopped <;> rfl⟩]
      cases g.first "save-bootstrap" <;> rfl
  unfold multOutputs
  simp only
  rw [hb, hs]
  simp only [List.all_eq_true, implies_true, if_true, openAll_true, ok_bind]
  refine ⟨_, rfl, ?_, ?_⟩
  · rw [List.mem_append, List.mem_append, List.mem_append, List.mem_append]
    refine .inl (.inl (.inl (.inr ?_)))
    rw [paramFiles, List.mem_map]
    exact ⟨0, List.mem_range.2 hn, if_pos rfl⟩
  · rw [List.mem_append, List.mem_append, List.mem_append, List.mem_append]
    refine .inl (.inl (.inr ?_))
    rw [if_neg (by omega), List.mem_singleton]

omit [FP α] in
/-- A file of parameters that cannot be opened: the program writes to a null pointer, after the fit. -/
theorem C117_unopened_false (o : MultOpts α) (n : Nat) (hn : 1 ≤ n) (limits stopped : Bool) (can : Str → Bool) (h1 : can (o.paramsRoot ++ "_summary.dat".toList) = true)
    (h2 : can (o.paramsRoot ++ "_refimage.dat".toList) = false) : multOutputs o n limits stopped can = .error .null := by
  have h3 : openAll can (paramFiles o.paramsRoot n) = .error .null := by
    unfold openAll
    rw [if_neg]
    intro h
    have := List.all_eq_true.1 h (o.paramsRoot ++ "_refimage.dat".toList) (by
      rw [paramFiles, List.mem_map]
      exact ⟨0, List.mem_range.2 hn, if_pos rfl⟩)
    rw [h2] at this
    cases this
  unfold multOutputs
  simp only
  have h4 : (if o.statOnly then [] else [o.paramsRoot ++ "_summary.dat".toList]).all can = true := by
    cases o.statOnly with
    | true => rfl
    | false => rw [if_neg (by decide), List.all_cons, h1]; rfl
  rw [if_pos h4, h3]
  rfl

/-! ## An example -/

/-- A command line. -/
def exMultLine : List Str := ["-c", "model.dat", "--image-info=info.dat", "--cashstat", "--nm", "--save-model", "best", "--bootstrap", "20"].map String.toList

def exMultEvents : List Ev := (meaning multDecls true none exMultLine).getD []

theorem exMultMeaning : meaning multDecls true none exMultLine = some exMultEvents := by
  have : (meaning multDecls true none exMultLine).isSome = true := by decide +kernel
  obtain ⟨es, h⟩ := Option.isSome_iff_exists.1 this
  rw [exMultEvents, h]
  rfl

theorem exMultWorking : Working (cmdGiven multDecls exMultEvents) := by
  have : ["help", "version", "list-functions", "list-parameters", "sample-config"].all (fun n => (cmdGiven multDecls exMultEvents).has n == false) = true := by decide +kernel
  intro n hn
  simpa using List.all_eq_true.1 this n hn

theorem exMultWell : MultWellFormed (cmdGiven multDecls exMultEvents) := by
  have none_of : ∀ n, (cmdGiven multDecls exMultEvents).first n = none → ∀ (Q : Str → Prop), ∀ t ∈ (cmdGiven multDecls exMultEvents).first n, Q t := by
    intro n h Q t ht
    rw [h] at ht
    cases ht
  refine ⟨none_of _ (by decide +kernel) _, none_of _ (by decide +kernel) _, ?_, none_of _ (by decide +kernel) _, none_of _ (by decide +kernel) _⟩
  intro t ht
  rw [show (cmdGiven multDecls exMultEvents).first "bootstrap" = some "20".toList by decide +kernel] at ht
  cases ht
  exact ⟨20, by decide, by decide, by decide +kernel⟩

theorem exMultPlain : ∀ a ∈ exMultLine, Plain a := by
  intro a ha
  simp only [exMultLine, List.map_cons, List.map_nil, List.mem_cons, List.not_mem_nil, or_false] at ha
  rcases ha with rfl | rfl | rfl | rfl | rfl | rfl | rfl | rfl | rfl
  · exact fun _ => Or.inl (by decide)
  · exact fun h => absurd h (by decide)
  · exact fun _ => Or.inr ⟨"image-info".toList, "info.dat".toList, by decide, by decide, by decide, by decide, by decide⟩
  · exact fun _ => Or.inl (by decide)
  · exact fun _ => Or.inl (by decide)
  · exact fun _ => Or.inl (by decide)
  · exact fun h => absurd h (by decide)
  · exact fun _ => Or.inl (by decide)
  · exact fun h => absurd h (by decide)

/-- Two images, of which only the first has a mask. -/
noncomputable def exInfos : List (ImgInfo XR) :=
  [{ (ImgInfo.init : ImgInfo XR) with data := some "a.fits".toList, mask := some "m.fits".toList, maskGood := false }, { (ImgInfo.init : ImgInfo XR) with data := some "b.fits".toList }]

example : ∃ o os a b, multInput (α := XR) (fun _ => 0) ("multimfit".toList :: exMultLine) = .ok o ∧ o.solver = 3 ∧ o.configFile = "model.dat".toList ∧
    multObjects o (fun _ => true) (fun _ => none) exInfos = .ok (os, true, false) ∧ os = [a, b] ∧ a.mask = some ("m.fits".toList, 20) ∧ b.mask = none ∧ b.data = some "b.fits".toList := by
  obtain ⟨o, h1, h2⟩ := C117_settings_partial (α := XR) (fun _ => 0) "multimfit".toList exMultLine exMultPlain (by decide) exMultEvents exMultMeaning exMultWorking exMultWell
  obtain ⟨os, h3, h4⟩ := C117_cash _ _ exMultWell o h2 (by decide +kernel) (.inr (.inr (.inl (by decide +kernel)))) (by decide +kernel) (fun _ => true) (fun _ => none) exInfos (fun _ => ([], []))
    (by simp [exInfos]) (by simp) (by simp [exInfos, OverOf, ImgInfo.init])
  have h4' := h4
  unfold exInfos at h4'
  cases h4' with
  | cons ha h5 =>
    cases h5 with
    | cons hb h6 =>
      cases h6
      refine ⟨o, _, _, _, h1, ?_, ?_, h3, rfl, ?_, ?_, ?_⟩
      · rw [h2.solver]; decide +kernel
      · rw [h2.configFile]; decide +kernel
      · rw [ha.1.mask]; rfl
      · rw [hb.1.mask]; rfl
      · rw [hb.1.data]

end Imfit
