import Verif.Props.C105

/-!
# C106 — The command line overrides the configuration file, which overrides the defaults
-/

namespace Imfit

open Spec

variable {α : Type}

namespace Spec

/-- The value of a keyword in a configuration file: the last one. -/
def lastValue (opts : List (Str × Str)) (key : String) : Option Str := (opts.reverse.find? fun kv => kv.1 = key.toList).map (·.2)

end Spec

theorem lastValue_nil (key : String) : lastValue [] key = none := rfl

theorem lastValue_cons (kv : Str × Str) (opts : List (Str × Str)) (key : String) :
    lastValue (kv :: opts) key = (lastValue opts key).or (if kv.1 = key.toList then some kv.2 else none) := by
  unfold lastValue
  rw [List.reverse_cons, List.find?_append]
  cases opts.reverse.find? fun kv => kv.1 = key.toList with
  | some x => rfl
  | none =>
    by_cases h : kv.1 = key.toList
    · simp [h]
    · simp [h]

/-- The options after the configuration file. -/
def afterConfig (num : Str → α) (opts : List (Str × Str)) (o : ImfitOpts α) : ImfitOpts α :=
  { o with
    gain := if o.gainSet then o.gain else ((lastValue opts "GAIN").map num).getD o.gain
    readNoise := if o.readNoiseSet then o.readNoise else ((lastValue opts "READNOISE").map num).getD o.readNoise
    expTime := if o.expTimeSet then o.expTime else ((lastValue opts "EXPTIME").map num).getD o.expTime
    sky := if o.skySet then o.sky else ((lastValue opts "ORIGINAL_SKY").map num).getD o.sky
    nCombined := if o.nCombinedSet then o.nCombined else ((lastValue opts "NCOMBINED").map wholeVal).getD o.nCombined }

theorem or_getD {β : Type} (a b : Option β) (c : β) : (a.or b).getD c = a.getD (b.getD c) := by cases a <;> rfl

theorem configOptions_eq (num : Str → α) (opts : List (Str × Str)) (o : ImfitOpts α)
    (h : o.nCombinedSet = true ∨ ∀ kv ∈ opts, kv.1 = "NCOMBINED".toList → IsWhole 2147483647 kv.2) : configOptions num opts o = .ok (afterConfig num opts o) := by
  induction opts generalizing o with
  | nil => simp [configOptions, afterConfig, lastValue_nil, pure_eq_ok]
  | cons kv opts ih =>
    have key : ∀ o', configOption num o kv = .ok o' → o'.nCombinedSet = o.nCombinedSet → afterConfig num opts o' = afterConfig num (kv :: opts) o →
        configOptions num (kv :: opts) o = .ok (afterConfig num (kv :: opts) o) := by
      intro o' h1 h2 h3
      rw [configOptions, List.foldlM_cons, h1, ok_bind, ← h3]
      refine ih o' ?_
      rw [h2]
      exact h.imp_right fun h kv hk => h kv (by simp [hk])
    have c1 : ∀ s k : String, s.toList ≠ k.toList → kv.1 = s.toList → lastValue (kv :: opts) k = lastValue opts k := by
      intro s k hne he
      rw [lastValue_cons, he, if_neg hne, Option.or_none]
    have c2 : ∀ s : String, kv.1 = s.toList → lastValue (kv :: opts) s = (lastValue opts s).or (some kv.2) := by
      intro s he
      rw [lastValue_cons, if_pos he]
    by_cases h1 : kv.1 = "GAIN".toList
    · refine key _ (by rw [configOption, if_pos h1]) (by split <;> rfl) ?_
      simp only [afterConfig, c2 _ h1, c1 _ "READNOISE" (by decide) h1, c1 _ "EXPTIME" (by decide) h1, c1 _ "ORIGINAL_SKY" (by decide) h1, c1 _ "NCOMBINED" (by decide) h1,
        Option.map_or, or_getD]
      cases hs : o.gainSet <;> simp [hs]
    by_cases h2 : kv.1 = "READNOISE".toList
    · refine key _ (by rw [configOption, if_neg h1, if_pos h2]) (by split <;> rfl) ?_
      simp only [afterConfig, c2 _ h2, c1 _ "GAIN" (by decide) h2, c1 _ "EXPTIME" (by decide) h2, c1 _ "ORIGINAL_SKY" (by decide) h2, c1 _ "NCOMBINED" (by decide) h2,
        Option.map_or, or_getD]
      cases hs : o.readNoiseSet <;> simp [hs]
    by_cases h3 : kv.1 = "EXPTIME".toList
    · refine key _ (by rw [configOption, if_neg h1, if_neg h2, if_pos h3]) (by split <;> rfl) ?_
      simp only [afterConfig, c2 _ h3, c1 _ "GAIN" (by decide) h3, c1 _ "READNOISE" (by decide) h3, c1 _ "ORIGINAL_SKY" (by decide) h3, c1 _ "NCOMBINED" (by decide) h3,
        Option.map_or, or_getD]
      cases hs : o.expTimeSet <;> simp [hs]
    by_cases h4 : kv.1 = "ORIGINAL_SKY".toList
    · refine key _ (by rw [configOption, if_neg h1, if_neg h2, if_neg h3, if_pos h4]) (by split <;> rfl) ?_
      simp only [afterConfig, c2 _ h4, c1 _ "GAIN" (by decide) h4, c1 _ "READNOISE" (by decide) h4, c1 _ "EXPTIME" (by decide) h4, c1 _ "NCOMBINED" (by decide) h4,
        Option.map_or, or_getD]
      cases hs : o.skySet <;> simp [hs]
    by_cases h5 : kv.1 = "NCOMBINED".toList
    · cases hs : o.nCombinedSet with
      | true =>
        refine key o (by rw [configOption, if_neg h1, if_neg h2, if_neg h3, if_neg h4, if_pos h5, if_pos hs]) rfl ?_
        simp only [afterConfig, c2 _ h5, c1 _ "GAIN" (by decide) h5, c1 _ "READNOISE" (by decide) h5, c1 _ "EXPTIME" (by decide) h5, c1 _ "ORIGINAL_SKY" (by decide) h5,
          Option.map_or, or_getD]
        simp [hs]
      | false =>
        obtain ⟨n, hn1, hn2, hn3⟩ := h.resolve_left (by simp [hs]) kv (by simp) h5
        refine key { o with nCombined := wholeVal kv.2 } ?_ (by simp) ?_
        · rw [configOption, if_neg h1, if_neg h2, if_neg h3, if_neg h4, if_pos h5, if_neg (by simp [hs]), hn3, atoi_repr n hn2, ok_bind, wholeVal_repr]
        · simp only [afterConfig, c2 _ h5, c1 _ "GAIN" (by decide) h5, c1 _ "READNOISE" (by decide) h5, c1 _ "EXPTIME" (by decide) h5, c1 _ "ORIGINAL_SKY" (by decide) h5,
            Option.map_or, or_getD]
          simp [hs]
    · refine key o (by rw [configOption, if_neg h1, if_neg h2, if_neg h3, if_neg h4, if_neg h5]) rfl ?_
      simp only [afterConfig, lastValue_cons, if_neg h1, if_neg h2, if_neg h3, if_neg h4, if_neg h5, Option.or_none]

variable [FP α]

/-- The settings that both can make: what the command line says, else what the configuration file says (its last line), else the default. The configuration file changes nothing
else. Missing: see C105; numbers in the configuration file that are none (`C106_unchecked_false`). -/
theorem C106_precedence_partial (num : Str → α) (cores : Int) (prog : Str) (as : List Str) (hp : ∀ a ∈ as, Plain a) (hne : as ≠ []) (es : List Ev)
    (hm : meaning imfitDecls true none as = some es) (hw : Working (cmdGiven imfitDecls es)) (hf : WellFormed (cmdGiven imfitDecls es)) (opts : List (Str × Str))
    (hc : ∀ kv ∈ opts, kv.1 = "NCOMBINED".toList → IsWhole 2147483647 kv.2) :
    ∃ o o', ObeysCmd num cores (cmdGiven imfitDecls es) o ∧ (processInput num cores (prog :: as) >>= configOptions num opts) = .ok o' ∧
      o'.gain = (((cmdGiven imfitDecls es).first "gain").or (lastValue opts "GAIN") |>.map num).getD 1 ∧
      o'.readNoise = (((cmdGiven imfitDecls es).first "readnoise").or (lastValue opts "READNOISE") |>.map num).getD 0 ∧
      o'.expTime = (((cmdGiven imfitDecls es).first "exptime").or (lastValue opts "EXPTIME") |>.map num).getD 1 ∧
      o'.sky = (((cmdGiven imfitDecls es).first "sky").or (lastValue opts "ORIGINAL_SKY") |>.map num).getD 0 ∧
      o'.nCombined = (((cmdGiven imfitDecls es).first "ncombined").or (lastValue opts "NCOMBINED") |>.map wholeVal).getD 1 ∧
      o' = { o with gain := o'.gain, readNoise := o'.readNoise, expTime := o'.expTime, sky := o'.sky, nCombined := o'.nCombined } := by
  obtain ⟨o, h1, h2⟩ := C105_settings_partial num cores prog as hp hne es hm hw hf
  refine ⟨o, afterConfig num opts o, h2, ?_, ?_, ?_, ?_, ?_, ?_, rfl⟩
  · rw [h1, ok_bind, configOptions_eq num opts o (.inr hc)]
  · simp only [afterConfig, h2.gain.1, h2.gain.2]
    cases (cmdGiven imfitDecls es).first "gain" <;> simp
  · simp only [afterConfig, h2.readNoise.1, h2.readNoise.2]
    cases (cmdGiven imfitDecls es).first "readnoise" <;> simp
  · simp only [afterConfig, h2.expTime.1, h2.expTime.2]
    cases (cmdGiven imfitDecls es).first "exptime" <;> simp
  · simp only [afterConfig, h2.sky.1, h2.sky.2]
    cases (cmdGiven imfitDecls es).first "sky" <;> simp
  · simp only [afterConfig, h2.nCombined.1, h2.nCombined.2]
    cases (cmdGiven imfitDecls es).first "ncombined" <;> simp

/-- The statistic that a command line asks for: the noise image is used for χ² only, and Cash's statistic needs another solver than Levenberg-Marquardt. -/
theorem C106_statistic (num : Str → α) (cores : Int) (g : CmdGiven) (o : ImfitOpts α) (h : ObeysCmd num cores g o) :
    chooseStat o =
      if g.has "cashstat" then
        if g.has "de" || g.has "de-lhs" || g.has "nm" || (g.first "nlopt").isSome || g.has "chisquare-only" || g.has "fitstat-only" then .ok .cash else .error .exit
      else if g.has "poisson-mlr" || g.has "mlr" then .ok .poissonMLR
      else if (g.first "noise").isSome then
        .ok (.chi2User (if g.has "errors-are-weights" then WEIGHTS_ARE_WEIGHTS else if g.has "errors-are-variances" then WEIGHTS_ARE_VARIANCES else WEIGHTS_ARE_SIGMAS))
      else if g.has "model-errors" then .ok .chi2Model else .ok .chi2Data := by
  unfold chooseStat
  rw [h.cash, h.mlr, h.noise, h.modelErrors, h.solver, h.statOnly, h.errorType]
  cases g.has "cashstat" with
  | false => simp
  | true =>
    simp only [if_true]
    cases g.has "de" <;> cases g.has "de-lhs" <;> cases g.has "nm" <;> cases (g.first "nlopt").isSome <;> cases g.has "chisquare-only" <;> cases g.has "fitstat-only" <;> rfl

/-- Nothing is checked in the configuration file: `GAIN -2` and `GAIN x` go to `strtod`, `NCOMBINED 0` and `NCOMBINED -3` are used. On the command line they are errors. A
misspelt or unknown keyword is ignored. -/
theorem C106_unchecked_false (num : Str → α) (o : ImfitOpts α) (h1 : o.gainSet = false) (h2 : o.nCombinedSet = false) :
    (∀ t, (configOptions num [("GAIN".toList, t)] o).map (·.gain) = .ok (num t)) ∧
    (configOptions num [("NCOMBINED".toList, "0".toList)] o).map (·.nCombined) = .ok 0 ∧
    (configOptions num [("NCOMBINED".toList, "-3".toList)] o).map (·.nCombined) = .ok (-3) ∧
    notANumber .posReal "-2".toList = true ∧ notANumber .posReal "x".toList = true ∧ notANumber .posInt "0".toList = true ∧ notANumber .posInt "-3".toList = true ∧
    configOptions num [("Gain".toList, "2".toList)] o = .ok o := by
  have hg : ∀ kv : Str × Str, kv.1 = "GAIN".toList → (configOptions num [kv] o).map (·.gain) = .ok (num kv.2) := by
    intro kv hk
    rw [configOptions, List.foldlM_cons, configOption, if_pos hk, h1]
    rfl
  have hn : ∀ (kv : Str × Str) z, kv.1 = "NCOMBINED".toList → atoi kv.2 = .ok z → (configOptions num [kv] o).map (·.nCombined) = .ok z := by
    intro kv z hk hz
    rw [configOptions, List.foldlM_cons, configOption, if_neg (by rw [hk]; decide), if_neg (by rw [hk]; decide), if_neg (by rw [hk]; decide), if_neg (by rw [hk]; decide),
      if_pos hk, h2, if_neg (by decide), hz]
    rfl
  have hu : ∀ kv : Str × Str, kv.1 = "Gain".toList → configOptions num [kv] o = .ok o := by
    intro kv hk
    rw [configOptions, List.foldlM_cons, configOption, if_neg (by rw [hk]; decide), if_neg (by rw [hk]; decide), if_neg (by rw [hk]; decide), if_neg (by rw [hk]; decide),
      if_neg (by rw [hk]; decide)]
    rfl
  exact ⟨fun t => hg _ rfl, hn _ _ rfl (by decide +kernel), hn _ _ rfl (by decide +kernel), by decide +kernel, by decide +kernel, by decide +kernel, by decide +kernel, hu _ rfl⟩

set_option maxRecDepth 100000 in
/-- Statistics that exclude each other are not refused: `--cashstat` takes precedence over `--mlr`, and with either of them a noise image is read and not used. -/
theorem C106_statistics_false (num : Str → α) (cores : Int) :
    (processInput num cores (imfitLine ["a.fits", "--mlr", "--cashstat", "--nm"]) >>= chooseStat) = .ok .cash ∧
    (processInput num cores (imfitLine ["a.fits", "--mlr", "--noise", "n.fits", "--model-errors"]) >>= chooseStat) = .ok .poissonMLR := by
  exact ⟨by with_unfolding_all rfl, by with_unfolding_all rfl⟩

/-- The gain of the command line and the read noise of the configuration file (the last of two) are used. -/
example : lastValue [("GAIN".toList, "2".toList), ("READNOISE".toList, "3".toList), ("READNOISE".toList, "5".toList)] "READNOISE" = some "5".toList ∧
    (∀ kv ∈ [("GAIN".toList, "2".toList), ("NCOMBINED".toList, "7".toList)], kv.1 = "NCOMBINED".toList → IsWhole 2147483647 kv.2) ∧
    ((processInput (α := XR) (fun t => .fin t.length) 1 (imfitLine ["a.fits", "--gain=45.5"]) >>=
      configOptions (fun t => .fin t.length) [("GAIN".toList, "2".toList), ("NCOMBINED".toList, "7".toList)]).map fun o => (o.gain, o.nCombined)) = .ok (.fin (4 : Nat), 7) := by
  refine ⟨by decide +kernel, ?_, by with_unfolding_all rfl⟩
  intro kv hk he
  simp only [List.mem_cons, List.not_mem_nil, or_false] at hk
  rcases hk with rfl | rfl
  · exact absurd he (by decide)
  · exact ⟨7, by decide, by decide, by decide +kernel⟩

end Imfit
