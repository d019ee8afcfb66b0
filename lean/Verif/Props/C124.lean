import Verif.Spec.Continue
import Verif.Props.C123
import Verif.Props.C122

/-!
# C124 — A fit can be continued from the file of its result

The file that `SaveParameters` writes for the model set up from a configuration file is read again without complaint, describes the same functions with the fitted values, and
sets up the same model.
-/

namespace Imfit

open Spec FP

variable {α : Type}

/-! ## The model depends on the shape only -/

/-- The model that is set up for a plan. -/
def builtPlan (cat : Catalogue) (plan : List (SetWritten α)) : Built :=
  ⟨(functions plan).map (builtOf cat FnWritten.extra), planFlags plan, (planNames cat plan).length, planNames cat plan⟩

theorem functions_shape {β : Type} (plan : List (SetWritten α)) (g : Str × Str × List (Str × Str) × Nat → β) :
    (functions plan).map (fun f => g (f.name, f.label, f.extra, f.entries.length)) = ((shape plan).flatten).map g := by
  induction plan with
  | nil => rfl
  | cons s plan ih =>
    simp only [functions, shape, List.flatMap_cons, List.map_append, List.map_cons, List.flatten_cons, List.map_map] at ih ⊢
    rw [ih]; rfl

theorem planNames_shape (cat : Catalogue) (plan : List (SetWritten α)) :
    planNames cat plan = (shape plan).flatMap fun s => kX0 :: kY0 :: s.flatMap fun t => (cat.params t.1).getD [] := by
  unfold planNames shape
  rw [List.flatMap_map]
  congr 1
  funext s
  simp only [List.flatMap_map]
  rfl

theorem planFlags_shape (plan : List (SetWritten α)) : planFlags plan = (flagged (shape plan)).map Prod.snd := by
  unfold planFlags shape
  rw [← flagged_snd (fun f : FnWritten α => (f.name, f.label, f.extra, f.entries.length)), List.map_map]
  rfl

theorem builtPlan_shape (cat : Catalogue) {A B : List (SetWritten α)} (h : shape A = shape B) : builtPlan cat A = builtPlan cat B := by
  unfold builtPlan
  have e := functions_shape A fun t => (⟨t.1, t.2.1, t.2.2.1, (cat.params t.1).getD []⟩ : FnBuilt)
  rw [h, ← functions_shape B] at e
  rw [planNames_shape, planNames_shape cat B, planFlags_shape, planFlags_shape B, h]
  congr 1

theorem mem_shape {A B : List (SetWritten α)} (h : shape A = shape B) {f : FnWritten α} (hf : f ∈ functions A) :
    ∃ g ∈ functions B, g.name = f.name ∧ g.label = f.label ∧ g.extra = f.extra ∧ g.entries.length = f.entries.length := by
  have e := functions_shape A id
  rw [h, ← functions_shape B] at e
  have : (f.name, f.label, f.extra, f.entries.length) ∈ (functions A).map fun f => (f.name, f.label, f.extra, f.entries.length) := List.mem_map_of_mem hf
  simp only [id] at e
  rw [e] at this
  obtain ⟨g, hg, he⟩ := List.mem_map.1 this
  simp only [Prod.mk.injEq] at he
  exact ⟨g, hg, he⟩

theorem filled_shape {A B : List (SetWritten α)} (h : shape A = shape B) (hf : Filled A) : Filled B := by
  have key : ∀ (P : List (SetWritten α)), Filled P ↔ shape P ≠ [] ∧ ∀ s ∈ shape P, s ≠ [] := by
    intro P
    unfold Filled shape
    simp
  rw [key] at hf ⊢
  rwa [← h]

/-! ## What is printed for it -/

/-- The functions as they are printed. -/
def infoAt (cat : Catalogue) (units : Str → Option (List Str)) (g : FnAt α) : FnInfo := infoOf units (builtOf cat FnWritten.extra g.1) g.2.isSome

theorem fnInfos_plan (cat : Catalogue) (units : Str → Option (List Str)) (plan : List (SetWritten α)) :
    fnInfos units (builtPlan cat plan) = (unfoldPlan plan).map (infoAt cat units) := by
  unfold fnInfos builtPlan
  simp only
  rw [← unfold_fst, ← unfold_snd]
  generalize unfoldPlan plan = G
  induction G with
  | nil => rfl
  | cons g G ih => simp [infoAt]

theorem fnTags_length (cat : Catalogue) (units : Str → Option (List Str)) (g : FnAt α) (hl : (parsOf cat g.1).length = g.1.entries.length) :
    (fnTags cat g).length = (if (infoAt cat units g).start then 2 else 0) + (infoAt cat units g).n := by
  unfold fnTags infoAt infoOf builtOf
  rcases g with ⟨f, _ | c⟩
  · simp at hl ⊢; omega
  · simp at hl ⊢; omega

theorem nParams_tags (cat : Catalogue) (units : Str → Option (List Str)) (G : List (FnAt α)) (hl : ∀ g ∈ G, (parsOf cat g.1).length = g.1.entries.length) :
    nParams (G.map (infoAt cat units)) = (G.flatMap (fnTags cat)).length := by
  unfold nParams
  induction G with
  | nil => rfl
  | cons g G ih =>
    simp only [List.map_cons, List.sum_cons, List.flatMap_cons, List.length_append]
    rw [ih fun x hx => hl x (by simp [hx]), fnTags_length cat units g (hl g (by simp))]

theorem ownNames_tags (cat : Catalogue) (units : Str → Option (List Str)) (G : List (FnAt α)) (hl : ∀ g ∈ G, (parsOf cat g.1).length = g.1.entries.length) :
    ownNames (G.map (infoAt cat units)) ((G.flatMap (fnTags cat)).map Prod.fst) = G.flatMap fun g => parsOf cat g.1 := by
  induction G with
  | nil => rfl
  | cons g G ih =>
    have e := fnTags_length cat units g (hl g (by simp))
    simp only [List.map_cons, List.flatMap_cons, List.map_append, ownNames]
    rw [List.drop_left' (i := (if (infoAt cat units g).start then 2 else 0) + (infoAt cat units g).n) (by rw [List.length_map, e]), ih fun x hx => hl x (by simp [hx])]
    congr 1
    have h0 := hl g (by simp)
    rcases g with ⟨f, _ | c⟩
    · simp only [fnTags, infoAt, infoOf, builtOf, List.nil_append, Option.isSome_none, Bool.false_eq_true, if_false, List.drop_zero]
      rw [List.map_fst_zip (le_of_eq h0), List.take_left' rfl]
    · simp only [fnTags, infoAt, infoOf, builtOf, Option.isSome_some, if_true, List.map_append, List.map_cons, List.map_nil, List.append_assoc]
      rw [List.drop_left' (i := 2) (by rfl), List.map_fst_zip (le_of_eq h0), List.take_left' rfl]

/-- The printed values of a function and its centre. -/
def fnTexts [FP α] (pr : NumFmt α) (dx dy : α) (g : FnAt α) : List Str :=
  (match g.2 with
    | none => []
    | some c => [pr.f4 (c.1.value + dx), pr.f4 (c.2.value + dy)]) ++ g.1.entries.map fun e => pr.g7 e.value

theorem printedTexts_tags [FP α] (cat : Catalogue) (units : Str → Option (List Str)) (pr : NumFmt α) (dx dy : α) (G : List (FnAt α))
    (hl : ∀ g ∈ G, (parsOf cat g.1).length = g.1.entries.length) :
    printedTexts pr dx dy (G.map (infoAt cat units)) ((G.flatMap (fnTags cat)).map fun t => t.2.value) = G.flatMap (fnTexts pr dx dy) := by
  induction G with
  | nil => rfl
  | cons g G ih =>
    have e := fnTags_length cat units g (hl g (by simp))
    have h0 := hl g (by simp)
    have e2 : ((parsOf cat g.1).zip g.1.entries).map (fun t => t.2.value) = g.1.entries.map Entry.value := by
      rw [← List.map_snd_zip (l₁ := parsOf cat g.1) (l₂ := g.1.entries) (le_of_eq h0.symm), List.map_map, List.map_snd_zip (le_of_eq h0.symm)]; rfl
    have e3 : (g.1.entries.map Entry.value).length = (parsOf cat g.1).length := by rw [List.length_map, h0]
    simp only [List.map_cons, List.flatMap_cons, List.map_append, printedTexts]
    rcases g with ⟨f, _ | c⟩
    · simp only [fnTags, infoAt, infoOf, builtOf, List.nil_append, Option.isSome_none, Bool.false_eq_true, if_false] at e2 e3 ⊢
      rw [e2, List.take_left' e3, List.drop_left' e3]
      have := ih fun x hx => hl x (by simp [hx])
      rw [this, List.map_map]
      rfl
    · simp only [fnTags, infoAt, infoOf, builtOf, Option.isSome_some, if_true, List.map_append, List.map_cons, List.map_nil, List.append_assoc] at e2 e3 ⊢
      have := ih fun x hx => hl x (by simp [hx])
      rw [e2]
      have d1 : ∀ X : List α, ([c.1.value, c.2.value] ++ (f.entries.map Entry.value ++ X)).drop (2 + (parsOf cat f).length) = X := by
        intro X
        rw [← List.append_assoc, List.drop_left' (by simp only [List.length_append, e3]; rfl)]
      rw [d1, this, List.take_left' (i := 2) (by rfl), List.drop_left' (i := 2) (by rfl), List.take_left' e3, List.map_map]
      rfl

theorem starts_unfold (cat : Catalogue) (units : Str → Option (List Str)) (plan : List (SetWritten α)) (hf : ∀ s ∈ plan, s.fns ≠ []) (m : Nat) :
    startsFrom ((unfoldPlan plan).map (infoAt cat units)) m = startIndices m (plan.map SetWritten.fns) := by
  have hnone : ∀ (L : List (FnWritten α)) (X : List FnInfo) (m : Nat),
      startsFrom ((L.map fun f => ((f, none) : FnAt α)).map (infoAt cat units) ++ X) m = startsFrom X (m + L.length) := by
    intro L X
    induction L with
    | nil => intro m; rfl
    | cons f L ih =>
      intro m
      simp only [List.map_cons, List.cons_append, startsFrom, List.length_cons]
      rw [ih (m + 1)]
      simp [infoAt, infoOf, Nat.add_assoc, Nat.add_comm 1]
  induction plan generalizing m with
  | nil => rfl
  | cons s plan ih =>
    cases hs : s.fns with
    | nil => exact absurd hs (hf s (by simp))
    | cons f fs =>
      have ih' := ih (fun t ht => hf t (by simp [ht])) (m + (fs.length + 1))
      simp only [unfoldPlan, hs, List.map_append, List.map_cons, List.cons_append, startsFrom, startIndices, List.length_cons]
      rw [hnone, ← ih', Nat.add_assoc, Nat.add_comm 1]
      simp [infoAt, infoOf]

theorem texts_unfold [FP α] (nl : Strtod α) (pr : NumFmt α) (ox oy : Int) (plan : List (SetWritten α)) (hf : ∀ s ∈ plan, s.fns ≠ []) :
    ((unfoldPlan plan).flatMap (fnTexts pr (lit (ox : ℚ)) (lit (oy : ℚ)))).map (numberIn nl) = (lines (plan.map (reread nl pr ox oy))).map Entry.value := by
  unfold lines
  induction plan with
  | nil => rfl
  | cons s plan ih =>
    simp only [unfoldPlan, List.flatMap_append, List.map_append, ih fun t ht => hf t (by simp [ht]), List.map_cons, List.flatMap_cons]
    congr 1
    cases hs : s.fns with
    | nil => exact absurd hs (hf s (by simp))
    | cons f fs =>
      simp only [fnTexts, reread, hs, List.flatMap_cons, List.map_append, List.map_cons, List.flatMap_map, List.nil_append, List.map_map, List.cons_append,
        List.map_flatMap]
      rfl

theorem shape_reread [FP α] (nl : Strtod α) (pr : NumFmt α) (ox oy : Int) (plan : List (SetWritten α)) : shape (plan.map (reread nl pr ox oy)) = shape plan := by
  simp [shape, reread, Function.comp_def]

theorem lines_length_shape (plan : List (SetWritten α)) : (lines plan).length = ((shape plan).map fun s => 2 + (s.map fun t => t.2.2.2).sum).sum := by
  unfold lines shape
  rw [List.length_flatMap, List.map_map]
  congr 1
  refine List.map_congr_left fun s _ => ?_
  simp [List.length_flatMap, Function.comp_def]
  omega

/-! ## The file of the result -/

/-- A function that can be written into a file and read again: its name, the names and units of its parameters, its label and its optional parameters. -/
structure FnWritable (cat : Catalogue) (units : Str → Option (List Str)) (f : FnWritten α) : Prop where
  name : Word f.name ∧ ¬ Has kX0 f.name ∧ ¬ Has kLabel f.name
  label : LabelOK f.label
  pars : ∀ l ∈ (cat.params f.name).getD [], Word l ∧ Free l
  units : ∀ us, units f.name = some us → us.length = f.entries.length ∧ ∀ u ∈ us, UnitOK u
  extra : (f.extra.map Prod.fst).Nodup ∧ ∀ p ∈ f.extra, Word p.1 ∧ Word p.2 ∧ Free p.1 ∧ Free p.2

/-- **C124.** The model `st` of a fit, its result `B` in the coordinates of the section, with or without errors: the file can be written and read, and it describes the functions of the
model with the printed values; the model set up from it is the same. Missing: limits and fixed parameters (`C124_false`), lines of 1024 characters or more, and the image-description
options of the configuration file. -/
theorem C124_partial [FP α] (cat : Catalogue) (c : Config α) (plan : List (SetWritten α)) (ox oy : Int) (hs : Says c plan) (hf : Filled plan)
    (hu : ∀ f ∈ functions plan, ∃ ps, Usable cat f ps ∧ ps.length = f.entries.length)
    (units : Str → Option (List Str)) (hw : ∀ f ∈ functions plan, FnWritable cat units f)
    (nl : Strtod α) (pr : NumFmt α) (hp : pr.OK nl) (check : Bool) (header about : List Str) (hh : ∀ l ∈ header ++ about, Ignorable l ∧ '\n' ∉ l)
    (B : List (SetWritten α)) (hB : shape B = shape plan) (errs : Option (List α)) (he : ∀ es, errs = some es → es.length = (lines B).length) :
    ∃ st : FitStart α, startFit cat c ox oy = .ok (some st) ∧ st.nFree = ((lines plan).filter fun e => !e.lim.fixed).length ∧
      ((∀ ls, printFns pr [] st.built.labels ((lines B).map Entry.value) errs (lit (ox : ℚ)) (lit (oy : ℚ)) (fnInfos units st.built) 0 = .ok ls →
          ∀ l ∈ ls, ∀ t ∈ l, t.length < 1024) →
        ∃ (file : Str) (c' : Config α) (st' : FitStart α),
          saveParameters pr header about st.built.labels ((lines B).map Entry.value) errs (lit (ox : ℚ)) (lit (oy : ℚ)) (fnInfos units st.built) = .ok file ∧
          readConfig nl true check [] file = .ok (some c') ∧ c'.options = [] ∧ Says c' (B.map (reread nl pr ox oy)) ∧
          startFit cat c' ox oy = .ok (some st') ∧ st'.built = st.built ∧
          st'.values = (lines ((B.map (reread nl pr ox oy)).map (SetWritten.moved ox oy))).map Entry.value ∧
          st'.nFree = (lines B).length) := by
  have start : ∀ (c : Config α) (P : List (SetWritten α)), Says c P → shape P = shape plan →
      ∃ st : FitStart α, startFit cat c ox oy = .ok (some st) ∧ st.built = builtPlan cat P ∧
        st.values = (lines (P.map (SetWritten.moved ox oy))).map Entry.value ∧ st.nFree = ((lines P).filter fun e => !e.lim.fixed).length := by
    intro c P hs hP
    have hu' : ∀ f ∈ functions P, ∃ ps, Usable cat f ps ∧ ps.length = f.entries.length := by
      intro f h
      obtain ⟨g, hg, e1, e2, e3, e4⟩ := mem_shape hP h
      obtain ⟨ps, k1, k2⟩ := hu g hg
      refine ⟨ps, ⟨e1 ▸ k1.known, ?_, e1 ▸ k1.accepts, k1.noX, k1.noY⟩, by rw [k2, e4]⟩
      rw [← e1, ← e3]
      exact k1.extra
    have hf' := filled_shape hP.symm hf
    have hps : ∀ f ∈ functions P, Usable cat f (parsOf cat f) ∧ (parsOf cat f).length = f.entries.length := by
      intro f h
      obtain ⟨ps, h1, h2⟩ := hu' f h
      have : ps = parsOf cat f := by simp [parsOf, h1.known]
      exact this ▸ ⟨h1, h2⟩
    obtain ⟨st, h1, h2, -, -, h5, -⟩ := C79_partial cat c P ox oy hs hf' hu'
    refine ⟨st, h1, ?_, h2, h5⟩
    have hst := startFit_total cat c P ox oy hs hf' fun f h => (hps f h).1
    rw [if_neg (by simpa using (zip_tagged cat P fun f h => (hps f h).2).2), h1] at hst
    rw [Option.some.inj (Except.ok.inj hst)]
    rfl
  obtain ⟨st, h1, h2, -, hfree⟩ := start c plan hs rfl
  refine ⟨st, h1, hfree, fun hlen => ?_⟩
  have hfB := filled_shape hB.symm hf
  rw [h2, builtPlan_shape cat hB.symm] at hlen ⊢
  have hwB : ∀ f ∈ functions B, FnWritable cat units f ∧ (parsOf cat f).length = f.entries.length := by
    intro f h
    obtain ⟨g, hg, e1, e2, e3, e4⟩ := mem_shape hB h
    obtain ⟨ps, k1, k2⟩ := hu g hg
    have w := hw g hg
    refine ⟨⟨e1 ▸ w.name, e2 ▸ w.label, e1 ▸ w.pars, ?_, e3 ▸ w.extra⟩, ?_⟩
    · rw [← e4, ← e1]; exact w.units
    · rw [← e4, ← k2, parsOf, ← e1, k1.known]; rfl
  have hG : ∀ g ∈ unfoldPlan B, g.1 ∈ functions B := fun g hg => by rw [← unfold_fst]; exact List.mem_map_of_mem hg
  have hlG : ∀ g ∈ unfoldPlan B, (parsOf cat g.1).length = g.1.entries.length := fun g hg => (hwB _ (hG g hg)).2
  obtain ⟨hz, hzl⟩ := zip_tagged cat B fun f h => (hwB f h).2
  have hT := unfold_tags cat B hfB.2
  have t1 : ((unfoldPlan B).flatMap (fnTags cat)).map Prod.fst = planNames cat B := by rw [hT, ← hz, List.map_fst_zip (le_of_eq hzl)]
  have t2 : ((unfoldPlan B).flatMap (fnTags cat)).map (fun t => t.2.value) = (lines B).map Entry.value := by
    rw [hT, ← hz]
    conv_rhs => rw [← List.map_snd_zip (l₁ := planNames cat B) (l₂ := lines B) (le_of_eq hzl.symm), List.map_map]
    rfl
  have tn : nParams ((unfoldPlan B).map (infoAt cat units)) = (lines B).length := by
    rw [nParams_tags cat units _ hlG, hT, ← hz, List.length_zip, hzl, min_self]
  rw [fnInfos_plan] at hlen ⊢
  have hl : (builtPlan cat B).labels = planNames cat B := rfl
  rw [hl] at hlen ⊢
  have hpr : Printable (planNames cat B) ((lines B).map Entry.value) errs ((unfoldPlan B).map (infoAt cat units)) := by
    refine ⟨?_, by rw [tn, hzl], by rw [tn, List.length_map], fun es h => by rw [tn, he es h], ?_, ?_, ?_, ?_, ?_⟩
    · obtain ⟨s, rest, rfl⟩ := List.exists_cons_of_ne_nil hfB.1
      have := hfB.2 s (by simp)
      cases hs : s.fns with
      | nil => exact absurd hs this
      | cons f fs => exact ⟨_, _, by simp only [unfoldPlan, hs, List.cons_append, List.map_cons]; rfl, rfl⟩
    · rw [← t1, ownNames_tags cat units _ hlG]
      intro l hl
      obtain ⟨g, hg, h⟩ := List.mem_flatMap.1 hl
      exact (hwB _ (hG g hg)).1.pars l h
    · intro i hi
      obtain ⟨g, hg, rfl⟩ := List.mem_map.1 hi
      exact (hwB _ (hG g hg)).1.name
    · intro i hi
      obtain ⟨g, hg, rfl⟩ := List.mem_map.1 hi
      exact (hwB _ (hG g hg)).1.label
    · intro i hi us hus
      obtain ⟨g, hg, rfl⟩ := List.mem_map.1 hi
      obtain ⟨k1, k2⟩ := (hwB _ (hG g hg)).1.units us hus
      exact ⟨k1.trans (hlG g hg).symm, k2⟩
    · intro i hi kv hkv
      obtain ⟨g, hg, rfl⟩ := List.mem_map.1 hi
      have : kv = g.1.extra := by
        unfold infoAt infoOf builtOf at hkv
        simp only at hkv
        split at hkv
        · cases hkv
        · exact (Option.some.inj hkv).symm
      rw [this]
      exact (hwB _ (hG g hg)).1.extra
  obtain ⟨file, f1, f2⟩ := C34_partial nl pr hp check header about (planNames cat B) ((lines B).map Entry.value) errs (lit (ox : ℚ)) (lit (oy : ℚ)) _ hpr hh hlen
  have hsr := shape_reread nl pr ox oy B
  have hlr : (lines (B.map (reread nl pr ox oy))).length = (lines B).length := by rw [lines_length_shape, lines_length_shape B, hsr]
  have hzero : ∀ e ∈ lines (B.map (reread nl pr ox oy)), e.lim = ParInfo.zero := by
    intro e h
    simp only [lines, List.mem_flatMap, List.mem_map] at h
    obtain ⟨s, ⟨t, -, rfl⟩, h⟩ := h
    simp only [reread, List.mem_cons, List.mem_flatMap, List.mem_map] at h
    rcases h with rfl | rfl | ⟨f, ⟨f', -, rfl⟩, h⟩
    · rfl
    · rfl
    · simp only [List.mem_map] at h
      obtain ⟨e', -, rfl⟩ := h
      rfl
  have names : ∀ {β : Type} (q : FnInfo → β) (r : FnWritten α → β), (∀ g : FnAt α, q (infoAt cat units g) = r g.1) →
      (∀ (f : FnWritten α) es, r { f with entries := es } = r f) → ((unfoldPlan B).map (infoAt cat units)).map q = (functions (B.map (reread nl pr ox oy))).map r := by
    intro β q r h1 h2
    rw [List.map_map]
    have : (q ∘ infoAt cat units : FnAt α → β) = r ∘ Prod.fst := funext h1
    rw [this, ← List.map_map, unfold_fst]
    simp only [functions, List.flatMap_map, List.map_flatMap, reread, List.map_map]
    congr 1
    funext s
    exact List.map_congr_left fun f _ => (h2 f _).symm
  have hsays : Says (α := α)
      { options := [], names := ((unfoldPlan B).map (infoAt cat units)).map FnInfo.name,
        labels := ((unfoldPlan B).map (infoAt cat units)).map FnInfo.label,
        vals := (printedTexts pr (lit (ox : ℚ)) (lit (oy : ℚ)) ((unfoldPlan B).map (infoAt cat units)) ((lines B).map Entry.value)).map
          (fun t => nl.val (t.dropWhile (· == ' '))),
        lims := List.replicate ((lines B).map Entry.value).length ParInfo.zero, starts := startsOf ((unfoldPlan B).map (infoAt cat units)), found := false,
        opts := ((unfoldPlan B).map (infoAt cat units)).map (·.extra.getD []) } (B.map (reread nl pr ox oy)) := by
    refine ⟨names _ _ (fun _ => rfl) fun _ _ => rfl, names _ _ (fun _ => rfl) fun _ _ => rfl, names _ _ (fun g => ?_) fun _ _ => rfl, ?_, ?_, ?_⟩
    · unfold infoAt infoOf builtOf
      simp only
      split
      · rename_i h; rw [h]; rfl
      · rfl
    · simp only
      rw [← t2, printedTexts_tags cat units pr _ _ _ hlG]
      exact texts_unfold nl pr ox oy B hfB.2
    · simp only
      rw [List.length_map, ← hlr]
      refine (List.eq_replicate_iff.2 ⟨by rw [List.length_map], fun x hx => ?_⟩).symm
      obtain ⟨e, h, rfl⟩ := List.mem_map.1 hx
      exact hzero e h
    · simp only
      have e0 : startsOf ((unfoldPlan B).map (infoAt cat units)) = startsFrom ((unfoldPlan B).map (infoAt cat units)) 0 := by rw [startsFrom_eq]; simp
      rw [e0, starts_unfold cat units B hfB.2]
      have : ∀ (P : List (SetWritten α)) (m : Nat), startIndices m (P.map SetWritten.fns) = startIndices m ((P.map (reread nl pr ox oy)).map SetWritten.fns) := by
        intro P
        induction P with
        | nil => exact fun _ => rfl
        | cons s P ih =>
          intro m
          simp only [List.map_cons, startIndices, reread, List.length_map] at ih ⊢
          rw [ih]
      exact this B 0
  obtain ⟨st', k1, k2, k3, k4⟩ := start _ _ hsays (hsr.trans hB)
  refine ⟨file, _, st', f1, f2, rfl, hsays, k1, ?_, k3, ?_⟩
  · rw [k2]; exact builtPlan_shape cat hsr
  · rw [k4, ← hlr]
    congr 1
    have : (lines (B.map (reread nl pr ox oy))).filter (fun e => !e.lim.fixed) = lines (B.map (reread nl pr ox oy)) :=
      List.filter_eq_self.2 fun e h => by rw [hzero e h]; rfl
    rw [this]

/-- The values are those of the result if the result has no more digits than are printed. -/
theorem C124_exact (nl : Strtod XR) (pr : NumFmt XR) (ox oy : Int) (B : List (SetWritten XR))
    (hx : ∀ s ∈ B, numberIn nl (pr.f4 (s.x0.value + lit (ox : ℚ))) = s.x0.value + lit (ox : ℚ))
    (hy : ∀ s ∈ B, numberIn nl (pr.f4 (s.y0.value + lit (oy : ℚ))) = s.y0.value + lit (oy : ℚ))
    (he : ∀ f ∈ functions B, ∀ e ∈ f.entries, numberIn nl (pr.g7 e.value) = e.value) :
    (lines ((B.map (reread nl pr ox oy)).map (SetWritten.moved ox oy))).map Entry.value = (lines B).map Entry.value := by
  have back : ∀ (v : XR) (d : Int), v + lit (d : ℚ) - lit (d : ℚ) = v := by
    intro v d
    cases v <;> first | (simp [XR.lit_def]; done) | rfl
  induction B with
  | nil => rfl
  | cons s B ih =>
    have ih' := ih (fun t ht => hx t (by simp [ht])) (fun t ht => hy t (by simp [ht])) fun f hf => he f (by
      simp only [functions, List.flatMap_cons, List.mem_append] at hf ⊢
      exact .inr hf)
    simp only [lines, List.map_cons, List.flatMap_cons, List.map_append] at ih' ⊢
    rw [ih']
    congr 1
    simp only [SetWritten.moved, reread, Entry.moved, hx s (by simp), hy s (by simp), back]
    congr 2
    rw [List.flatMap_map, List.map_flatMap, List.map_flatMap]
    refine List.flatMap_congr fun f hf => ?_
    simp only [List.map_map]
    refine List.map_congr_left fun e h => ?_
    exact he f (by simp only [functions, List.flatMap_cons, List.mem_append]; exact .inl hf) e h

/-! ## Digits -/

/-- What `printf` and `strtod` do to a number: `%.4f` keeps it within half a unit of the fourth decimal, `%7g` (six digits) within half a unit of the sixth digit. -/
structure Spec.Rounds (nl : Strtod XR) (pr : NumFmt XR) : Prop where
  f4 : ∀ r : ℝ, ∃ q, numberIn nl (pr.f4 (.fin r)) = .fin q ∧ |q - r| ≤ 1 / 20000
  g7 : ∀ r : ℝ, ∃ q, numberIn nl (pr.g7 (.fin r)) = .fin q ∧ |q - r| ≤ |r| / 200000

/-- C124, digits: a fit that is continued starts within 1/20000 pixel of the centres and within a part in 200000 of the other values. -/
theorem C124_digits (nl : Strtod XR) (pr : NumFmt XR) (h : Rounds nl pr) (ox oy : Int) (s : SetWritten XR) (a b : ℝ) (hx : s.x0.value = .fin a) (hy : s.y0.value = .fin b)
    (hv : ∀ f ∈ s.fns, ∀ e ∈ f.entries, ∃ v, e.value = .fin v) :
    (∃ a', ((reread nl pr ox oy s).moved ox oy).x0.value = .fin a' ∧ |a' - a| ≤ 1 / 20000) ∧ (∃ b', ((reread nl pr ox oy s).moved ox oy).y0.value = .fin b' ∧ |b' - b| ≤ 1 / 20000) ∧
    List.Forall₂ (fun f g => g.name = f.name ∧ List.Forall₂ (fun e e' : Entry XR => ∃ v v' : ℝ, e.value = .fin v ∧ e'.value = .fin v' ∧ |v' - v| ≤ |v| / 200000) f.entries g.entries)
      s.fns ((reread nl pr ox oy s).moved ox oy).fns := by
  have centre : ∀ (d : Int) (r : ℝ), ∃ r', numberIn nl (pr.f4 (.fin r + lit (d : ℚ))) - lit (d : ℚ) = .fin r' ∧ |r' - r| ≤ 1 / 20000 := by
    intro d r
    obtain ⟨q, h1, h2⟩ := h.f4 (r + ((d : ℚ) : ℝ))
    refine ⟨q - ((d : ℚ) : ℝ), ?_, ?_⟩
    · rw [XR.lit_def, XR.fin_add, h1, XR.fin_sub]
    · rwa [sub_sub, add_comm ((d : ℚ) : ℝ) r]
  refine ⟨?_, ?_, ?_⟩
  · obtain ⟨a', h1, h2⟩ := centre ox a
    exact ⟨a', by simp only [SetWritten.moved, Entry.moved, reread, hx, h1], h2⟩
  · obtain ⟨b', h1, h2⟩ := centre oy b
    exact ⟨b', by simp only [SetWritten.moved, Entry.moved, reread, hy, h1], h2⟩
  · simp only [SetWritten.moved, reread]
    rw [List.forall₂_map_right_iff, List.forall₂_same]
    refine fun f hf => ⟨rfl, ?_⟩
    rw [List.forall₂_map_right_iff, List.forall₂_same]
    intro e he
    obtain ⟨v, hv⟩ := hv f hf e he
    obtain ⟨q, h1, h2⟩ := h.g7 v
    exact ⟨v, q, hv, by rw [hv, h1], h2⟩

/-- There is a way to print and read numbers like this: a rational number near by, as a row of ones. -/
example : ∃ (nl : Strtod XR) (pr : NumFmt XR), Rounds nl pr := by
  classical
  have near : ∀ (r e : ℝ), 0 ≤ e → (e = 0 → r = 0) → ∃ q : ℚ, |(q : ℝ) - r| ≤ e := by
    intro r e h1 h2
    rcases h1.eq_or_lt with h | h
    · exact ⟨0, by rw [h2 h.symm, ← h]; simp⟩
    · obtain ⟨q, g1, g2⟩ := exists_rat_btwn (show r - e < r + e by linarith)
      exact ⟨q, abs_le.2 ⟨by linarith, by linarith⟩⟩
  choose f hf using fun r : ℝ => near r (1 / 20000) (by norm_num) (by norm_num)
  choose g hg using fun r : ℝ => near r (|r| / 200000) (by positivity) (fun h => by
    have : |r| = 0 := by linarith
    exact abs_eq_zero.1 this)
  let nl : Strtod XR := ⟨fun s => (.fin (((Encodable.decode (α := ℚ) s.length).getD 0 : ℚ) : ℝ), s.length)⟩
  have key : ∀ q : ℚ, numberIn nl (List.replicate (Encodable.encode q) '1') = .fin q := by
    intro q
    have e1 : (List.replicate (Encodable.encode q) '1').dropWhile (· == ' ') = List.replicate (Encodable.encode q) '1' := by
      cases Encodable.encode q <;> simp [List.replicate_succ]
    have e2 : cstr (List.replicate (Encodable.encode q) '1') = List.replicate (Encodable.encode q) '1' := by
      unfold cstr
      rw [List.takeWhile_eq_self_iff]
      intro x hx
      rw [List.eq_of_mem_replicate hx]
      decide
    unfold numberIn Strtod.val
    rw [e1, e2]
    simp [nl]
  refine ⟨nl, ⟨fun v => match v with
    | .fin r => List.replicate (Encodable.encode (f r)) '1'
    | _ => [], fun v => match v with
    | .fin r => List.replicate (Encodable.encode (g r)) '1'
    | _ => [], fun _ => []⟩, fun r => ⟨f r, key _, hf r⟩, fun r => ⟨g r, key _, hg r⟩⟩

/-! ## The functions that are offered -/

theorem standard_words : ∀ c ∈ standardClasses, (Word c.name ∧ ¬ Has kX0 c.name ∧ ¬ Has kLabel c.name) ∧ (∀ l ∈ c.labels, Word l ∧ Free l) ∧ (∀ u ∈ c.units, UnitOK u) ∧
    kX0 ∉ c.labels ∧ kY0 ∉ c.labels := by
  unfold Word Free UnitOK Has
  decide +kernel

/-- C124, functions: what is asked of functions in `C124_partial` holds for all functions that are offered, if the label and the optional parameters can be written and a
point source has a PSF image. -/
theorem C124_offered (psf : Bool) (c : FuncClass) (hc : c ∈ standardClasses) (f : FnWritten α) (hn : c.name = f.name) (hl : f.entries.length = c.n) (hlab : LabelOK f.label)
    (hx : f.extra = [] ∨ 0 ≤ standardExtra f.name f.extra ∧ (f.extra.map Prod.fst).Nodup ∧ ∀ p ∈ f.extra, Word p.1 ∧ Word p.2 ∧ Free p.1 ∧ Free p.2)
    (ha : psf = true ∨ f.name ≠ "PointSource".toList ∧ f.name ≠ "PointSourceRot".toList) :
    (∃ ps, Usable (standardCatalogue psf) f ps ∧ ps.length = f.entries.length) ∧ FnWritable (standardCatalogue psf) standardUnits f := by
  obtain ⟨names, h1, -⟩ := C123_names
  obtain ⟨e1, e2, e3, e4⟩ := (C123_usable names h1 psf f.name).2.1 c hc hn
  obtain ⟨w1, w2, w3, w4, w5⟩ := standard_words c hc
  clear hc h1
  refine ⟨⟨c.labels, ⟨e1, ?_, ?_, w4, w5⟩, e3.trans hl.symm⟩, hn ▸ w1, hlab, ?_, ?_, ?_⟩
  · rcases hx with h | h
    · exact .inl h
    · exact .inr h.1
  · show (psf || !(decide (f.name = "PointSource".toList ∨ f.name = "PointSourceRot".toList))) = true
    rcases ha with rfl | ⟨h1, h2⟩
    · rfl
    · rw [decide_eq_false (fun h => h.elim h1 h2), Bool.not_false, Bool.or_true]
  · rw [e1]; exact w2
  · intro us h
    rw [e2] at h
    cases h
    exact ⟨e4.trans hl.symm, w3⟩
  · rcases hx with h | h
    · rw [h]; exact ⟨List.nodup_nil, fun p hp => (by cases hp)⟩
    · exact h.2

/-! ## Limits and fixed parameters -/

/-- Start a fit, write the start values as its result, and continue from the file: numbers of free parameters and, for each parameter, whether it has limits, before and after. -/
noncomputable def continued (c : Config XR) : Res (Option (Int × List Bool × Int × List Bool)) := do
  match ← startFit (standardCatalogue true) c 0 0 with
  | none => .ok none
  | some st => do
    let file ← saveParameters sevens ["# header".toList] ["# about".toList] st.built.labels st.values none (lit 0) (lit 0) (fnInfos standardUnits st.built)
    match ← readConfig natStrtod true true [] file with
    | none => .ok none
    | some c' => do
      match ← startFit (standardCatalogue true) c' 0 0 with
      | none => .ok none
      | some st' => .ok (some (st.nFree, st.recs.map (fun r => r.info.lim0 || r.info.lim1), st'.nFree, st'.recs.map fun r => r.info.lim0 || r.info.lim1))

/-- A sky background: its centre is fixed, its value has limits. -/
noncomputable def skyConfig : Config XR :=
  { options := [], names := ["FlatSky".toList], labels := [[]], vals := [lit 1, lit 1, lit 100],
    lims := [⟨true, false, false, 0, 0⟩, ⟨true, false, false, 0, 0⟩, ⟨false, true, true, lit 0, lit 1000⟩], starts := [0], found := false, opts := [[]] }

/-- A fit that is continued has lost its limits, and what was fixed is free: the centre of a sky background, on which nothing depends. -/
theorem C124_false : continued skyConfig = .ok (some (1, [false, false, true], 3, [false, false, false])) := by decide +kernel

/-- The options of the file from which the fit is continued. -/
noncomputable def continuedOptions (c : Config XR) : Res (Option (List (Str × Str))) := do
  match ← startFit (standardCatalogue true) c 0 0 with
  | none => .ok none
  | some st => do
    let file ← saveParameters sevens ["# header".toList] ["# about".toList] st.built.labels st.values none (lit 0) (lit 0) (fnInfos standardUnits st.built)
    let r ← readConfig natStrtod true true [] file
    .ok (r.map Config.options)

/-- The gain and read noise given in the configuration file are not written: a fit that is continued uses the defaults unless they are given again on the command line. -/
theorem C124_options_false : let c := { skyConfig with options := [("GAIN".toList, "4.5".toList), ("READNOISE".toList, "0.7".toList)] }
    c.options ≠ [] ∧ continuedOptions c = .ok (some []) := ⟨by simp, by decide +kernel⟩

/-! ## Example -/

/-- Two sets: a bulge with a disk, and a point source. -/
noncomputable def twoSets : List (SetWritten XR) :=
  [⟨⟨lit 100, .zero⟩, ⟨lit 120, .zero⟩, [⟨"Sersic".toList, "bulge".toList, [], [⟨lit 30, .zero⟩, ⟨lit (1 / 2), .zero⟩, ⟨lit 4, .zero⟩, ⟨lit 10, .zero⟩, ⟨lit 25, .zero⟩]⟩,
      ⟨"Exponential".toList, [], [], [⟨lit 30, .zero⟩, ⟨lit (1 / 2), .zero⟩, ⟨lit 7, .zero⟩, ⟨lit 50, .zero⟩]⟩]⟩,
    ⟨⟨lit 40, .zero⟩, ⟨lit 50, .zero⟩, [⟨"PointSource".toList, "star 1".toList, [("method".toList, "bicubic".toList)], [⟨lit 1000, .zero⟩]⟩]⟩]

/-- What is asked of the plan in `C124_partial` holds for it. -/
example : Filled twoSets ∧ ∀ f ∈ functions twoSets, (∃ ps, Usable (standardCatalogue true) f ps ∧ ps.length = f.entries.length) ∧ FnWritable (standardCatalogue true) standardUnits f := by
  refine ⟨⟨by simp [twoSets], fun s hs => ?_⟩, fun f hf => ?_⟩
  · simp only [twoSets, List.mem_cons, List.not_mem_nil, or_false] at hs
    rcases hs with rfl | rfl <;> exact List.cons_ne_nil _ _
  · simp only [functions, twoSets, List.flatMap_cons, List.flatMap_nil, List.append_nil, List.cons_append, List.nil_append, List.mem_cons, List.not_mem_nil, or_false] at hf
    rcases hf with rfl | rfl | rfl
    · refine C124_offered true standardClasses[1] (List.getElem_mem (by decide)) _ rfl rfl ?_ (.inl rfl) (.inl rfl)
      unfold LabelOK Has; decide +kernel
    · refine C124_offered true standardClasses[0] (List.getElem_mem (by decide)) _ rfl rfl ?_ (.inl rfl) (.inl rfl)
      unfold LabelOK Has; decide +kernel
    · refine C124_offered true standardClasses[26] (List.getElem_mem (by decide)) _ rfl rfl ?_ (.inr ⟨by decide +kernel, by decide +kernel, ?_⟩) (.inl rfl)
      · unfold LabelOK Has; decide +kernel
      · unfold Word Free Has; decide +kernel

end Imfit
