import Verif.Model.MakeRun
import Verif.Props.C124
import Verif.Props.C120Image

/-!
# C126 — makeimage reproduces the model of a fit

From the file that imfit writes for its result, makeimage makes the image of the fitted model: the pixels of the section that was fitted have the values of the model of the fit.
-/

namespace Imfit

open Spec XR FP

variable {α : Type}

/-- makeimage uses the functions that a fit would use, and the values as they are written. -/
theorem makeStart_of [FP α] (cat : Catalogue) (c : Config α) (ox oy : Int) (st : FitStart α) (h : startFit cat c ox oy = .ok (some st)) :
    makeStart cat c = .ok (some (st.built, c.vals)) := by
  unfold startFit at h
  unfold makeStart
  cases ha : addFunctions cat cat.accepts 0 [] c.names c.labels c.starts c.opts [] with
  | error e => rw [ha] at h; cases h
  | ok r =>
    rw [ha, ok_bind] at h
    rw [ok_bind]
    cases r with
    | none => cases h
    | some b =>
      simp only at h ⊢
      split at h
      · cases h
      · rename_i hn
        split at h
        · cases h
        · rw [if_neg hn, Classical.not_not.1 hn, loopMap_list c.vals _ id (fun i hi => rd_ok hi), List.map_id, ok_bind]
          cases h1 : loopMap b.total fun i => startRec b c.lims ox oy i with
          | error e => rw [h1] at h; cases h
          | ok recs =>
            rw [h1, ok_bind] at h
            cases h2 : loopMap b.total fun i => startValue b c.vals ox oy i with
            | error e => rw [h2] at h; cases h
            | ok vals =>
              rw [h2, ok_bind] at h
              cases h
              rfl

/-- If makeimage goes on after adding the functions, the model has as many parameters as there are numbers in the file, and its parameters are these numbers, all of them and in their order. -/
theorem C126_numbers (cat : Catalogue) (c : Config α) (b : Built) (v : List α) (h : makeStart cat c = .ok (some (b, v))) :
    v = c.vals ∧ b.total = c.vals.length := by
  unfold makeStart at h
  cases ha : addFunctions cat cat.accepts 0 [] c.names c.labels c.starts c.opts [] with
  | error e => rw [ha] at h; cases h
  | ok r =>
    rw [ha, ok_bind] at h
    cases r with
    | none => cases h
    | some b' =>
      simp only at h
      split at h
      · cases h
      · rename_i hn
        have hn := Classical.not_not.1 hn
        rw [hn, loopMap_list c.vals _ id (fun i hi => rd_ok hi), List.map_id, ok_bind] at h
        cases h
        exact ⟨rfl, hn⟩

theorem paramVector_plan (d : Str → FnDesc α) (plan : List (SetWritten α)) : paramVector (setVals d plan) = (lines plan).map Entry.value := by
  unfold paramVector setVals lines
  rw [List.flatMap_map, List.map_flatMap]
  congr 1
  funext s
  simp [List.flatMap_map, List.map_flatMap]

/-- A result with no more digits than are printed: the numbers in the file are those of the result, the centres in coordinates of the whole image. -/
structure Spec.DigitsSuffice (nl : Strtod XR) (pr : NumFmt XR) (dx dy : Nat) (B : List (SetWritten XR)) : Prop where
  x0 : ∀ s ∈ B, numberIn nl (pr.f4 (s.x0.value + fin dx)) = s.x0.value + fin dx
  y0 : ∀ s ∈ B, numberIn nl (pr.f4 (s.y0.value + fin dy)) = s.y0.value + fin dy
  entries : ∀ f ∈ functions B, ∀ e ∈ f.entries, numberIn nl (pr.g7 e.value) = e.value

theorem lit_nat (n : Nat) : (lit (((n : Int)) : ℚ) : XR) = fin n := by
  rw [XR.lit_def]; simp

theorem add_back (v : XR) (d : Nat) : v + fin d - fin d = v := by
  cases v <;> first | (simp; done) | rfl

/-- Seen from the section, the values in the file are those of the result. -/
theorem seen_reread (d : Str → FnDesc XR) (nl : Strtod XR) (pr : NumFmt XR) (dx dy : Nat) (B : List (SetWritten XR)) (h : DigitsSuffice nl pr dx dy B) :
    (setVals d (B.map (reread nl pr dx dy))).map (SetVals.seenFrom dx dy) = setVals d B := by
  unfold setVals
  rw [List.map_map, List.map_map]
  refine List.map_congr_left fun s hs => ?_
  simp only [Function.comp, reread, SetVals.seenFrom, lit_nat, h.x0 s hs, h.y0 s hs, add_back, List.map_map]
  congr 1
  refine List.map_congr_left fun f hf => ?_
  simp only [Function.comp, List.map_map]
  congr 1
  exact List.map_congr_left fun e he => h.entries f (List.mem_flatMap.2 ⟨s, hs, hf⟩) e he

theorem sizes_flags (d : Str → FnDesc α) (plan : List (SetWritten α)) : (flagged (sizesOf (setVals d plan))).map Prod.snd = planFlags plan := by
  unfold planFlags
  have : sizesOf (setVals d plan) = (plan.map SetWritten.fns).map (List.map fun f => (d f.name).nParams) := by
    simp [sizesOf, setVals, Function.comp_def]
  rw [this, flagged_snd]

/-- **C126.** A fit of the section that begins at column `dx` and row `dy` (0 and 0: the whole image), with the result `B`: the file of the result can be written; makeimage sets up the
model of the fit from it; if it makes an image of the whole, the model image of the fit can be made too and is the section of that image. The images have the same PSF. Missing:
digits that are not printed, lines of 1024 characters or more, and what is missing in C120. -/
theorem C126_partial (cat : Catalogue) (c : Config XR) (plan : List (SetWritten XR)) (dx dy : Nat) (hs : Says c plan) (hf : Filled plan)
    (hu : ∀ f ∈ functions plan, ∃ ps, Usable cat f ps ∧ ps.length = f.entries.length)
    (units : Str → Option (List Str)) (hw : ∀ f ∈ functions plan, FnWritable cat units f)
    (nl : Strtod XR) (pr : NumFmt XR) (hp : pr.OK nl) (header about : List Str) (hh : ∀ l ∈ header ++ about, Ignorable l ∧ '\n' ∉ l)
    (B : List (SetWritten XR)) (hB : shape B = shape plan) (errs : Option (List XR)) (he : ∀ es, errs = some es → es.length = (lines B).length)
    (hd : DigitsSuffice nl pr dx dy B) (desc : Str → FnDesc XR) (hn : ∀ f ∈ functions B, f.entries.length = (desc f.name).nParams) :
    ∃ st : FitStart XR, startFit cat c dx dy = .ok (some st) ∧
      ((∀ ls, printFns pr [] st.built.labels ((lines B).map Entry.value) errs (fin dx) (fin dy) (fnInfos units st.built) 0 = .ok ls → ∀ l ∈ ls, ∀ t ∈ l, t.length < 1024) →
        ∃ (file : Str) (vals : List XR),
          saveParameters pr header about st.built.labels ((lines B).map Entry.value) errs (fin dx) (fin dy) (fnInfos units st.built) = .ok file ∧
          makeFromFile nl cat file = .ok (some (st.built, vals)) ∧
          ∀ (m M M' : Img XR) (cols rows width height : Nat), SectionModel m M dx dy cols rows width height → M.starts = st.built.flags →
            M.fns.map FnObj.desc = st.built.fns.map (fun f => desc f.name) →
            (∀ s ∈ setVals desc (B.map (reread nl pr dx dy)), Movable M.conv.isSome s) → createModelImage M vals = .ok M' →
            ∃ m' imgS imgW, createModelImage m ((lines B).map Entry.value) = .ok m' ∧ cutOut m' cols rows = .ok imgS ∧ cutOut M' width height = .ok imgW ∧
              IsSection dx dy cols rows width imgS imgW) := by
  obtain ⟨st, h1, -, h2⟩ := C124_partial cat c plan dx dy hs hf hu units hw nl pr hp false header about hh B hB errs he
  rw [lit_nat, lit_nat] at h2
  refine ⟨st, h1, fun hlen => ?_⟩
  obtain ⟨file, c', st', f1, f2, -, f4, f5, f6, -⟩ := h2 hlen
  refine ⟨file, c'.vals, f1, ?_, ?_⟩
  · unfold makeFromFile
    rw [f2, ok_bind]
    exact f6 ▸ makeStart_of cat c' dx dy st' f5
  · intro m M M' cols rows width height hsec hst hfn hmov hok
    have hb : st.built = builtPlan cat B := by
      rw [builtPlan_shape cat hB]
      have hps : ∀ f ∈ functions plan, Usable cat f (parsOf cat f) ∧ (parsOf cat f).length = f.entries.length := by
        intro f h
        obtain ⟨ps, h1, h2⟩ := hu f h
        have : ps = parsOf cat f := by simp [parsOf, h1.known]
        exact this ▸ ⟨h1, h2⟩
      have h := startFit_total cat c plan dx dy hs hf fun f h => (hps f h).1
      rw [if_neg (by simpa using (zip_tagged cat plan fun f h => (hps f h).2).2), h1] at h
      rw [Option.some.inj (Except.ok.inj h)]
      rfl
    have hfB := filled_shape hB.symm hf
    rw [hb] at hst hfn
    have hW : WellFormed (setVals desc (B.map (reread nl pr dx dy))) := by
      refine ⟨by simpa [setVals] using hfB.1, fun s hs => ?_⟩
      simp only [setVals, List.map_map, List.mem_map, Function.comp] at hs
      obtain ⟨t, ht, rfl⟩ := hs
      refine ⟨by simpa [reread] using hfB.2 t ht, fun f hf => ?_⟩
      simp only [reread, List.map_map, List.mem_map, Function.comp] at hf
      obtain ⟨g, hg, rfl⟩ := hf
      simpa using hn g (List.mem_flatMap.2 ⟨t, ht, hg⟩)
    have hM : Matches M.fns (setVals desc (B.map (reread nl pr dx dy))) := by
      unfold Matches
      rw [hfn]
      simp only [builtPlan, functions, setVals, List.map_map, List.flatMap_map, List.map_flatMap, reread, Function.comp_def]
      rfl
    have hS : M.starts = (flagged (sizesOf (setVals desc (B.map (reread nl pr dx dy))))).map Prod.snd := by
      rw [hst, sizes_flags, planFlags_shape, shape_reread, ← planFlags_shape]
      rfl
    rw [f4.vals, ← paramVector_plan desc] at hok
    obtain ⟨m', a, b, k1, k2, k3, k4⟩ := C120_section_partial hsec _ hW hM hS hmov hok
    rw [seen_reread desc nl pr dx dy B hd, paramVector_plan] at k1
    exact ⟨m', a, b, k1, k2, k3, k4⟩

/-- C126, whole image: a fit of the whole image has the same model image as makeimage, pixel by pixel. -/
theorem C126_whole (width height : Nat) (a b : List XR) (ha : b.length = width * height) (h : IsSection 0 0 width height width a b) : a = b := by
  obtain ⟨hl, hv⟩ := h
  refine List.ext_getElem? fun k => ?_
  by_cases hk : k < width * height
  · have hw : 0 < width := by
      rcases Nat.eq_zero_or_pos width with rfl | h
      · omega
      · exact h
    obtain ⟨v, e1, e2⟩ := hv (k / width) (k % width) (by rw [Nat.div_lt_iff_lt_mul hw, Nat.mul_comm]; exact hk) (Nat.mod_lt _ hw)
    rw [Nat.zero_add, Nat.zero_add, Nat.mul_comm, Nat.div_add_mod] at e2
    rw [Nat.mul_comm, Nat.div_add_mod] at e1
    rw [e1, e2]
  · rw [List.getElem?_eq_none (by omega), List.getElem?_eq_none (by omega)]

/-! ## Example -/

/-- A plane: its height at the centre and its slopes along columns and rows. -/
noncomputable def exPlane (_ : Str) : FnDesc XR :=
  ⟨3, false, fun ps x0 y0 x y => ps.headD (fin 0) + (ps.getD 1 (fin 0) * (x - x0) + ps.getD 2 (fin 0) * (y - y0))⟩

/-- The result of a fit of the section that begins at column 1 and row 1 (from 0). -/
noncomputable def exResult : List (SetWritten XR) :=
  [⟨⟨fin 6, .zero⟩, ⟨fin 6, .zero⟩, [⟨"TiltedSkyPlane".toList, [], [], [⟨fin 7, .zero⟩, ⟨fin 7, .zero⟩, ⟨fin 7, .zero⟩]⟩]⟩]

/-- The file with the result as start values. -/
noncomputable def exConfig : Config XR :=
  { options := [], names := ["TiltedSkyPlane".toList], labels := [[]], vals := [fin 6, fin 6, fin 7, fin 7, fin 7], lims := List.replicate 5 .zero, starts := [0], found := false, opts := [[]] }

theorem seven_digits (r : ℝ) (h : r = 7) : numberIn natStrtod (sevens.f4 (fin r)) = fin r ∧ numberIn natStrtod (sevens.g7 (fin r)) = fin r := by
  subst h
  have e : fin ((digitsVal 0 ['7'] : ℕ) : ℝ) = fin 7 := by
    rw [show digitsVal 0 ['7'] = 7 by decide]; norm_num
  exact ⟨e, e⟩

theorem exResult_digits : DigitsSuffice natStrtod sevens 1 1 exResult := by
  refine ⟨?_, ?_, ?_⟩
  · intro s hs
    simp only [exResult, List.mem_singleton] at hs
    subst hs
    simp only [fin_add]
    exact (seven_digits _ (by norm_num)).1
  · intro s hs
    simp only [exResult, List.mem_singleton] at hs
    subst hs
    simp only [fin_add]
    exact (seven_digits _ (by norm_num)).1
  · intro f hf e he
    simp only [functions, exResult, List.flatMap_cons, List.flatMap_nil, List.append_nil, List.mem_singleton] at hf
    subst hf
    simp only [List.mem_cons, List.not_mem_nil, or_false, or_self] at he
    subst he
    exact (seven_digits _ rfl).2

/-- All conditions can be met: the result of a fit of a section is written, read by makeimage with the values of the whole image, and the pixels agree. -/
example : ∃ (st : FitStart XR) (file : Str) (vals : List XR), startFit (standardCatalogue false) exConfig 1 1 = .ok (some st) ∧
    saveParameters sevens [] [] st.built.labels [fin 6, fin 6, fin 7, fin 7, fin 7] none (fin (1 : ℕ)) (fin (1 : ℕ)) (fnInfos standardUnits st.built) = .ok file ∧
    makeFromFile natStrtod (standardCatalogue false) file = .ok (some (st.built, vals)) ∧
    ∀ (m M M' : Img XR) (cols rows width height : Nat), SectionModel m M 1 1 cols rows width height → M.starts = [true] → M.fns.map FnObj.desc = [exPlane []] → M.conv = none →
      createModelImage M vals = .ok M' →
      ∃ m' imgS imgW, createModelImage m [fin 6, fin 6, fin 7, fin 7, fin 7] = .ok m' ∧ cutOut m' cols rows = .ok imgS ∧ cutOut M' width height = .ok imgW ∧
        IsSection 1 1 cols rows width imgS imgW := by
  obtain ⟨o1, o2⟩ := C124_offered (α := XR) false standardClasses[19] (List.getElem_mem (by decide))
    ⟨"TiltedSkyPlane".toList, [], [], [⟨fin 7, .zero⟩, ⟨fin 7, .zero⟩, ⟨fin 7, .zero⟩]⟩ rfl rfl (by unfold LabelOK Has; decide +kernel) (.inl rfl) (.inr (by decide +kernel))
  have hfn : ∀ f ∈ functions exResult, f = ⟨"TiltedSkyPlane".toList, [], [], [⟨fin 7, .zero⟩, ⟨fin 7, .zero⟩, ⟨fin 7, .zero⟩]⟩ := by
    intro f hf
    simpa only [functions, exResult, List.flatMap_cons, List.flatMap_nil, List.append_nil, List.mem_singleton] using hf
  obtain ⟨st, h1, h2⟩ := C126_partial (standardCatalogue false) exConfig exResult 1 1 ⟨rfl, rfl, rfl, rfl, rfl, rfl⟩ ⟨by simp [exResult], by simp [exResult]⟩
    (fun f hf => hfn f hf ▸ o1) standardUnits (fun f hf => hfn f hf ▸ o2) natStrtod sevens sevens_ok [] [] (by simp) exResult rfl none (fun _ h => by cases h) exResult_digits exPlane
    (fun f hf => by rw [hfn f hf]; rfl)
  have hk : (match startFit (standardCatalogue false) exConfig 1 1 with
    | .ok (some st) => decide (st.built.flags = [true] ∧ st.built.fns.map FnBuilt.name = ["TiltedSkyPlane".toList]) &&
      (match printFns sevens [] st.built.labels ((lines exResult).map Entry.value) none (fin (1 : ℕ)) (fin (1 : ℕ)) (fnInfos standardUnits st.built) 0 with
        | .ok ls => decide (∀ l ∈ ls, ∀ t ∈ l, t.length < 1024)
        | _ => true)
    | _ => false) = true := by decide +kernel
  have h1' : startFit (standardCatalogue false) exConfig 1 1 = .ok (some st) := h1
  rw [h1'] at hk
  simp only [Bool.and_eq_true, decide_eq_true_eq] at hk
  obtain ⟨⟨k1, k2⟩, k3⟩ := hk
  obtain ⟨file, vals, f1, f2, f3⟩ := h2 fun ls h => by
    rw [h] at k3
    exact of_decide_eq_true k3
  refine ⟨st, file, vals, h1', f1, f2, fun m M M' cols rows width height g1 g2 g3 g4 g5 => ?_⟩
  refine f3 m M M' cols rows width height g1 (g2.trans k1.symm) ?_ ?_ g5
  · rw [g3]
    have : st.built.fns.map (fun f => exPlane f.name) = (st.built.fns.map FnBuilt.name).map exPlane := by rw [List.map_map]; rfl
    rw [this, k2]
    rfl
  · intro s hs
    have e := (seven_digits _ (show (6 : ℝ) + ((1 : ℕ) : ℝ) = 7 by norm_num)).1
    simp only [exResult, setVals, reread, List.map_cons, List.map_nil, List.mem_singleton, lit_nat, fin_add] at hs
    subst hs
    refine ⟨⟨_, e⟩, ⟨_, e⟩, ?_, ?_⟩
    · intro f hf _ a b x0 y0 x y
      simp only [List.mem_singleton] at hf
      subst hf
      simp only [exPlane, fin_sub, show x - a - (x0 - a) = x - x0 by ring, show y - b - (y0 - b) = y - y0 by ring]
    · rw [g4]
      intro h
      cases h

/-- With a number too many or too few the file is refused. -/
example : (match makeStart (standardCatalogue false) exConfig, makeStart (standardCatalogue false) { exConfig with vals := exConfig.vals ++ [fin 1] },
    makeStart (standardCatalogue false) { exConfig with vals := exConfig.vals.drop 1 } with
    | .ok (some (b, v)), .ok none, .ok none => v.length == 5 && b.total == 5
    | _, _, _ => false) = true := by decide +kernel

end Imfit
