import Verif.Lemmas.DriverStart
import Verif.Props.C31

/-!
# C79 — From the configuration file to the solver

When every function has as many values below it as its class has parameters, the solver starts from the values of the file, with centres and their
limits moved into the image section, the right number of free parameters, and each function gets its own values. Only the total number of values is
compared with the total number of parameters, so that this fails for files with a value too many in one place and one too few in another
(`C79_misplaced_false`); and for some accepted files arrays are overrun (`C79_overrun_false`).
-/

namespace Imfit

open Spec FP

variable {α : Type}

/-- C79, for files that give every function its own number of values. The solver gets the values and limits of the file, with the centres moved into the
image section; the offsets are recorded; all parameters that are not fixed are free; and when the model is set up with these values every function gets
the values written below it, with the centre of its set, its label and its optional parameters. -/
theorem C79_partial [FP α] (cat : Catalogue) (c : Config α) (plan : List (SetWritten α)) (ox oy : Int) (hs : Says c plan) (hf : Filled plan)
    (hu : ∀ f ∈ functions plan, ∃ ps, Usable cat f ps ∧ ps.length = f.entries.length) :
    ∃ st : FitStart α, startFit cat c ox oy = .ok (some st) ∧
      st.values = (lines (plan.map (SetWritten.moved ox oy))).map Entry.value ∧
      st.recs.map ParRec.info = (lines (plan.map (SetWritten.moved ox oy))).map Entry.lim ∧
      st.recs.map ParRec.offset = (plan.flatMap fun s => ox :: oy :: s.fns.flatMap fun f => f.entries.map fun _ => 0) ∧
      st.nFree = ((lines plan).filter fun e => !e.lim.fixed).length ∧
      st.built.fns.map (fun f => (f.name, f.label, f.extra)) = (functions plan).map (fun f => (f.name, f.label, f.extra)) ∧
      ∀ (d : Str → FnDesc α), (∀ f ∈ functions plan, (d f.name).nParams = f.entries.length) →
        ∀ objs : List (FnObj α), objs.map FnObj.desc = (functions plan).map (fun f => d f.name) →
        ∀ u v, ∃ objs' x y, setupFns st.values (objs.zip st.built.flags) ⟨0, u, v⟩ = .ok (objs', ⟨st.values.length, x, y⟩) ∧
          objs'.map FnObj.view = (setVals d (plan.map (SetWritten.moved ox oy))).flatMap (fun s => s.fns.map fun f => (f.1, s.x0, s.y0, f.2)) := by
  have hps : ∀ f ∈ functions plan, ∀ ps, Usable cat f ps → ps = parsOf cat f := fun f _ ps h => by simp [parsOf, h.known]
  have hu' : ∀ f ∈ functions plan, Usable cat f (parsOf cat f) := by
    intro f h
    obtain ⟨ps, h1, -⟩ := hu f h
    rw [← hps f h ps h1]; exact h1
  have hl : ∀ f ∈ functions plan, (parsOf cat f).length = f.entries.length := by
    intro f h
    obtain ⟨ps, h1, h2⟩ := hu f h
    rw [← hps f h ps h1]; exact h2
  obtain ⟨hz, hlen⟩ := zip_tagged cat plan hl
  have hst := startFit_total cat c plan ox oy hs hf hu'
  rw [if_neg (by simpa using hlen), hz] at hst
  have hmoved : (tagged cat plan).map (fun p => placed ox oy p.1 p.2) = lines (plan.map (SetWritten.moved ox oy)) := by
    rw [tagged_map cat plan hl (fun p => placed ox oy p.1 p.2) FnWritten.entries, lines_moved]
    · rfl
    · intro f h
      exact zip_placed ox oy _ _ (hl f h) (hu' f h).noX (hu' f h).noY
  have hvals : (tagged cat plan).map (fun p => (placed ox oy p.1 p.2).value) = (lines (plan.map (SetWritten.moved ox oy))).map Entry.value := by
    rw [← hmoved, List.map_map]; rfl
  refine ⟨_, hst, hvals, ?_, ?_, ?_, ?_, ?_⟩
  · rw [← hmoved, List.map_map, List.map_map]; rfl
  · rw [List.map_map]
    rw [show (ParRec.offset ∘ fun p : Str × Entry α => (⟨(placed ox oy p.1 p.2).lim, offsetOf ox oy p.1⟩ : ParRec α)) = fun p => offsetOf ox oy p.1 from rfl,
      tagged_map cat plan hl (fun p => offsetOf ox oy p.1) (fun f => f.entries.map fun _ => 0)]
    · rfl
    · intro f h
      exact zip_offset ox oy _ _ (hl f h) (hu' f h).noX (hu' f h).noY
  · have : (tagged cat plan).map Prod.snd = lines plan := by
      rw [← hz, List.map_snd_zip (le_of_eq hlen.symm)]
    simp only
    rw [this, List.countP_eq_length_filter]
    rfl
  · simp [builtOf]
  · intro d hd objs ho u v
    simp only
    have hw : WellFormed (setVals d (plan.map (SetWritten.moved ox oy))) := by
      refine ⟨by simpa [setVals] using hf.1, ?_⟩
      intro s hs'
      simp only [setVals, List.map_map, List.mem_map, Function.comp] at hs'
      obtain ⟨t, ht, rfl⟩ := hs'
      refine ⟨by simpa [SetWritten.moved] using hf.2 t ht, ?_⟩
      intro p hp
      simp only [SetWritten.moved, List.mem_map] at hp
      obtain ⟨f, hff, rfl⟩ := hp
      simp only [List.length_map]
      exact (hd f (by simp only [functions, List.mem_flatMap]; exact ⟨t, ht, hff⟩)).symm
    have hm : Matches objs (setVals d (plan.map (SetWritten.moved ox oy))) := by
      unfold Matches
      rw [ho]
      simp [functions, setVals, List.map_flatMap, List.flatMap_map, SetWritten.moved, Function.comp_def]
    obtain ⟨flags, tot, h1, h2, h3⟩ := C13_layout _ hw objs hm
    have hpv : paramVector (setVals d (plan.map (SetWritten.moved ox oy))) = (lines (plan.map (SetWritten.moved ox oy))).map Entry.value := by
      simp [paramVector, setVals, lines, List.map_flatMap, List.flatMap_map]
    obtain ⟨objs', x, y, g1, g2⟩ := h3 u v
    refine ⟨objs', x, y, ?_, g2⟩
    have hfl : flags = planFlags plan := by
      have e1 : (objs.map fun o => o.desc.nParams) = (plan.map fun s => s.fns.map fun f => f.entries.length).flatten := by
        have := congrArg (List.map FnDesc.nParams) ho
        rw [List.map_map, List.map_map] at this
        rw [show (objs.map fun o => o.desc.nParams) = objs.map (FnDesc.nParams ∘ FnObj.desc) from rfl, this]
        have e : (functions plan).map (FnDesc.nParams ∘ fun f => d f.name) = (functions plan).map fun f => f.entries.length :=
          List.map_congr_left fun f hf => hd f hf
        rw [e]
        simp [functions, List.flatMap_def, List.map_flatten, Function.comp_def]
      have e2 : startIndices 0 ((setVals d (plan.map (SetWritten.moved ox oy))).map (·.fns)) = startIndices 0 (plan.map fun s => s.fns.map fun f => f.entries.length) := by
        rw [show (plan.map fun s => s.fns.map fun f => f.entries.length) = (plan.map SetWritten.fns).map (List.map fun f => f.entries.length) by
          rw [List.map_map]; rfl, startIndices_map,
          show (setVals d (plan.map (SetWritten.moved ox oy))).map (·.fns) = (plan.map SetWritten.fns).map (List.map fun f => (d f.name, f.entries.map Entry.value)) by
            simp [setVals, SetWritten.moved, Function.comp_def], startIndices_map]
      rw [e1, e2, defineFunctionSets_eq _ (by
        intro s hs
        simp only [List.mem_map] at hs
        obtain ⟨t, ht, rfl⟩ := hs
        simpa using hf.2 t ht) (by simpa using hf.1)] at h1
      have := (Prod.mk.inj (Except.ok.inj h1)).1
      rw [← this, show (plan.map fun s => s.fns.map fun f => f.entries.length) = (plan.map SetWritten.fns).map (List.map fun f => f.entries.length) by
          rw [List.map_map]; rfl, flagged_snd]
      rfl
    rw [hvals, ← hfl, ← hpv, g1, h2]

/-- A file with the wrong total number of values is refused. -/
theorem C79_refused [FP α] (cat : Catalogue) (c : Config α) (plan : List (SetWritten α)) (ox oy : Int) (hs : Says c plan) (hf : Filled plan)
    (np : FnWritten α → Nat) (hu : ∀ f ∈ functions plan, ∃ ps, Usable cat f ps ∧ ps.length = np f)
    (hne : ((functions plan).map np).sum ≠ ((functions plan).map fun f => f.entries.length).sum) : startFit cat c ox oy = .ok none := by
  have hps : ∀ f ∈ functions plan, ∀ ps, Usable cat f ps → ps = parsOf cat f := fun f _ ps h => by simp [parsOf, h.known]
  rw [startFit_total cat c plan ox oy hs hf (fun f h => by
    obtain ⟨ps, h1, -⟩ := hu f h
    rw [← hps f h ps h1]; exact h1), if_pos]
  rw [planNames_length]
  have h1 : ((functions plan).map fun f => (parsOf cat f).length) = (functions plan).map np := List.map_congr_left fun f h => by
    obtain ⟨ps, h1, h2⟩ := hu f h
    rw [← hps f h ps h1]; exact h2
  have h2 : (lines plan).length = ((functions plan).map fun f => f.entries.length).sum + 2 * plan.length := by
    clear hs hf hu hne hps h1
    induction plan with
    | nil => rfl
    | cons s plan ih =>
      simp only [lines, functions, List.flatMap_cons, List.map_append, List.sum_append, List.length_append, List.length_cons] at ih ⊢
      rw [ih]
      simp only [List.length_flatMap]
      omega
  rw [h1, h2]
  omega

/-- The claim fails when one function has a value too many and the next one too few: the file is accepted, and the surplus value becomes the first
parameter of the second function, whose own values all move by one. -/
theorem C79_misplaced_false [FP α] (cat : Catalogue) (c : Config α) (x y : Entry α) (f g : FnWritten α) (es : List (Entry α)) (e : Entry α) (ox oy : Int)
    (hs : Says c [⟨x, y, [f, g]⟩]) (hfe : f.entries = es ++ [e]) (pf pg : List Str) (hf : Usable cat f pf) (hg : Usable cat g pg)
    (hpf : pf.length = es.length) (hpg : pg.length = g.entries.length + 1) (d : Str → FnDesc α) (hdf : (d f.name).nParams = es.length)
    (hdg : (d g.name).nParams = g.entries.length + 1) (o₁ o₂ : FnObj α) (ho₁ : o₁.desc = d f.name) (ho₂ : o₂.desc = d g.name) (u v : α) :
    ∃ (st : FitStart α) (objs' : List (FnObj α)) (x' y' : α), startFit cat c ox oy = .ok (some st) ∧
      setupFns st.values ([o₁, o₂].zip st.built.flags) ⟨0, u, v⟩ = .ok (objs', ⟨st.values.length, x', y'⟩) ∧
      objs'.map FnObj.view = [(d f.name, (x.moved ox).value, (y.moved oy).value, es.map Entry.value),
        (d g.name, (x.moved ox).value, (y.moved oy).value, e.value :: g.entries.map Entry.value)] := by
  have hs' : Says c [⟨x, y, [{ f with entries := es }, { g with entries := e :: g.entries }]⟩] := by
    obtain ⟨h1, h2, h3, h4, h5, h6⟩ := hs
    simp only [functions, lines, List.flatMap_cons, List.flatMap_nil, List.append_nil, List.map_cons, List.map_nil, hfe, startIndices] at h1 h2 h3 h4 h5 h6
    refine ⟨?_, ?_, ?_, ?_, ?_, ?_⟩ <;>
      simp only [functions, lines, List.flatMap_cons, List.flatMap_nil, List.append_nil, List.map_cons, List.map_nil, startIndices]
    · exact h1
    · exact h2
    · exact h3
    · rw [h4]; simp
    · rw [h5]; simp
    · exact h6
  obtain ⟨st, h1, -, -, -, -, -, h2⟩ := C79_partial cat c _ ox oy hs' ⟨by simp, by simp⟩ (by
    intro k hk
    simp only [functions, List.flatMap_cons, List.flatMap_nil, List.append_nil, List.mem_cons, List.not_mem_nil, or_false] at hk
    rcases hk with rfl | rfl
    · exact ⟨pf, ⟨hf.known, hf.extra, hf.accepts, hf.noX, hf.noY⟩, hpf⟩
    · exact ⟨pg, ⟨hg.known, hg.extra, hg.accepts, hg.noX, hg.noY⟩, by simpa using hpg⟩)
  obtain ⟨objs', x', y', h3, h4⟩ := h2 d (by
    intro k hk
    simp only [functions, List.flatMap_cons, List.flatMap_nil, List.append_nil, List.mem_cons, List.not_mem_nil, or_false] at hk
    rcases hk with rfl | rfl
    · exact hdf
    · simpa using hdg) [o₁, o₂] (by simp [functions, ho₁, ho₂]) u v
  exact ⟨st, objs', x', y', h1, h3, by rw [h4]; simp [setVals, SetWritten.moved]⟩

/-- A catalogue with a class `F` of one parameter and a class `G` of two. -/
def twoClasses : Catalogue := ⟨fun n => if n = ['F'] then some [['A']] else if n = ['G'] then some [['B'], ['C']] else none, fun _ _ => 1, fun _ => true⟩

/-- Reading a file and starting the fit. -/
noncomputable def fitText (file : Str) : Res (Option (FitStart XR)) := do
  match ← readConfig natStrtod true true [] file with
  | none => .ok none
  | some c => startFit twoClasses c 10 20

/-- Accepted files that lead outside of an array: two `X0`/`Y0` pairs before the first function (the names of the parameters are fewer than the
parameters), and a pair after the last function (its start index lies behind the array of start flags). -/
theorem C79_overrun_false :
    (do let r ← readConfig natStrtod true true [] "X0 1\nY0 1\nX0 1\nY0 1\nFUNCTION F\nA 1".toList; .ok r.isSome) = (.ok true : Res Bool) ∧
    (do let r ← fitText "X0 1\nY0 1\nX0 1\nY0 1\nFUNCTION F\nA 1".toList; .ok r.isSome) = (.error .oob : Res Bool) ∧
    (do let r ← readConfig natStrtod true true [] "X0 1\nY0 1\nFUNCTION F\nA 1\nX0 1\nY0 1".toList; .ok r.isSome) = (.ok true : Res Bool) ∧
    (do let r ← fitText "X0 1\nY0 1\nFUNCTION F\nA 1\nX0 1\nY0 1".toList; .ok r.isSome) = (.error .oob : Res Bool) := by
  refine ⟨?_, ?_, ?_, ?_⟩ <;> decide +kernel

/-- A file as intended, with the number of free parameters and the offsets; one with a value missing; one with a value in the wrong place. -/
example : (do let r ← fitText "X0 1\nY0 1\nFUNCTION G\nB 1 fixed\nC 2\nX0 3\nY0 4\nFUNCTION F\nA 1".toList
              .ok (r.map fun s => (s.nFree, s.recs.map ParRec.offset))) = (.ok (some (6, [10, 20, 0, 0, 10, 20, 0])) : Res _) := by decide +kernel

example : (do let r ← fitText "X0 1\nY0 1\nFUNCTION G\nB 1\nX0 3\nY0 4\nFUNCTION F\nA 1".toList; .ok r.isSome) = (.ok false : Res _) := by decide +kernel

example : (do let r ← fitText "X0 1\nY0 1\nFUNCTION F\nA 1\nB 1\nFUNCTION G\nC 1".toList; .ok (r.map fun s => s.built.labels)) =
    (.ok (some [['X', '0'], ['Y', '0'], ['A'], ['B'], ['C']]) : Res _) := by decide +kernel

/-- A plan that meets the hypotheses of `C79_partial`, in an image section that starts at pixel (10, 20). -/
example : startFit (α := XR) twoClasses ⟨[], [['F'], ['G']], [['l'], []], [.fin 101, .fin 102, .fin 3, .fin 4, .fin 5],
      [⟨true, false, false, .fin 0, .fin 0⟩, ⟨false, true, true, .fin 90, .fin 110⟩, ⟨false, false, false, .fin 0, .fin 0⟩,
        ⟨false, true, true, .fin 1, .fin 9⟩, ⟨true, false, false, .fin 0, .fin 0⟩], [0], true, [[], []]⟩ 10 20 =
    .ok (some ⟨⟨[⟨['F'], ['l'], [], [['A']]⟩, ⟨['G'], [], [], [['B'], ['C']]⟩], [true, false], 5, [['X', '0'], ['Y', '0'], ['A'], ['B'], ['C']]⟩,
      [.fin (101 - 10), .fin (102 - 20), .fin 3, .fin 4, .fin 5],
      [⟨⟨true, false, false, .fin (0 - 10), .fin (0 - 10)⟩, 10⟩, ⟨⟨false, true, true, .fin (90 - 20), .fin (110 - 20)⟩, 20⟩,
        ⟨⟨false, false, false, .fin 0, .fin 0⟩, 0⟩, ⟨⟨false, true, true, .fin 1, .fin 9⟩, 0⟩, ⟨⟨true, false, false, .fin 0, .fin 0⟩, 0⟩], 3⟩) := by
  simp [startFit, addFunctions, addLoop, addOne, twoClasses, extraFor, flagFor, rd, defineFunctionSets, wr, setFlags, populateNames, loopMap, startRec,
    startValue, getParameterName, shiftBoth, countFree, kX0, kY0, XR.lit_def, List.set]

end Imfit
