import Verif.Model.FluxTable
import Verif.Props.C70
import Verif.Lemmas.Funcs1d
import Mathlib.Analysis.SpecialFunctions.Log.Base

/-!
# C112 — The table of fluxes
-/

namespace Imfit

open Spec XR

namespace Spec

/-- The magnitude of a flux. -/
noncomputable def magnitudeOf (zp f : ℝ) : ℝ := zp - 2.5 * Real.logb 10 f

/-- What a line says about a component with flux `f` of a model with flux `total`, for the zero point `zp` (none: not given). -/
structure RowSays (zp : Option ℝ) (total f : ℝ) (name label : Str) (r : FluxRow XR) : Prop where
  name : r.name = name
  flux : r.flux = fin f
  bright : ∀ z, zp = some z → 0 < f → r.magnitude = some (fin (magnitudeOf z f))
  dark : zp = none ∨ f ≤ 0 → r.magnitude = none
  fraction : r.fraction = fin (f / total)
  label : r.label = if label = [] then none else some label

end Spec

/-- The zero point that stands for one that is not given. -/
noncomputable def zeroPointOf (zp : Option ℝ) : XR := match zp with
  | some z => fin z
  | none => fin (-10000)

theorem fluxMagnitude_eq (zp : Option ℝ) (h : zp ≠ some (-10000)) (f : ℝ) :
    (∀ z, zp = some z → 0 < f → fluxMagnitude (zeroPointOf zp) (fin f) = some (fin (magnitudeOf z f))) ∧ (zp = none ∨ f ≤ 0 → fluxMagnitude (zeroPointOf zp) (fin f) = none) := by
  constructor
  · rintro z rfl hf
    have hz : z ≠ -10000 := fun e => h (by rw [e])
    have h10 : Real.log 10 ≠ 0 := (Real.log_pos (by norm_num)).ne'
    have e10 : ((10 : ℚ) : ℝ) = 10 := by norm_num
    simp only [fluxMagnitude, zeroPointOf, lit_def, feq_real, flt_fin, zero_def, hf]
    rw [decide_eq_false (by push_cast; exact hz)]
    simp only [Bool.not_false, decide_true, Bool.and_self, if_true, flog10, lit_def]
    rw [flog_fin_of_pos hf, e10, flog_fin_of_pos (by norm_num : (0 : ℝ) < 10), fin_div_of_ne h10, fin_mul, fin_sub, magnitudeOf, Real.logb]
    norm_num
  · intro hd
    simp only [fluxMagnitude, lit_def]
    rcases hd with rfl | hf
    · simp only [zeroPointOf, feq_real]
      rw [decide_eq_true (by push_cast; rfl)]
      rfl
    · rw [zero_def, flt_fin, decide_eq_false (not_lt.2 hf), Bool.and_false]
      rfl

/-- The lines of the table: one for each component, in order, then the total. -/
theorem fluxTable_eq (zp : Option ℝ) (hz : zp ≠ some (-10000)) (fl : List ℝ) (hs : fl.sum ≠ 0) (names labels : List Str) (hn : names.length = fl.length) (hl : labels.length = fl.length) :
    ∃ rows tot, fluxTable (zeroPointOf zp) names labels (fin fl.sum, fl.map fin) = .ok (rows ++ [tot]) ∧ rows.length = fl.length ∧
      (∀ (i : ℕ) (h : i < fl.length) (hr : i < rows.length), RowSays zp fl.sum fl[i] (names[i]'(by omega)) (labels[i]'(by omega)) rows[i]) ∧
      RowSays zp fl.sum fl.sum "Total".toList [] tot := by
  have hrow : ∀ i, i < fl.length → fluxRow (zeroPointOf zp) (fin fl.sum) (fl.map fin) names labels i =
      .ok ⟨names.getD i [], fin (fl.getD i 0), fluxMagnitude (zeroPointOf zp) (fin (fl.getD i 0)), fin (fl.getD i 0 / fl.sum), if (labels.getD i []).isEmpty then none else some (labels.getD i [])⟩ := by
    intro i hi
    unfold fluxRow
    rw [rd_ok (by simpa using hi), ok_bind, rd_ok (by omega : i < names.length), ok_bind, rd_ok (by omega : i < labels.length), ok_bind]
    simp [List.getD_eq_getElem?_getD, hi, hn, hl, hs]
  refine ⟨(List.range fl.length).map fun i => ⟨names.getD i [], fin (fl.getD i 0), fluxMagnitude (zeroPointOf zp) (fin (fl.getD i 0)), fin (fl.getD i 0 / fl.sum),
      if (labels.getD i []).isEmpty then none else some (labels.getD i [])⟩, ⟨"Total".toList, fin fl.sum, fluxMagnitude (zeroPointOf zp) (fin fl.sum), 1, none⟩, ?_, ?_, ?_, ?_⟩
  · unfold fluxTable
    simp only [List.length_map]
    rw [loopMap_ok _ _ _ hrow, ok_bind]
  · simp
  · intro i h hr
    obtain ⟨m1, m2⟩ := fluxMagnitude_eq zp hz fl[i]
    simp only [List.getElem_map, List.getElem_range]
    refine ⟨?_, ?_, ?_, ?_, ?_, ?_⟩ <;> simp [List.getD_eq_getElem?_getD, h, hn, hl]
    · exact m1
    · exact fun hd => m2 hd
  · obtain ⟨m1, m2⟩ := fluxMagnitude_eq zp hz fl.sum
    exact ⟨rfl, rfl, m1, m2, by rw [div_self hs]; rfl, rfl⟩

/-- The whole: components and parameters as in C70, any number of threads. What is printed is what is saved, one line for each component in their order and one for the sum; with the flux of
C70, its magnitude if there is a zero point and the flux is positive, and its share of the total. Missing: models without any flux (`C112_none_false`), a zero point of −10000
(`C112_zeroPoint_false`), files that cannot be opened (`C112_file_false`). -/
theorem C112_table_partial (o : MakeOpts XR) (writable : Str → Bool) (hw : ∀ f, o.saveFluxes = some f → writable f = true) (size : ℕ) (hsz : 1 ≤ size) (ho : o.estimationSize = size)
    (zp : Option ℝ) (hz : zp ≠ some (-10000)) (hozp : o.zeroPoint = zeroPointOf zp)
    (sets : List FluxSet) (hne : ∀ s ∈ sets, s.fns ≠ []) (hd : ∀ s ∈ sets, ∀ f ∈ s.fns, FluxDescribes f.1 f.2.1 f.2.2)
    (parts : List (List ℕ)) (hp : parts.flatten.Perm (List.range size)) (names labels : List Str) (hn : names.length = (sets.flatMap fun s => s.fns).length)
    (hl : labels.length = (sets.flatMap fun s => s.fns).length) (fl : List ℝ) (hfl : fl = (sets.flatMap fun s => s.fns).map fun f => f.2.2.fluxIn size size (size / 2) (size / 2)) (hs : fl.sum ≠ 0) :
    ∃ rows tot, determineFluxes o writable (sets.flatMap fun s => s.fns.map (·.1)) ((flagged (sets.map (·.fns))).map Prod.snd) (fluxParams sets) parts names labels =
        .ok (if o.printFluxes then some (rows ++ [tot]) else none, o.saveFluxes.map fun f => (f, rows ++ [tot])) ∧
      rows.length = fl.length ∧ (∀ (i : ℕ) (h : i < fl.length) (hr : i < rows.length) (h1 : i < names.length) (h2 : i < labels.length), RowSays zp fl.sum fl[i] names[i] labels[i] rows[i]) ∧
      RowSays zp fl.sum fl.sum "Total".toList [] tot := by
  have h := C70_fluxes_partial sets hne hd size size hsz hsz parts hp
  have hfl' : ((sets.flatMap fun s => s.fns.map (·.2.2)).map fun k => k.fluxIn size size (size / 2) (size / 2)) = fl := by
    rw [hfl, List.map_flatMap, List.map_flatMap]
    simp only [List.map_map]
    rfl
  simp only [hfl'] at h
  have hlen : fl.length = (sets.flatMap fun s => s.fns).length := by rw [hfl, List.length_map]
  obtain ⟨rows, tot, e1, e2, e3, e4⟩ := fluxTable_eq zp hz fl hs names labels (by omega) (by omega)
  refine ⟨rows, tot, ?_, e2, fun i h hr _ _ => e3 i h hr, e4⟩
  unfold determineFluxes
  rw [ho, Int.toNat_natCast, h, ok_bind, hozp, e1, ok_bind]
  cases hf : o.saveFluxes with
  | none => rfl
  | some f =>
    simp only [hw f hf, if_true]
    rfl

/-- The magnitudes agree with the shares: a component is fainter than the whole by −2.5 log of its share. -/
theorem C112_magnitudes (zp total f : ℝ) (ht : 0 < total) (hf : 0 < f) : magnitudeOf zp f - magnitudeOf zp total = -2.5 * Real.logb 10 (f / total) := by
  unfold magnitudeOf
  rw [Real.logb_div hf.ne' ht.ne']
  ring

/-! ## Where the code differs -/

/-- A model whose components have no flux (only backgrounds): the shares are no numbers, and the last line says that the whole is 1. -/
theorem C112_none_false (zp : XR) (name label : Str) :
    (fluxTable zp [name] [label] (fin 0, [fin 0])).map (List.map FluxRow.fraction) = .ok [.nan, fin 1] := by
  have : (fin 0 / fin 0 : XR) = .nan := by rw [fin_div_zero]; simp [infSign]
  simp only [fluxTable, fluxRow, loopMap, List.length_cons, List.length_nil, rd, ok_bind, Except.map]
  simp [this, one_def, pure_eq_ok, ok_bind]

/-- A zero point of −10000 is taken for none. -/
theorem C112_zeroPoint_false (f : ℝ) : fluxMagnitude (fin (-10000)) (fin f) = none := (fluxMagnitude_eq none (by simp) f).2 (.inl rfl)

/-- If the file cannot be opened, the lines are written to a null pointer. -/
theorem C112_file_false {α : Type} [FP α] (o : MakeOpts α) (file : Str) (ho : o.saveFluxes = some file) (writable : Str → Bool) (hw : writable file = false) (fns : List (FluxFn α))
    (starts : List Bool) (params : List α) (parts : List (List ℕ)) (names labels : List Str) (r : α × List α) (rows : List (FluxRow α))
    (h : findTotalFluxes fns starts params o.estimationSize.toNat o.estimationSize.toNat parts = .ok r) (h2 : fluxTable o.zeroPoint names labels r = .ok rows) :
    determineFluxes o writable fns starts params parts names labels = .error .null := by
  unfold determineFluxes
  rw [h, ok_bind, h2, ok_bind, ho]
  simp only [hw]
  rfl

example : ∃ rows tot, fluxTable (zeroPointOf (some 25)) ["Sersic".toList, "FlatSky".toList] ["bulge".toList, []] (fin [100, (0 : ℝ)].sum, [100, (0 : ℝ)].map fin) = .ok (rows ++ [tot]) ∧
    rows.length = 2 ∧ (∀ h : 0 < rows.length, rows[0].magnitude = some (fin 20)) := by
  obtain ⟨rows, tot, h1, h2, h3, h4⟩ := fluxTable_eq (some 25) (by norm_num) [100, 0] (by norm_num) ["Sersic".toList, "FlatSky".toList] ["bulge".toList, []] rfl rfl
  refine ⟨rows, tot, h1, h2, fun h => ?_⟩
  rw [(h3 0 (by decide) h).bright 25 rfl (by norm_num)]
  have : Real.logb 10 100 = 2 := by
    rw [show (100 : ℝ) = 10 ^ (2 : ℝ) by norm_num, Real.logb_rpow (by norm_num) (by norm_num)]
  simp only [magnitudeOf, List.getElem_cons_zero, this]
  norm_num

end Imfit
