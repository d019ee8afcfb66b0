import Verif.Spec.Layout
import Verif.Lemmas.Fit
import Mathlib.Tactic.Ring

/-!
# C13 — parameter-vector layout
-/

namespace Imfit

open Spec

variable {α : Type}

/-- Functions in order, the first of each set flagged. -/
def flagged {β : Type} : List (List β) → List (β × Bool)
  | [] => []
  | [] :: rest => flagged rest
  | (f :: s) :: rest => ((f, true) :: s.map (·, false)) ++ flagged rest

theorem flagged_fst {β : Type} (sets : List (List β)) : (flagged sets).map Prod.fst = sets.flatten := by
  induction sets with
  | nil => rfl
  | cons s rest ih =>
    cases s with
    | nil => simpa [flagged] using ih
    | cons f s =>
      simp only [flagged, List.map_append, List.map_cons, List.map_map, ih, List.flatten_cons, List.cons_append]
      congr 2
      exact List.map_id _

theorem flagged_map {β γ : Type} (g : β → γ) (sets : List (List β)) :
    flagged (sets.map (List.map g)) = (flagged sets).map fun p => (g p.1, p.2) := by
  induction sets with
  | nil => rfl
  | cons s rest ih =>
    cases s with
    | nil => simpa [flagged] using ih
    | cons f s => simp [flagged, ih]

/-- The flags written by the loop. -/
theorem setFlags_eq {β : Type} (sets : List (List β)) (h : ∀ s ∈ sets, s ≠ []) (P : List Bool) :
    setFlags (startIndices P.length sets) (P ++ List.replicate sets.flatten.length false) =
      .ok (P ++ (flagged sets).map Prod.snd) := by
  induction sets generalizing P with
  | nil => simp [startIndices, setFlags, flagged]
  | cons s rest ih =>
    cases s with
    | nil => exact absurd rfl (h [] (by simp))
    | cons f s =>
      have hw : wr (P ++ List.replicate ((f :: s) :: rest).flatten.length false) P.length true =
          .ok ((P ++ (true :: List.replicate s.length false)) ++ List.replicate rest.flatten.length false) := by
        rw [wr_ok (by simp)]
        congr 1
        simp only [List.flatten_cons, List.length_append, List.length_cons]
        rw [List.set_append_right _ _ le_rfl]
        simp only [Nat.sub_self]
        rw [show s.length + 1 + rest.flatten.length = (s.length + rest.flatten.length) + 1 by omega, List.replicate_succ]
        simp [List.replicate_append_replicate]
      have hl : P.length + (f :: s).length = (P ++ (true :: List.replicate s.length false)).length := by simp
      simp only [startIndices, setFlags, hw, ok_bind]
      rw [hl, ih (fun t ht => h t (by simp [ht]))]
      congr 1
      simp only [flagged, List.map_append, List.map_cons, List.append_assoc]
      congr 2
      rw [List.map_map]
      congr 1
      symm
      exact List.eq_replicate_iff.2 ⟨by simp, by simp⟩

theorem startIndices_length {β : Type} (m : Nat) (sets : List (List β)) : (startIndices m sets).length = sets.length := by
  induction sets generalizing m with
  | nil => rfl
  | cons s rest ih => simp [startIndices, ih]

/-- `DefineFunctionSets` flags exactly the first function of each set, and `nParamsTot` counts two values per set and all
function parameters. -/
theorem defineFunctionSets_eq (sets : List (List Nat)) (h : ∀ s ∈ sets, s ≠ []) (hne : sets ≠ []) (tot0 : Nat) :
    defineFunctionSets sets.flatten (startIndices 0 sets) tot0 =
      .ok ((flagged sets).map Prod.snd, tot0 + (sets.flatten.sum + 2 * sets.length)) := by
  unfold defineFunctionSets
  obtain ⟨s, rest, rfl⟩ := List.exists_cons_of_ne_nil hne
  obtain ⟨f, s, rfl⟩ := List.exists_cons_of_ne_nil (h s (by simp))
  rw [wr_ok (by simp)]
  simp only [ok_bind]
  have hs : setFlags (startIndices 0 ((f :: s) :: rest)) ((List.replicate ((f :: s) :: rest).flatten.length false).set 0 true) =
      setFlags (startIndices 0 ((f :: s) :: rest)) (List.replicate ((f :: s) :: rest).flatten.length false) := by
    simp only [startIndices, setFlags]
    rw [wr_ok (by simp), wr_ok (by simp)]
    simp
  have := setFlags_eq ((f :: s) :: rest) h []
  simp only [List.nil_append, List.length_nil] at this
  rw [hs, this]
  simp [startIndices_length]

/-- Reading a function's own slice. -/
theorem fnSetup_slice (o : FnObj α) (pre ps post : List α) (x0 y0 : α) (h : ps.length = o.desc.nParams) :
    fnSetup o (pre ++ ps ++ post) pre.length x0 y0 = .ok { o with pars := ps, x0 := x0, y0 := y0 } := by
  unfold fnSetup
  have : loopMap o.desc.nParams (fun k => rd (pre ++ ps ++ post) (pre.length + k)) = .ok ps := by
    cases ps with
    | nil => simp only [List.length_nil] at h; rw [← h]; rfl
    | cons d t =>
      rw [loopMap_ok _ _ (fun k => (d :: t).getD k d), ← h, ← eq_range_map_getD]
      intro k hk
      rw [rd_ok (by simp; simp at h; omega)]
      rw [List.getD_eq_getElem?_getD, List.getElem?_eq_getElem (by omega), Option.getD_some]
      congr 1
      rw [List.getElem_append_left (by simp; simp at h; omega), List.getElem_append_right (by omega)]
      congr 1
      omega
  rw [this]
  rfl

/-- What a function knows after setup. -/
def FnObj.view (o : FnObj α) : FnDesc α × α × α × List α := (o.desc, o.x0, o.y0, o.pars)

theorem setupFns_tail (sx sy : α) (fns : List (FnDesc α × List α)) (hl : ∀ f ∈ fns, f.2.length = f.1.nParams)
    (objs : List (FnObj α)) (hd : objs.map FnObj.desc = fns.map Prod.fst) (more : List (FnObj α × Bool))
    (pre post : List α) :
    setupFns (pre ++ fns.flatMap (·.2) ++ post) (objs.map (·, false) ++ more) ⟨pre.length, sx, sy⟩ =
      (setupFns (pre ++ fns.flatMap (·.2) ++ post) more ⟨pre.length + (fns.flatMap (·.2)).length, sx, sy⟩ >>= fun r =>
        .ok ((objs.zip fns).map (fun p => { p.1 with pars := p.2.2, x0 := sx, y0 := sy }) ++ r.1, r.2)) := by
  induction fns generalizing objs pre with
  | nil =>
    simp only [List.map_nil, List.map_eq_nil_iff] at hd
    subst hd
    simp only [List.map_nil, List.nil_append, List.flatMap_nil, List.append_nil, List.length_nil, Nat.add_zero, List.zip_nil_left]
    cases setupFns (pre ++ post) more ⟨pre.length, sx, sy⟩ <;> rfl
  | cons f fns ih =>
    cases objs with
    | nil => simp at hd
    | cons o objs =>
      simp only [List.map_cons, List.cons.injEq] at hd
      have hf : f.2.length = o.desc.nParams := by rw [hd.1]; exact hl f (by simp)
      have e : pre ++ (f :: fns).flatMap (·.2) ++ post = pre ++ f.2 ++ (fns.flatMap (·.2) ++ post) := by
        simp
      have e2 : pre ++ f.2 ++ (fns.flatMap (·.2) ++ post) = (pre ++ f.2) ++ fns.flatMap (·.2) ++ post := by simp
      rw [e]
      simp only [List.map_cons, List.cons_append, setupFns, newSet, Bool.false_eq_true, if_false, ok_bind,
        fnSetup_slice o pre f.2 _ sx sy hf]
      rw [e2, show pre.length + o.desc.nParams = (pre ++ f.2).length by simp [hf],
        ih (fun g hg => hl g (by simp [hg])) objs hd.2 (pre ++ f.2)]
      have e3 : (pre ++ f.2).length + (fns.flatMap (·.2)).length = pre.length + ((f :: fns).flatMap (·.2)).length := by
        simp; omega
      rw [e3]
      cases setupFns (pre ++ f.2 ++ fns.flatMap (·.2) ++ post) more ⟨_, sx, sy⟩ with
      | error e => rfl
      | ok r => simp [ok_bind, pure_eq_ok]

/-- Functions given to the model: one object per function of the sets, of the right kind. -/
def Matches (objs : List (FnObj α)) (sets : List (SetVals α)) : Prop :=
  objs.map FnObj.desc = sets.flatMap fun s => s.fns.map Prod.fst

/-- Function sets are non-empty and each function has as many values as parameters. -/
def WellFormed (sets : List (SetVals α)) : Prop :=
  sets ≠ [] ∧ ∀ s ∈ sets, s.fns ≠ [] ∧ ∀ f ∈ s.fns, f.2.length = f.1.nParams

/-- Parameter counts, set by set. -/
def sizesOf (sets : List (SetVals α)) : List (List Nat) := sets.map fun s => s.fns.map fun f => f.1.nParams

theorem setupFns_sets (sets : List (SetVals α)) (h : ∀ s ∈ sets, s.fns ≠ [] ∧ ∀ f ∈ s.fns, f.2.length = f.1.nParams)
    (objs : List (FnObj α)) (hm : Matches objs sets) (pre : List α) (u v : α) :
    ∃ objs' x y, setupFns (pre ++ paramVector sets) (objs.zip ((flagged (sizesOf sets)).map Prod.snd)) ⟨pre.length, u, v⟩ =
        .ok (objs', ⟨(pre ++ paramVector sets).length, x, y⟩) ∧
      objs'.map FnObj.view = sets.flatMap (fun s => s.fns.map fun f => (f.1, s.x0, s.y0, f.2)) ∧
      objs'.map (fun o => (o.desc, o.interp, o.oscale, o.iscale)) = objs.map (fun o => (o.desc, o.interp, o.oscale, o.iscale)) := by
  induction sets generalizing objs pre u v with
  | nil =>
    have : objs = [] := by simpa [Matches] using hm
    subst this
    exact ⟨[], u, v, by simp [sizesOf, flagged, setupFns, paramVector], rfl, rfl⟩
  | cons s rest ih =>
    obtain ⟨hne, hl⟩ := h s (by simp)
    obtain ⟨x0, y0, fns⟩ := s
    dsimp only at hne hl
    obtain ⟨f, fns, rfl⟩ := List.exists_cons_of_ne_nil hne
    have hm' : objs.map FnObj.desc = (f :: fns).map Prod.fst ++ rest.flatMap fun s => s.fns.map Prod.fst := by
      simpa [Matches] using hm
    obtain ⟨o1, o2, rfl, hd1, hd2⟩ := List.map_eq_append_iff.1 hm'
    cases o1 with
    | nil => simp at hd1
    | cons o o1 =>
    simp only [List.map_cons, List.cons.injEq] at hd1
    have hlen : o1.length = fns.length := by
      have := congrArg List.length hd1.2; simpa using this
    have hzip : ((o :: o1) ++ o2).zip ((flagged (sizesOf (⟨x0, y0, f :: fns⟩ :: rest))).map Prod.snd) =
        (o, true) :: (o1.map (·, false) ++ o2.zip ((flagged (sizesOf rest)).map Prod.snd)) := by
      simp only [sizesOf, List.map_cons, flagged, List.map_append, List.cons_append, List.zip_cons_cons]
      congr 1
      rw [List.map_map, List.map_map, List.zip_append (by simp [hlen])]
      congr 1
      apply List.ext_getElem
      · simp [hlen]
      · intro i h1 h2; simp
    have e : pre ++ paramVector (⟨x0, y0, f :: fns⟩ :: rest) =
        (pre ++ [x0, y0]) ++ f.2 ++ (fns.flatMap (·.2) ++ paramVector rest) := by
      simp [paramVector]
    have e2 : (pre ++ [x0, y0]) ++ f.2 ++ (fns.flatMap (·.2) ++ paramVector rest) =
        ((pre ++ [x0, y0]) ++ f.2) ++ fns.flatMap (·.2) ++ paramVector rest := by simp
    have hf : f.2.length = o.desc.nParams := by rw [hd1.1]; exact hl f (by simp)
    have hx : newSet (pre ++ paramVector (⟨x0, y0, f :: fns⟩ :: rest)) ⟨pre.length, u, v⟩ true =
        .ok ⟨(pre ++ [x0, y0]).length, x0, y0⟩ := by
      unfold newSet
      simp only [if_true]
      have r0 : rd (pre ++ paramVector (⟨x0, y0, f :: fns⟩ :: rest)) pre.length = .ok x0 := by
        rw [rd_ok (by simp [paramVector])]; simp [paramVector]
      have r1 : rd (pre ++ paramVector (⟨x0, y0, f :: fns⟩ :: rest)) (pre.length + 1) = .ok y0 := by
        rw [rd_ok (by simp [paramVector])]; simp [paramVector]
      rw [r0, r1]; simp [ok_bind, pure_eq_ok]
    rw [hzip]
    simp only [setupFns, hx, ok_bind]
    obtain ⟨objs', x, y, g1, g2, g3⟩ := ih (fun t ht => h t (by simp [ht])) o2 (by simpa [Matches] using hd2)
      (((pre ++ [x0, y0]) ++ f.2) ++ fns.flatMap (·.2)) x0 y0
    rw [e, fnSetup_slice o (pre ++ [x0, y0]) f.2 _ x0 y0 hf]
    simp only [ok_bind]
    rw [e2, show (pre ++ [x0, y0]).length + o.desc.nParams = ((pre ++ [x0, y0]) ++ f.2).length by simp [hf]; omega,
      setupFns_tail x0 y0 fns (fun g hg => hl g (by simp [hg])) o1 hd1.2]
    rw [show ((pre ++ [x0, y0]) ++ f.2).length + (fns.flatMap (·.2)).length =
      (((pre ++ [x0, y0]) ++ f.2) ++ fns.flatMap (·.2)).length from (List.length_append).symm, g1]
    refine ⟨_, x, y, rfl, ?_, ?_⟩
    · simp only [List.map_cons, List.map_append, g2, List.flatMap_cons, List.map_map]
      simp only [FnObj.view, hd1.1, List.cons_append]
      congr 2
      apply List.ext_getElem
      · simp [hlen]
      · intro i h1 h2
        have hi : i < fns.length := by simpa using h2
        have := congrArg (fun l => l[i]?) hd1.2
        simp [hi, hlen] at this
        simp [FnObj.view, this]
    · simp only [List.map_cons, List.map_append, g3, List.map_map, List.cons_append]
      congr 2
      apply List.ext_getElem
      · simp [hlen]
      · intro i h1 h2; simp

theorem paramVector_length (sets : List (SetVals α)) (h : ∀ s ∈ sets, s.fns ≠ [] ∧ ∀ f ∈ s.fns, f.2.length = f.1.nParams) :
    (paramVector sets).length = (sizesOf sets).flatten.sum + 2 * sets.length := by
  induction sets with
  | nil => rfl
  | cons s rest ih =>
    have := ih (fun t ht => h t (by simp [ht]))
    have hs : (s.fns.flatMap (·.2)).length = (s.fns.map fun f => f.1.nParams).sum := by
      rw [List.length_flatMap]
      congr 1
      exact List.map_congr_left fun f hf => (h s (by simp)).2 f hf
    simp only [paramVector, List.flatMap_cons, List.length_append, List.length_cons] at *
    simp only [sizesOf, List.map_cons, List.flatten_cons, List.sum_append] at *
    rw [hs, this]
    omega

/-- C13. For every list of function sets with their values: setting up the sets and handing the concatenated vector to the model
gives each function its own parameter values and the X0, Y0 of its own set, in order; the advertised number of
parameters is the length of the vector, and the whole vector is consumed. Nothing depends on the earlier state of the functions or on the
initial values `u`, `v` of the variables `x0`, `y0`. -/
theorem C13_layout (sets : List (SetVals α)) (h : WellFormed sets) (objs : List (FnObj α)) (hm : Matches objs sets) :
    ∃ flags tot, defineFunctionSets (objs.map fun o => o.desc.nParams) (startIndices 0 (sets.map (·.fns))) 0 = .ok (flags, tot) ∧
      tot = (paramVector sets).length ∧
      ∀ u v, ∃ objs' x y, setupFns (paramVector sets) (objs.zip flags) ⟨0, u, v⟩ = .ok (objs', ⟨tot, x, y⟩) ∧
        objs'.map FnObj.view = sets.flatMap (fun s => s.fns.map fun f => (f.1, s.x0, s.y0, f.2)) := by
  have hsz : (objs.map fun o => o.desc.nParams) = (sizesOf sets).flatten := by
    have := congrArg (List.map FnDesc.nParams) hm
    simp only [List.map_map, List.map_flatMap] at this
    rw [sizesOf, ← List.flatMap_def]
    simpa [Function.comp_def] using this
  have hst : startIndices 0 (sets.map (·.fns)) = startIndices 0 (sizesOf sets) := by
    have : ∀ m (l : List (SetVals α)), startIndices m (l.map (·.fns)) = startIndices m (sizesOf l) := by
      intro m l
      induction l generalizing m with
      | nil => rfl
      | cons s l ih => simp [startIndices, sizesOf, ih]
    exact this 0 sets
  have hne : ∀ s ∈ sizesOf sets, s ≠ [] := by
    intro s hs
    simp only [sizesOf, List.mem_map] at hs
    obtain ⟨t, ht, rfl⟩ := hs
    simpa using (h.2 t ht).1
  refine ⟨_, _, by rw [hsz, hst]; exact defineFunctionSets_eq (sizesOf sets) hne (by simpa [sizesOf] using h.1) 0, ?_, ?_⟩
  · rw [paramVector_length sets h.2]; simp [sizesOf]
  · intro u v
    obtain ⟨objs', x, y, g1, g2, -⟩ := setupFns_sets sets h.2 objs hm [] u v
    refine ⟨objs', x, y, ?_, g2⟩
    simp only [List.nil_append, List.length_nil] at g1
    rw [g1, paramVector_length sets h.2]
    simp [sizesOf]

theorem split_fns (fns : List (FnDesc α)) (l : List α) (h : l.length = (fns.map FnDesc.nParams).sum) :
    ∃ ps : List (FnDesc α × List α), ps.map Prod.fst = fns ∧ (∀ f ∈ ps, f.2.length = f.1.nParams) ∧ ps.flatMap (·.2) = l := by
  induction fns generalizing l with
  | nil => exact ⟨[], rfl, by simp, by simpa using (List.length_eq_zero_iff.1 h).symm⟩
  | cons f fns ih =>
    simp only [List.map_cons, List.sum_cons] at h
    obtain ⟨ps, h1, h2, h3⟩ := ih (l.drop f.nParams) (by simp; omega)
    refine ⟨(f, l.take f.nParams) :: ps, by simp [h1], ?_, by simp [h3]⟩
    intro g hg
    rcases List.mem_cons.1 hg with rfl | hg
    · simp; omega
    · exact h2 g hg

/-- The layout covers everything: every vector of the advertised length, for every list of non-empty function sets, is the
concatenation described by `paramVector`, for values that are determined by it. So `C13_layout` speaks about every vector of that length. -/
theorem C13_every_vector (shape : List (List (FnDesc α))) (hne : shape ≠ []) (hs : ∀ s ∈ shape, s ≠ [])
    (params : List α) (hl : params.length = (shape.flatten.map FnDesc.nParams).sum + 2 * shape.length) :
    ∃ sets : List (SetVals α), WellFormed sets ∧ sets.map (fun s => s.fns.map Prod.fst) = shape ∧ paramVector sets = params := by
  suffices ∃ sets : List (SetVals α), (∀ s ∈ sets, s.fns ≠ [] ∧ ∀ f ∈ s.fns, f.2.length = f.1.nParams) ∧
      sets.map (fun s => s.fns.map Prod.fst) = shape ∧ paramVector sets = params by
    obtain ⟨sets, h1, h2, h3⟩ := this
    refine ⟨sets, ⟨?_, h1⟩, h2, h3⟩
    rintro rfl
    exact hne h2.symm
  clear hne
  induction shape generalizing params with
  | nil => exact ⟨[], by simp, rfl, by simpa [paramVector] using (List.length_eq_zero_iff.1 (by simpa using hl)).symm⟩
  | cons s rest ih =>
    simp only [List.flatten_cons, List.map_append, List.sum_append, List.length_cons] at hl
    match params, hl with
    | x :: y :: ps, hl =>
      simp only [List.length_cons] at hl
      obtain ⟨fns, h1, h2, h3⟩ := split_fns s (ps.take (s.map FnDesc.nParams).sum) (by
        rw [List.length_take]; omega)
      obtain ⟨sets, g1, g2, g3⟩ := ih (fun t ht => hs t (by simp [ht])) (ps.drop (s.map FnDesc.nParams).sum) (by
        rw [List.length_drop]; omega)
      refine ⟨⟨x, y, fns⟩ :: sets, ?_, by simp [h1, g2], ?_⟩
      · intro t ht
        rcases List.mem_cons.1 ht with rfl | ht
        · refine ⟨?_, h2⟩
          rintro hf
          simp only at hf
          subst hf
          exact hs s (by simp) (by simpa using h1.symm)
        · exact g1 t ht
      · have : paramVector (⟨x, y, fns⟩ :: sets) = x :: y :: (fns.flatMap (·.2) ++ paramVector sets) := by
          simp [paramVector]
        rw [this, h3, g3]; simp
    | [x], hl => simp at hl; omega
    | [], hl => simp at hl

/-- The values are determined by the vector: two assemblies of the same shape with the same vector are equal. -/
theorem C13_unique (sets sets' : List (SetVals α)) (h : WellFormed sets) (h' : WellFormed sets')
    (hsh : sets.map (fun s => s.fns.map Prod.fst) = sets'.map (fun s => s.fns.map Prod.fst))
    (hv : paramVector sets = paramVector sets') :
    sets.flatMap (fun s => s.fns.map fun f => (f.1, s.x0, s.y0, f.2)) =
      sets'.flatMap (fun s => s.fns.map fun f => (f.1, s.x0, s.y0, f.2)) := by
  let objs : List (FnObj α) := sets.flatMap fun s => s.fns.map fun f => ⟨f.1, [], s.x0, s.y0, none, s.x0, s.y0⟩
  have m1 : Matches objs sets := by
    simp [Matches, objs, List.map_flatMap, Function.comp_def]
  have m2 : Matches objs sets' := by
    unfold Matches at *
    rw [m1, List.flatMap_def, List.flatMap_def, hsh]
  obtain ⟨fl, tot, a1, -, a3⟩ := C13_layout sets h objs m1
  obtain ⟨fl', tot', b1, -, b3⟩ := C13_layout sets' h' objs m2
  have hst : startIndices 0 (sets.map (·.fns)) = startIndices 0 (sets'.map (·.fns)) := by
    have : ∀ m (l l' : List (SetVals α)), l.map (fun s => s.fns.map Prod.fst) = l'.map (fun s => s.fns.map Prod.fst) →
        startIndices m (l.map (·.fns)) = startIndices m (l'.map (·.fns)) := by
      intro m l
      induction l generalizing m with
      | nil => intro l' e; cases l' with
        | nil => rfl
        | cons => simp at e
      | cons s l ih => intro l' e; cases l' with
        | nil => simp at e
        | cons s' l' =>
          simp only [List.map_cons, List.cons.injEq] at e
          have := congrArg List.length e.1
          simp only [List.length_map] at this
          simp [startIndices, this, ih _ l' e.2]
    exact this 0 _ _ hsh
  rw [hst, b1] at a1
  simp only [Except.ok.injEq, Prod.mk.injEq] at a1
  obtain ⟨rfl, rfl⟩ := a1
  cases sets with
  | nil => exact absurd rfl h.1
  | cons s0 rest =>
    obtain ⟨o1, x, y, c1, c2⟩ := a3 s0.x0 s0.y0
    obtain ⟨o2, x', y', d1, d2⟩ := b3 s0.x0 s0.y0
    rw [hv, d1] at c1
    simp only [Except.ok.injEq, Prod.mk.injEq] at c1
    rw [← c2, ← c1.1, d2]

/-- Example: two sets (two functions with 1 and 2 parameters, then one with 1), eight values. -/
example : ∃ objs' x y, setupFns [10, 20, 1, 2, 3, 30, 40, 4]
      ([⟨⟨1, false, fun _ _ _ _ _ => 0⟩, [], 0, 0, none, 0, 0⟩, ⟨⟨2, false, fun _ _ _ _ _ => 0⟩, [], 0, 0, none, 0, 0⟩,
        ⟨⟨1, false, fun _ _ _ _ _ => 0⟩, [], 0, 0, none, 0, 0⟩].zip [true, false, true]) ⟨0, (0 : ℚ), 0⟩ = .ok (objs', ⟨8, x, y⟩) ∧
    objs'.map (fun o => (o.x0, o.y0, o.pars)) = [(10, 20, [1]), (10, 20, [2, 3]), (30, 40, [4])] := by
  let d1 : FnDesc ℚ := ⟨1, false, fun _ _ _ _ _ => 0⟩
  let d2 : FnDesc ℚ := ⟨2, false, fun _ _ _ _ _ => 0⟩
  let sets : List (SetVals ℚ) := [⟨10, 20, [(d1, [1]), (d2, [2, 3])]⟩, ⟨30, 40, [(d1, [4])]⟩]
  obtain ⟨fl, tot, a1, a2, a3⟩ := C13_layout sets (by
      simp only [WellFormed, sets, d1, d2]; simp; rintro a b (⟨rfl, rfl⟩ | ⟨rfl, rfl⟩) <;> rfl)
    [⟨d1, [], 0, 0, none, 0, 0⟩, ⟨d2, [], 0, 0, none, 0, 0⟩, ⟨d1, [], 0, 0, none, 0, 0⟩] (by simp [Matches, sets])
  have : defineFunctionSets [1, 2, 1] [0, 2] 0 = .ok ([true, false, true], 8) := by decide
  have e : (fl, tot) = ([true, false, true], 8) := by
    have := a1.symm.trans this
    simpa using this
  obtain ⟨rfl, rfl⟩ := Prod.mk.inj e
  obtain ⟨objs', x, y, g1, g2⟩ := a3 0 0
  refine ⟨objs', x, y, g1, ?_⟩
  have := congrArg (List.map fun p => (p.2.1, p.2.2.1, p.2.2.2)) g2
  rw [List.map_map] at this
  exact this

end Imfit
