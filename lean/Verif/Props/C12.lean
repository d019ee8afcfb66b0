import Verif.Props.C10
import Verif.Props.C17

/-!
# C12 — the model image depends only on the parameter vector
-/

namespace Imfit

variable {α : Type}

/-- The model may be asked for a model image (also as part of a fit statistic) or for the image of one function. -/
inductive EvalOp (α : Type)
  | eval (params : List α)
  | single (params : List α) (idx : Nat)

/-- One request. -/
def runOp [FP α] (m : Img α) : EvalOp α → Res (Img α)
  | .eval p => createModelImage m p
  | .single p i => singleFunctionImage m p i

/-- A history of requests. -/
def runOps [FP α] : List (EvalOp α) → Img α → Res (Img α)
  | [], m => .ok m
  | op :: rest, m => do
    let m1 ← runOp m op
    runOps rest m1

/-- The image after a request. -/
def imageOf (r : Res (Img α)) : Res (List α) := Img.modelVec <$> r

/-- Objects that differ only in what `Setup` and `AddPsfInterpolator` overwrite. -/
structure Sim (o o' : FnObj α) : Prop where
  desc : o.desc = o'.desc
  iscale : o.iscale = o'.iscale
  oscale : o.oscale = o'.oscale
  ord : o.desc.isPoint = false → o.interp = o'.interp

theorem Sim.refl (o : FnObj α) : Sim o o := ⟨rfl, rfl, rfl, fun _ => rfl⟩
theorem Sim.trans {a b c : FnObj α} (h : Sim a b) (k : Sim b c) : Sim a c :=
  ⟨h.desc.trans k.desc, h.iscale.trans k.iscale, h.oscale.trans k.oscale, fun hp => (h.ord hp).trans (k.ord (h.desc ▸ hp))⟩

theorem Sim.forall_refl (l : List (FnObj α)) : List.Forall₂ Sim l l := by
  induction l with
  | nil => exact .nil
  | cons o l ih => exact .cons (Sim.refl o) ih

theorem Sim.forall_trans {a b c : List (FnObj α)} (h : List.Forall₂ Sim a b) (k : List.Forall₂ Sim b c) : List.Forall₂ Sim a c := by
  induction h generalizing c with
  | nil => cases k; exact .nil
  | cons h _ ih => cases k with
    | cons k1 k2 => exact .cons (h.trans k1) (ih k2)

/-- Models in the same state except for what an evaluation overwrites. -/
structure SimImg (m m' : Img α) : Prop where
  fns : List.Forall₂ Sim m.fns m'.fns
  starts : m.starts = m'.starts
  geom : m.geom = m'.geom
  conv : m.conv = m'.conv
  interp : m.interp = m'.interp
  regions : m.regions = m'.regions

theorem resetInterp_sim (p : Option (Interp α)) (o : FnObj α) : Sim o (resetInterp p o) := by
  unfold resetInterp
  split
  · rename_i h; exact ⟨rfl, rfl, rfl, fun h' => by rw [h] at h'; cases h'⟩
  · exact Sim.refl o

theorem sim_map_reset (p : Option (Interp α)) (l : List (FnObj α)) : List.Forall₂ Sim l (l.map (resetInterp p)) := by
  induction l with
  | nil => exact .nil
  | cons o l ih => exact .cons (resetInterp_sim p o) ih

/-- Setup of similar objects gives objects that are equal after the interpolator is reset. -/
theorem fnSetup_sim (p : Option (Interp α)) {o o' : FnObj α} (h : Sim o o') (params : List α) (off : Nat) (x y : α) :
    (∃ e, fnSetup o params off x y = .error e ∧ fnSetup o' params off x y = .error e) ∨
    (∃ o1 o1', fnSetup o params off x y = .ok o1 ∧ fnSetup o' params off x y = .ok o1' ∧ resetInterp p o1 = resetInterp p o1' ∧ Sim o o1) := by
  obtain ⟨h1, h2, h3, h4⟩ := h
  unfold fnSetup
  rw [← h1]
  cases loopMap o.desc.nParams (fun k => rd params (off + k)) with
  | error e => exact Or.inl ⟨e, rfl, rfl⟩
  | ok ps =>
    refine Or.inr ⟨_, _, rfl, rfl, ?_, ⟨rfl, rfl, rfl, fun _ => rfl⟩⟩
    cases o with
    | mk d ps0 a b i os is =>
    cases o' with
    | mk d' ps0' a' b' i' os' is' =>
    simp only at h1 h2 h3 h4
    subst h1 h2 h3
    unfold resetInterp
    cases hp : d.isPoint with
    | true => simp
    | false => simp [h4 hp]

theorem setupFns_sim (p : Option (Interp α)) {l l' : List (FnObj α)} (h : List.Forall₂ Sim l l') (starts : List Bool) (params : List α)
    (pos : SetupPos α) :
    (∃ e, setupFns params (l.zip starts) pos = .error e ∧ setupFns params (l'.zip starts) pos = .error e) ∨
    (∃ r r', setupFns params (l.zip starts) pos = .ok r ∧ setupFns params (l'.zip starts) pos = .ok r' ∧
      r.1.map (resetInterp p) = r'.1.map (resetInterp p) ∧ (l.length ≤ starts.length → List.Forall₂ Sim l r.1)) := by
  induction h generalizing starts pos with
  | nil => exact Or.inr ⟨_, _, rfl, rfl, rfl, fun _ => .nil⟩
  | cons ho _ ih =>
    rename_i o o' l l' _
    cases starts with
    | nil =>
      refine Or.inr ⟨([], pos), ([], pos), rfl, rfl, rfl, ?_⟩
      intro hl; simp at hl
    | cons st starts =>
      simp only [List.zip_cons_cons, setupFns]
      cases hn : newSet params pos st with
      | error e => exact Or.inl ⟨e, rfl, rfl⟩
      | ok p1 =>
        simp only [ok_bind]
        rcases fnSetup_sim p ho params p1.offset p1.x0 p1.y0 with ⟨e, h1, h2⟩ | ⟨o1, o1', h1, h2, h3, h4⟩
        · rw [h1, h2]; exact Or.inl ⟨e, rfl, rfl⟩
        · rw [h1, h2, ← ho.desc]
          simp only [ok_bind]
          rcases ih starts { p1 with offset := p1.offset + o.desc.nParams } with ⟨e, k1, k2⟩ | ⟨r, r', k1, k2, k3, k4⟩
          · rw [k1, k2]; exact Or.inl ⟨e, rfl, rfl⟩
          · rw [k1, k2]
            refine Or.inr ⟨_, _, rfl, rfl, by simp [h3, k3], fun hl => .cons h4 (k4 (by simpa using hl))⟩

theorem sim_points {l l' : List (FnObj α)} (h : List.Forall₂ Sim l l') : l.any (fun o => o.desc.isPoint) = l'.any fun o => o.desc.isPoint := by
  induction h with
  | nil => rfl
  | cons ho _ ih => simp [ho.desc, ih]

theorem pixelSum_reset [FP α] (p : Option (Interp α)) (x y : α) (l : List (FnObj α)) (s : KS α) :
    pixelSum false x y (l.map (resetInterp p)) s = pixelSum false x y l s := by
  induction l generalizing s with
  | nil => rfl
  | cons o l ih =>
    simp only [List.map_cons, pixelSum]
    have : pixelStep false x y s (resetInterp p o) = pixelStep false x y s o := by
      unfold pixelStep resetInterp
      cases hp : o.desc.isPoint <;> simp [hp]
    rw [this]
    cases pixelStep false x y s o with
    | error e => rfl
    | ok t => exact ih t

theorem fillImage_reset [FP α] (p : Option (Interp α)) (n : Nat) (X Y : Nat → α) (l : List (FnObj α)) :
    fillImage n X Y (l.map (resetInterp p)) = fillImage n X Y l := by
  unfold fillImage
  simp only [pixelSum_reset]

/-- Image computation from function objects that carry the main interpolator. -/
def evalCore [FP α] (g : Geom) (conv : Option (List α → List α)) (pts : Bool) (rs : List (Region α)) (objs : List (FnObj α)) :
    Res (List α × List (FnObj α)) := do
  let v1 ← fillImage g.n (mainX g) (mainY g) objs
  let v2 ← (if pts then addPoints g.n (mainX g) (mainY g) objs (applyConv conv v1) else .ok (applyConv conv v1) : Res (List α))
  computeRegions rs v2 objs

theorem map_reset_of_no_points (p : Option (Interp α)) (l : List (FnObj α)) (h : l.any (fun o => o.desc.isPoint) = false) :
    l.map (resetInterp p) = l := by
  conv_rhs => rw [← List.map_id l]
  refine List.map_congr_left fun o ho => ?_
  have : o.desc.isPoint = false := by
    by_contra hc
    have : l.any (fun o => o.desc.isPoint) = true := List.any_eq_true.2 ⟨o, ho, by simpa using hc⟩
    rw [h] at this
    cases this
  simp [resetInterp, this]

theorem createModelImage_core [FP α] (m : Img α) (params : List α) (hst : m.fns.length ≤ m.starts.length) :
    createModelImage m params = (setupFns params (m.fns.zip m.starts) ⟨0, 0, 0⟩ >>= fun r =>
      evalCore m.geom m.conv m.points m.regions (r.1.map (resetInterp m.interp)) >>= fun q =>
        .ok { m with fns := q.2, modelVec := q.1, computed := true }) := by
  unfold createModelImage
  rcases setupFns_sim m.interp (Sim.forall_refl m.fns) m.starts params ⟨0, 0, 0⟩ with ⟨e, h1, _⟩ | ⟨r, r', h1, _, _, h4⟩
  · rw [h1]; rfl
  · rw [h1]
    have hp : m.points = r.1.any fun o => o.desc.isPoint := sim_points (h4 hst)
    simp only [ok_bind, evalCore, fillImage_reset]
    cases fillImage m.geom.n (mainX m.geom) (mainY m.geom) r.1 with
    | error e => rfl
    | ok v1 =>
      simp only [ok_bind, pointStep]
      cases hpp : m.points with
      | true =>
        simp only [if_true]
        have hs : setInterp m.interp r.1 = r.1.map (resetInterp m.interp) := rfl
        rw [hs]
        cases addPoints m.geom.n (mainX m.geom) (mainY m.geom) (r.1.map (resetInterp m.interp)) (applyConv m.conv v1) with
        | error e => rfl
        | ok v2 => rfl
      | false =>
        simp only [Bool.false_eq_true, if_false, ok_bind]
        rw [map_reset_of_no_points m.interp r.1 (by rw [← hp]; exact hpp)]
        rfl

/-- Similar states give the same image (or the same fault). -/
theorem createModelImage_sim [FP α] {m m' : Img α} (h : SimImg m m') (hst : m.fns.length ≤ m.starts.length) (params : List α) :
    imageOf (createModelImage m params) = imageOf (createModelImage m' params) := by
  have hl : m.fns.length = m'.fns.length := h.fns.length_eq
  rw [createModelImage_core m params hst, createModelImage_core m' params (by rw [← hl, ← h.starts]; exact hst)]
  have hp : m.points = m'.points := sim_points h.fns
  rw [← h.starts, ← h.geom, ← h.conv, ← h.interp, ← h.regions, ← hp]
  rcases setupFns_sim m.interp h.fns m.starts params ⟨0, 0, 0⟩ with ⟨e, h1, h2⟩ | ⟨r, r', h1, h2, h3, _⟩
  · rw [h1, h2]
  · rw [h1, h2]
    simp only [ok_bind, h3]

theorem singleFunctionImage_sim [FP α] {m m' : Img α} (h : SimImg m m') (params : List α) (idx : Nat) :
    imageOf (singleFunctionImage m params idx) = imageOf (singleFunctionImage m' params idx) := by
  unfold singleFunctionImage
  rw [← h.starts]
  by_cases hc : checkParams params = true
  · rw [if_pos hc, if_pos hc]
    rcases setupFns_sim m.interp h.fns m.starts params ⟨0, 0, 0⟩ with ⟨e, h1, h2⟩ | ⟨r, r', h1, h2, h3, _⟩
    · rw [h1, h2]; rfl
    · rw [h1, h2]
      simp only [ok_bind]
      have hlen : r.1.length = r'.1.length := by simpa using congrArg List.length h3
      by_cases hi : idx < r.1.length
      · rw [rd_ok hi, rd_ok (by omega)]
        simp only [ok_bind]
        have ho : resetInterp m.interp r.1[idx] = resetInterp m.interp (r'.1[idx]'(by omega)) := by
          have := congrArg (fun l => l[idx]?) h3
          simp only [List.getElem?_map, List.getElem?_eq_getElem hi, List.getElem?_eq_getElem (show idx < r'.1.length by omega),
            Option.map_some, Option.some.injEq] at this
          exact this
        rw [← h.interp, ← h.geom, ← ho, ← h.regions]
        cases loopMap m.geom.n (fun k => fnValue (resetInterp m.interp r.1[idx]) (mainX m.geom k) (mainY m.geom k)) with
        | error e => rfl
        | ok v1 =>
          simp only [ok_bind]
          have hs : singleConv m' (resetInterp m.interp r.1[idx]) v1 = singleConv m (resetInterp m.interp r.1[idx]) v1 := by
            unfold singleConv; rw [h.conv]
          rw [hs]
          cases singleRegions m.regions (singleConv m (resetInterp m.interp r.1[idx]) v1) (resetInterp m.interp r.1[idx]) <;> rfl
      · rw [rd_oob (by omega), rd_oob (by omega)]; rfl
  · rw [if_neg hc, if_neg hc]

/-- Objects that are all ordinary are not changed by regions. -/
theorem setRegion_ord [FP α] (r : Region α) (l : List (FnObj α)) (h : l.any (fun o => o.desc.isPoint) = false) : setRegion r l = l := by
  unfold setRegion
  conv_rhs => rw [← List.map_id l]
  refine List.map_congr_left fun o ho => ?_
  have : o.desc.isPoint = false := by
    by_contra hc
    have : l.any (fun o => o.desc.isPoint) = true := List.any_eq_true.2 ⟨o, ho, by simpa using hc⟩
    rw [h] at this
    cases this
  simp [this]

theorem computeRegion_fns [FP α] (r : Region α) (img : List α) (l : List (FnObj α)) (q : List α × List (FnObj α))
    (hok : computeRegion r img l = .ok q) : q.2 = setRegion r l := by
  unfold computeRegion at hok
  cases h1 : fillImage r.geom.n (regionX r) (regionY r) l with
  | error e => rw [h1] at hok; cases hok
  | ok v =>
    rw [h1, ok_bind] at hok
    cases h2 : addPoints r.geom.n (regionX r) (regionY r) (setRegion r l) (applyConv r.conv v) with
    | error e => simp only [h2] at hok; cases hok
    | ok v3 =>
      simp only [h2, ok_bind] at hok
      cases h3 : downsample v3 r.geom img r.main r.x1 r.y1 r.scale with
      | error e => rw [h3] at hok; cases hok
      | ok m =>
        rw [h3, ok_bind] at hok
        have := Except.ok.inj hok
        subst this
        rfl

theorem computeRegions_fns [FP α] (rs : List (Region α)) (img : List α) (l : List (FnObj α))
    (h : rs = [] ∨ l.any (fun o => o.desc.isPoint) = false) (q : List α × List (FnObj α))
    (hok : computeRegions rs img l = .ok q) : q.2 = l := by
  induction rs generalizing img l with
  | nil => simp only [computeRegions, Except.ok.injEq] at hok; subst hok; rfl
  | cons r rs ih =>
    rcases h with h | h
    · cases h
    · simp only [computeRegions] at hok
      cases h1 : computeRegion r img l with
      | error e => rw [h1] at hok; cases hok
      | ok p =>
        rw [h1, ok_bind] at hok
        have hp := computeRegion_fns r img l p h1
        rw [setRegion_ord r l h] at hp
        have := ih p.1 p.2 (Or.inr (by rw [hp]; exact h)) hok
        rw [this, hp]

theorem singleRegions_fn [FP α] (rs : List (Region α)) (img : List α) (o : FnObj α)
    (h : rs = [] ∨ o.desc.isPoint = false) (q : List α × FnObj α)
    (hok : singleRegions rs img o = .ok q) : q.2 = o := by
  induction rs generalizing img o with
  | nil => simp only [singleRegions, Except.ok.injEq] at hok; subst hok; rfl
  | cons r rs ih =>
    rcases h with h | h
    · cases h
    · simp only [singleRegions] at hok
      cases h1 : computeRegion r img [o] with
      | error e => rw [h1] at hok; cases hok
      | ok p =>
        rw [h1, ok_bind] at hok
        have hp := computeRegion_fns r img [o] p h1
        rw [setRegion_ord r [o] (by simp [h])] at hp
        rw [hp] at hok
        exact ih p.1 o (Or.inr h) hok

theorem evalCore_fns [FP α] (g : Geom) (conv : Option (List α → List α)) (pts : Bool) (rs : List (Region α)) (objs : List (FnObj α))
    (h : rs = [] ∨ objs.any (fun o => o.desc.isPoint) = false) (q : List α × List (FnObj α))
    (hok : evalCore g conv pts rs objs = .ok q) : q.2 = objs := by
  unfold evalCore at hok
  cases h1 : fillImage g.n (mainX g) (mainY g) objs with
  | error e => rw [h1] at hok; cases hok
  | ok v1 =>
    rw [h1, ok_bind] at hok
    cases h2 : (if pts then addPoints g.n (mainX g) (mainY g) objs (applyConv conv v1) else .ok (applyConv conv v1) : Res (List α)) with
    | error e => rw [h2] at hok; cases hok
    | ok v2 =>
      rw [h2, ok_bind] at hok
      exact computeRegions_fns rs v2 objs h q hok

/-- A model without the troublesome combination: no point sources, or no oversampled regions. -/
def NoMix (m : Img α) : Prop := m.points = false ∨ m.regions = []

theorem forall2_set {l l' : List (FnObj α)} (h : List.Forall₂ Sim l l') (i : Nat) (o : FnObj α) (hi : i < l'.length)
    (ho : Sim l'[i] o) : List.Forall₂ Sim l (l'.set i o) := by
  induction h generalizing i with
  | nil => exact .nil
  | cons h1 h2 ih =>
    cases i with
    | zero => exact .cons (h1.trans ho) h2
    | succ i => exact .cons h1 (ih i (by simpa using hi) (by simpa using ho))

theorem runOp_sim [FP α] (m m1 : Img α) (op : EvalOp α) (hst : m.fns.length ≤ m.starts.length) (hmix : NoMix m)
    (hok : runOp m op = .ok m1) : SimImg m m1 := by
  cases op with
  | eval params =>
    simp only [runOp] at hok
    rw [createModelImage_core m params hst] at hok
    rcases setupFns_sim m.interp (Sim.forall_refl m.fns) m.starts params ⟨0, 0, 0⟩ with ⟨e, h1, _⟩ | ⟨r, r', h1, _, _, h4⟩
    · rw [h1] at hok; cases hok
    · rw [h1, ok_bind] at hok
      cases h2 : evalCore m.geom m.conv m.points m.regions (r.1.map (resetInterp m.interp)) with
      | error e => rw [h2] at hok; cases hok
      | ok q =>
        rw [h2, ok_bind] at hok
        have hm := Except.ok.inj hok
        have hs : List.Forall₂ Sim m.fns (r.1.map (resetInterp m.interp)) := Sim.forall_trans (h4 hst) (sim_map_reset _ _)
        have hq : q.2 = r.1.map (resetInterp m.interp) := by
          refine evalCore_fns _ _ _ _ _ ?_ _ h2
          rcases hmix with h | h
          · right; rw [← sim_points hs]; exact h
          · left; exact h
        subst hm
        exact ⟨by rw [hq]; exact hs, rfl, rfl, rfl, rfl, rfl⟩
  | single params idx =>
    simp only [runOp, singleFunctionImage] at hok
    by_cases hc : checkParams params = true
    · rw [if_pos hc] at hok
      rcases setupFns_sim m.interp (Sim.forall_refl m.fns) m.starts params ⟨0, 0, 0⟩ with ⟨e, h1, _⟩ | ⟨r, r', h1, _, _, h4⟩
      · rw [h1] at hok; cases hok
      · rw [h1, ok_bind] at hok
        by_cases hi : idx < r.1.length
        · rw [rd_ok hi, ok_bind] at hok
          cases h2 : loopMap m.geom.n (fun k => fnValue (resetInterp m.interp r.1[idx]) (mainX m.geom k) (mainY m.geom k)) with
          | error e => simp only [h2] at hok; cases hok
          | ok v1 =>
            simp only [h2, ok_bind] at hok
            cases h3 : singleRegions m.regions (singleConv m (resetInterp m.interp r.1[idx]) v1) (resetInterp m.interp r.1[idx]) with
            | error e => rw [h3] at hok; cases hok
            | ok q =>
              rw [h3, ok_bind] at hok
              have hm := Except.ok.inj hok
              have hq : q.2 = resetInterp m.interp r.1[idx] := by
                refine singleRegions_fn _ _ _ ?_ _ h3
                rcases hmix with h | h
                · right
                  have hp : r.1.any (fun o => o.desc.isPoint) = false := by rw [← sim_points (h4 hst)]; exact h
                  have hd : (resetInterp m.interp r.1[idx]).desc = r.1[idx].desc := (resetInterp_sim _ _).desc.symm
                  rw [hd]
                  by_contra hcc
                  have : r.1.any (fun o => o.desc.isPoint) = true := List.any_eq_true.2 ⟨_, List.getElem_mem hi, by simpa using hcc⟩
                  rw [hp] at this
                  cases this
                · left; exact h
              subst hm
              exact ⟨forall2_set (h4 hst) idx _ hi (by rw [hq]; exact resetInterp_sim _ _), rfl, rfl, rfl, rfl, rfl⟩
        · rw [rd_oob (by omega)] at hok; cases hok
    · rw [if_neg hc] at hok; cases hok

theorem SimImg.trans {a b c : Img α} (h : SimImg a b) (k : SimImg b c) : SimImg a c :=
  ⟨Sim.forall_trans h.fns k.fns, h.starts.trans k.starts, h.geom.trans k.geom, h.conv.trans k.conv, h.interp.trans k.interp,
    h.regions.trans k.regions⟩

theorem SimImg.noMix {a b : Img α} (h : SimImg a b) (k : NoMix a) : NoMix b := by
  rcases k with k | k
  · left; rw [← k]; exact (sim_points h.fns).symm
  · right; rw [← h.regions]; exact k

theorem runOps_sim [FP α] (ops : List (EvalOp α)) (m m1 : Img α) (hst : m.fns.length ≤ m.starts.length) (hmix : NoMix m)
    (hok : runOps ops m = .ok m1) : SimImg m m1 := by
  induction ops generalizing m with
  | nil =>
    simp only [runOps, Except.ok.injEq] at hok
    subst hok
    exact ⟨Sim.forall_refl _, rfl, rfl, rfl, rfl, rfl⟩
  | cons op rest ih =>
    simp only [runOps] at hok
    cases h1 : runOp m op with
    | error e => rw [h1] at hok; cases hok
    | ok m2 =>
      rw [h1, ok_bind] at hok
      have hs := runOp_sim m m2 op hst hmix h1
      exact hs.trans (ih m2 (by rw [← hs.fns.length_eq, ← hs.starts]; exact hst) (hs.noMix hmix) hok)

/-- C12 for models without point sources or without oversampled regions, every arithmetic: after any history of requests the image
for a parameter vector, and the image of any single function, is the one a freshly built model gives (same fault, if any).
Missing: point sources together with oversampled regions, see `C12_false`. -/
theorem C12_history_partial [FP α] (m m1 : Img α) (hst : m.fns.length ≤ m.starts.length) (hmix : NoMix m) (ops : List (EvalOp α))
    (hok : runOps ops m = .ok m1) (op : EvalOp α) : imageOf (runOp m1 op) = imageOf (runOp m op) := by
  have hs := runOps_sim ops m m1 hst hmix hok
  cases op with
  | eval p => exact (createModelImage_sim hs hst p).symm
  | single p i => exact (singleFunctionImage_sim hs p i).symm

/-! ## Point sources together with oversampled regions -/

/-- Objects that agree except for interpolator and scale of point sources. -/
structure Sim2 (o o' : FnObj α) : Prop where
  desc : o.desc = o'.desc
  iscale : o.iscale = o'.iscale
  ord : o.desc.isPoint = false → o.interp = o'.interp ∧ o.oscale = o'.oscale

theorem Sim.to2 {o o' : FnObj α} (h : Sim o o') : Sim2 o o' := ⟨h.desc, h.iscale, fun hp => ⟨h.ord hp, h.oscale⟩⟩

theorem Sim2.trans {a b c : FnObj α} (h : Sim2 a b) (k : Sim2 b c) : Sim2 a c :=
  ⟨h.desc.trans k.desc, h.iscale.trans k.iscale, fun hp =>
    ⟨(h.ord hp).1.trans (k.ord (h.desc ▸ hp)).1, (h.ord hp).2.trans (k.ord (h.desc ▸ hp)).2⟩⟩

theorem Sim2.forall_trans {a b c : List (FnObj α)} (h : List.Forall₂ Sim2 a b) (k : List.Forall₂ Sim2 b c) : List.Forall₂ Sim2 a c := by
  induction h generalizing c with
  | nil => cases k; exact .nil
  | cons h _ ih => cases k with
    | cons k1 k2 => exact .cons (h.trans k1) (ih k2)

theorem Sim.forall_to2 {a b : List (FnObj α)} (h : List.Forall₂ Sim a b) : List.Forall₂ Sim2 a b := h.imp fun _ _ h => h.to2

/-- Every point source carries the scale `c`. -/
def ScaleIs (c : α) (l : List (FnObj α)) : Prop := ∀ o ∈ l, o.desc.isPoint = true → o.oscale = c

/-- Two results of the same origin whose point sources carry the same scale are similar. -/
theorem sim_of_sim2 {c : α} {a b d : List (FnObj α)} (h : List.Forall₂ Sim2 a b) (k : List.Forall₂ Sim2 a d) (hb : ScaleIs c b)
    (hd : ScaleIs c d) : List.Forall₂ Sim b d := by
  induction h generalizing d with
  | nil => cases k; exact .nil
  | cons h _ ih => cases k with
    | cons k1 k2 =>
      rename_i o o' l l' _ e d'
      refine .cons ⟨h.desc.symm.trans k1.desc, h.iscale.symm.trans k1.iscale, ?_, ?_⟩
        (ih k2 (fun o ho => hb o (by simp [ho])) (fun o ho => hd o (by simp [ho])))
      · cases hp : o.desc.isPoint with
        | true =>
          rw [hb _ (by simp) (by rw [← h.desc]; exact hp), hd _ (by simp) (by rw [← k1.desc]; exact hp)]
        | false => rw [← (h.ord hp).2, ← (k1.ord hp).2]
      · intro hp
        have hp' : o.desc.isPoint = false := by rw [h.desc]; exact hp
        rw [← (h.ord hp').1, ← (k1.ord hp').1]

theorem setRegion_sim2 [FP α] (r : Region α) (l : List (FnObj α)) : List.Forall₂ Sim2 l (setRegion r l) := by
  induction l with
  | nil => exact .nil
  | cons o l ih =>
    refine .cons ?_ ih
    beta_reduce
    cases hp : o.desc.isPoint with
    | true => rw [if_pos rfl]; exact ⟨rfl, rfl, fun h => by rw [hp] at h; cases h⟩
    | false => rw [if_neg (by simp)]; exact ⟨rfl, rfl, fun _ => ⟨rfl, rfl⟩⟩

theorem setRegion_scale [FP α] (r : Region α) (l : List (FnObj α)) : ScaleIs (lit (r.scale : ℚ)) (setRegion r l) := by
  intro o ho hp
  obtain ⟨o', _, rfl⟩ := List.mem_map.1 ho
  cases hp' : o'.desc.isPoint with
  | true => simp
  | false => simp [hp'] at hp

/-- Effect of a list of regions on the objects. -/
def regionsEffect [FP α] (rs : List (Region α)) (l : List (FnObj α)) : List (FnObj α) := rs.foldl (fun l r => setRegion r l) l

theorem computeRegions_effect [FP α] (rs : List (Region α)) (img : List α) (l : List (FnObj α)) (q : List α × List (FnObj α))
    (hok : computeRegions rs img l = .ok q) : q.2 = regionsEffect rs l := by
  induction rs generalizing img l with
  | nil => simp only [computeRegions, Except.ok.injEq] at hok; subst hok; rfl
  | cons r rs ih =>
    simp only [computeRegions] at hok
    cases h1 : computeRegion r img l with
    | error e => rw [h1] at hok; cases hok
    | ok p =>
      rw [h1, ok_bind] at hok
      rw [ih p.1 p.2 hok, computeRegion_fns r img l p h1]
      rfl

theorem singleRegions_effect [FP α] (rs : List (Region α)) (img : List α) (o : FnObj α) (q : List α × FnObj α)
    (hok : singleRegions rs img o = .ok q) : [q.2] = regionsEffect rs [o] := by
  induction rs generalizing img o with
  | nil => simp only [singleRegions, Except.ok.injEq] at hok; subst hok; rfl
  | cons r rs ih =>
    simp only [singleRegions] at hok
    cases h1 : computeRegion r img [o] with
    | error e => rw [h1] at hok; cases hok
    | ok p =>
      rw [h1, ok_bind] at hok
      have hp := computeRegion_fns r img [o] p h1
      simp only [setRegion, List.map_cons, List.map_nil] at hp
      rw [hp] at hok
      rw [ih _ _ hok]
      rfl

theorem regionsEffect_sim2 [FP α] (rs : List (Region α)) (l : List (FnObj α)) : List.Forall₂ Sim2 l (regionsEffect rs l) := by
  induction rs generalizing l with
  | nil => exact Sim.forall_to2 (Sim.forall_refl l)
  | cons r rs ih => exact Sim2.forall_trans (setRegion_sim2 r l) (ih _)

theorem regionsEffect_scale [FP α] (rs : List (Region α)) (r : Region α) (l : List (FnObj α)) :
    ScaleIs (lit (r.scale : ℚ)) (regionsEffect (rs ++ [r]) l) := by
  unfold regionsEffect
  rw [List.foldl_append]
  exact setRegion_scale r _

/-- Models that agree except for what evaluations overwrite and the scale of point sources. -/
structure SimImg2 (m m' : Img α) : Prop where
  fns : List.Forall₂ Sim2 m.fns m'.fns
  starts : m.starts = m'.starts
  geom : m.geom = m'.geom
  conv : m.conv = m'.conv
  interp : m.interp = m'.interp
  regions : m.regions = m'.regions

theorem SimImg2.trans {a b c : Img α} (h : SimImg2 a b) (k : SimImg2 b c) : SimImg2 a c :=
  ⟨Sim2.forall_trans h.fns k.fns, h.starts.trans k.starts, h.geom.trans k.geom, h.conv.trans k.conv, h.interp.trans k.interp,
    h.regions.trans k.regions⟩

theorem forall2_set2 {l l' : List (FnObj α)} (h : List.Forall₂ Sim2 l l') (i : Nat) (o : FnObj α) (hi : i < l'.length)
    (ho : Sim2 l'[i] o) : List.Forall₂ Sim2 l (l'.set i o) := by
  induction h generalizing i with
  | nil => exact .nil
  | cons h1 h2 ih =>
    cases i with
    | zero => exact .cons (h1.trans ho) h2
    | succ i => exact .cons h1 (ih i (by simpa using hi) (by simpa using ho))

theorem sim_scale {c : α} {l l' : List (FnObj α)} (h : List.Forall₂ Sim l l') (k : ScaleIs c l) : ScaleIs c l' := by
  induction h with
  | nil => exact k
  | cons h1 h2 ih =>
    intro o ho hp
    rcases List.mem_cons.1 ho with rfl | ho
    · rw [← h1.oscale]; exact k _ (by simp) (by rw [h1.desc]; exact hp)
    · exact ih (fun o ho => k o (by simp [ho])) o ho hp

theorem evalCore_effect [FP α] (g : Geom) (conv : Option (List α → List α)) (pts : Bool) (rs : List (Region α)) (objs : List (FnObj α))
    (q : List α × List (FnObj α)) (hok : evalCore g conv pts rs objs = .ok q) : q.2 = regionsEffect rs objs := by
  unfold evalCore at hok
  cases h1 : fillImage g.n (mainX g) (mainY g) objs with
  | error e => rw [h1] at hok; cases hok
  | ok v1 =>
    rw [h1, ok_bind] at hok
    cases h2 : (if pts then addPoints g.n (mainX g) (mainY g) objs (applyConv conv v1) else .ok (applyConv conv v1) : Res (List α)) with
    | error e => rw [h2] at hok; cases hok
    | ok v2 =>
      rw [h2, ok_bind] at hok
      exact computeRegions_effect rs v2 objs q hok

/-- Effect of one request on the state, with the last region's scale. -/
theorem runOp_sim2 [FP α] (m m1 : Img α) (op : EvalOp α) (hst : m.fns.length ≤ m.starts.length) (rs : List (Region α)) (r0 : Region α)
    (hrs : m.regions = rs ++ [r0]) (hok : runOp m op = .ok m1) :
    SimImg2 m m1 ∧ ((∃ p, op = .eval p) ∨ ScaleIs (lit (r0.scale : ℚ)) m.fns → ScaleIs (lit (r0.scale : ℚ)) m1.fns) := by
  cases op with
  | eval params =>
    simp only [runOp] at hok
    rw [createModelImage_core m params hst] at hok
    rcases setupFns_sim m.interp (Sim.forall_refl m.fns) m.starts params ⟨0, 0, 0⟩ with ⟨e, h1, _⟩ | ⟨r, r', h1, _, _, h4⟩
    · rw [h1] at hok; cases hok
    · rw [h1, ok_bind] at hok
      cases h2 : evalCore m.geom m.conv m.points m.regions (r.1.map (resetInterp m.interp)) with
      | error e => rw [h2] at hok; cases hok
      | ok q =>
        rw [h2, ok_bind] at hok
        have hm := Except.ok.inj hok
        have hs : List.Forall₂ Sim m.fns (r.1.map (resetInterp m.interp)) := Sim.forall_trans (h4 hst) (sim_map_reset _ _)
        have hq := evalCore_effect _ _ _ _ _ _ h2
        subst hm
        refine ⟨⟨?_, rfl, rfl, rfl, rfl, rfl⟩, fun _ => ?_⟩
        · show List.Forall₂ Sim2 m.fns q.2
          rw [hq]
          exact Sim2.forall_trans (Sim.forall_to2 hs) (regionsEffect_sim2 _ _)
        · show ScaleIs _ q.2
          rw [hq, hrs]
          exact regionsEffect_scale _ _ _
  | single params idx =>
    simp only [runOp, singleFunctionImage] at hok
    by_cases hc : checkParams params = true
    · rw [if_pos hc] at hok
      rcases setupFns_sim m.interp (Sim.forall_refl m.fns) m.starts params ⟨0, 0, 0⟩ with ⟨e, h1, _⟩ | ⟨r, r', h1, _, _, h4⟩
      · rw [h1] at hok; cases hok
      · rw [h1, ok_bind] at hok
        by_cases hi : idx < r.1.length
        · rw [rd_ok hi, ok_bind] at hok
          cases h2 : loopMap m.geom.n (fun k => fnValue (resetInterp m.interp r.1[idx]) (mainX m.geom k) (mainY m.geom k)) with
          | error e => simp only [h2] at hok; cases hok
          | ok v1 =>
            simp only [h2, ok_bind] at hok
            cases h3 : singleRegions m.regions (singleConv m (resetInterp m.interp r.1[idx]) v1) (resetInterp m.interp r.1[idx]) with
            | error e => rw [h3] at hok; cases hok
            | ok q =>
              rw [h3, ok_bind] at hok
              have hm := Except.ok.inj hok
              have hq := singleRegions_effect _ _ _ _ h3
              have hq2 : Sim2 (resetInterp m.interp r.1[idx]) q.2 := by
                have := regionsEffect_sim2 m.regions [resetInterp m.interp r.1[idx]]
                rw [← hq] at this
                cases this with
                | cons h _ => exact h
              have hqs : ScaleIs (lit (r0.scale : ℚ)) [q.2] := by
                rw [hq, hrs]
                exact regionsEffect_scale _ _ _
              subst hm
              refine ⟨⟨forall2_set2 (Sim.forall_to2 (h4 hst)) idx _ hi ((resetInterp_sim _ _).to2.trans hq2), rfl, rfl, rfl, rfl, rfl⟩, ?_⟩
              rintro (⟨p, hp⟩ | hsc)
              · cases hp
              · intro o ho hp
                rcases List.mem_or_eq_of_mem_set ho with h | h
                · exact sim_scale (h4 hst) hsc o h hp
                · exact hqs o (by simp [h]) hp
        · rw [rd_oob (by omega)] at hok; cases hok
    · rw [if_neg hc] at hok; cases hok

theorem runOps_sim2 [FP α] (ops : List (EvalOp α)) (m m1 : Img α) (hst : m.fns.length ≤ m.starts.length) (rs : List (Region α))
    (r0 : Region α) (hrs : m.regions = rs ++ [r0]) (hok : runOps ops m = .ok m1) :
    SimImg2 m m1 ∧ ((∃ p, EvalOp.eval p ∈ ops) ∨ ScaleIs (lit (r0.scale : ℚ)) m.fns → ScaleIs (lit (r0.scale : ℚ)) m1.fns) := by
  induction ops generalizing m with
  | nil =>
    simp only [runOps, Except.ok.injEq] at hok
    subst hok
    exact ⟨⟨Sim.forall_to2 (Sim.forall_refl _), rfl, rfl, rfl, rfl, rfl⟩, fun h => by
      rcases h with ⟨p, hp⟩ | h
      · simp at hp
      · exact h⟩
  | cons op rest ih =>
    simp only [runOps] at hok
    cases h1 : runOp m op with
    | error e => rw [h1] at hok; cases hok
    | ok m2 =>
      rw [h1, ok_bind] at hok
      obtain ⟨hs, hc⟩ := runOp_sim2 m m2 op hst rs r0 hrs h1
      obtain ⟨hs2, hc2⟩ := ih m2 (by rw [← hs.fns.length_eq, ← hs.starts]; exact hst) (by rw [← hs.regions]; exact hrs) hok
      refine ⟨hs.trans hs2, ?_⟩
      rintro (⟨p, hp⟩ | h)
      · rcases List.mem_cons.1 hp with h | h
        · exact hc2 (Or.inr (hc (Or.inl ⟨p, h.symm⟩)))
        · exact hc2 (Or.inl ⟨p, h⟩)
      · exact hc2 (Or.inr (hc (Or.inr h)))

/-- C12 with oversampled regions and point sources: after any two histories that each contain at least one evaluation of the model
image, every further request gives the same image. (What it gives outside the regions is not what a fresh model gives, see `C12_false`.) -/
theorem C12_settled_partial [FP α] (m m1 m2 : Img α) (hst : m.fns.length ≤ m.starts.length) (rs : List (Region α)) (r0 : Region α)
    (hrs : m.regions = rs ++ [r0]) (ops1 ops2 : List (EvalOp α)) (he1 : ∃ p, EvalOp.eval p ∈ ops1) (he2 : ∃ p, EvalOp.eval p ∈ ops2)
    (hok1 : runOps ops1 m = .ok m1) (hok2 : runOps ops2 m = .ok m2) (op : EvalOp α) :
    imageOf (runOp m1 op) = imageOf (runOp m2 op) := by
  obtain ⟨a1, b1⟩ := runOps_sim2 ops1 m m1 hst rs r0 hrs hok1
  obtain ⟨a2, b2⟩ := runOps_sim2 ops2 m m2 hst rs r0 hrs hok2
  have hs : SimImg m1 m2 := ⟨sim_of_sim2 a1.fns a2.fns (b1 (Or.inl he1)) (b2 (Or.inl he2)), a1.starts.symm.trans a2.starts,
    a1.geom.symm.trans a2.geom, a1.conv.symm.trans a2.conv, a1.interp.symm.trans a2.interp, a1.regions.symm.trans a2.regions⟩
  cases op with
  | eval p => exact createModelImage_sim hs (by rw [← a1.fns.length_eq, ← a1.starts]; exact hst) p
  | single p i => exact singleFunctionImage_sim hs p i

/-! ## Witness for the negation -/

open XR

/-- A point source with scale state `c`. -/
def exPoint (c : ℝ) : FnObj XR := ⟨⟨1, true, fun _ _ _ _ _ => fin 0⟩, [fin 1], fin 1, fin 1, some fun x _ => x, fin c, fin 1⟩

/-- A 3 x 2 image with a 1 x 1 PSF, one point source with scale state `c`, and one oversampled region (scale 2, 1 x 1 PSF) covering the pixels
1..2 x 1..2. -/
def exMix (c : ℝ) : Img XR :=
  { fns := [exPoint c], starts := [true], geom := ⟨5, 4, 1, 1⟩, conv := some id, interp := some fun x _ => x,
    regions := [⟨1, 1, ⟨6, 6, 1, 1⟩, 2, some id, some fun x _ => x, ⟨5, 4, 1, 1⟩⟩], modelVec := [], computed := false }

theorem exMix_eval (c : ℝ) (m : Img XR) (hm : m = { exMix c with modelVec := m.modelVec, computed := m.computed }) :
    ∃ m', createModelImage m [fin 1, fin 1, fin 1] = .ok m' ∧ m'.modelVec[8]? = some (fin (2 * c)) ∧
      m' = { exMix 2 with modelVec := m'.modelVec, computed := true } := by
  have hset : setupFns [fin 1, fin 1, fin 1] (m.fns.zip m.starts) ⟨0, 0, 0⟩ = .ok ([exPoint c], ⟨3, fin 1, fin 1⟩) := by
    rw [hm]
    simp [exMix, setupFns, newSet, fnSetup, loopMap, rd, exPoint]
  have hfinP : ∀ c x y : ℝ, fnValue (exPoint c) (fin x) (fin y) = .ok (fin (c * (x - 1))) := by
    intro c x y
    simp [fnValue, exPoint, rd]
  have hval : ∀ c x y : ℝ, valR (exPoint c) (fin x) (fin y) = c * (x - 1) := by
    intro c x y
    simp [valR, hfinP]
  let r : Region XR := ⟨1, 1, ⟨6, 6, 1, 1⟩, 2, some id, some fun x _ => x, ⟨5, 4, 1, 1⟩⟩
  rw [createModelImage_core m _ (by rw [hm]; simp [exMix]), hset, ok_bind]
  have hobj : [exPoint c].map (resetInterp m.interp) = [exPoint c] := by rw [hm]; simp [exMix, resetInterp, exPoint]
  rw [hobj]
  have hgeom : m.geom = ⟨5, 4, 1, 1⟩ := by rw [hm]; rfl
  have hconv : m.conv = some id := by rw [hm]; rfl
  have hpts : m.points = true := by rw [hm]; rfl
  have hregs : m.regions = [r] := by rw [hm]; rfl
  rw [hgeom, hconv, hpts, hregs]
  let g : Geom := ⟨5, 4, 1, 1⟩
  -- main image
  have h1 : fillImage g.n (mainX g) (mainY g) [exPoint c] = .ok (rtab 20 (sumFn ([exPoint c].map (part false (mainX g) (mainY g))))) := by
    apply fillImage_eq
    intro o ho hp
    simp only [List.mem_singleton] at ho
    subst ho
    cases hp
  have h2 : ∀ v, addPoints g.n (mainX g) (mainY g) [exPoint c] (rtab 20 v) =
      .ok (rtab 20 (fun k => v k + sumFn ([exPoint c].map (part true (mainX g) (mainY g))) k)) := by
    intro v
    apply addPoints_eq
    intro o ho _ k _
    simp only [List.mem_singleton] at ho
    subst ho
    obtain ⟨x, hx⟩ := mainX_fin g k
    obtain ⟨y, hy⟩ := mainY_fin g k
    rw [hx, hy]
    exact ⟨_, hfinP c x y⟩
  -- region
  have h3 : fillImage r.geom.n (regionX r) (regionY r) [exPoint c] =
      .ok (rtab 36 (sumFn ([exPoint c].map (part false (regionX r) (regionY r))))) := by
    apply fillImage_eq
    intro o ho hp
    simp only [List.mem_singleton] at ho
    subst ho
    cases hp
  have hset1 : setRegion r [exPoint c] = [exPoint 2] := by
    simp [setRegion, exPoint, r]
  have h4 : ∀ v, addPoints r.geom.n (regionX r) (regionY r) [exPoint 2] (rtab 36 v) =
      .ok (rtab 36 (fun k => v k + sumFn ([exPoint 2].map (part true (regionX r) (regionY r))) k)) := by
    intro v
    apply addPoints_eq
    intro o ho _ k _
    simp only [List.mem_singleton] at ho
    subst ho
    obtain ⟨x, hx⟩ := regionX_fin r (by decide) k
    obtain ⟨y, hy⟩ := regionY_fin r (by decide) k
    rw [hx, hy]
    exact ⟨_, hfinP 2 x y⟩
  let V : Nat → ℝ := fun k => sumFn ([exPoint c].map (part false (regionX r) (regionY r))) k +
    sumFn ([exPoint 2].map (part true (regionX r) (regionY r))) k
  let M : Nat → ℝ := fun k => sumFn ([exPoint c].map (part false (mainX g) (mainY g))) k +
    sumFn ([exPoint c].map (part true (mainX g) (mainY g))) k
  have hfit : RegionFits r.geom r.main r.x1 r.y1 r.scale 2 2 :=
    ⟨by decide, by decide, by decide, by decide, by decide, by decide, by decide⟩
  obtain ⟨out, hout, hlen, hpix⟩ := C17_downsample_partial r.geom r.main r.x1 r.y1 r.scale 2 2 hfit (by decide) V (fun k => fin (M k))
  have h5 : downsample (rtab 36 V) r.geom (rtab 20 M) r.main r.x1 r.y1 r.scale = .ok out := hout
  have h6 : computeRegion r (rtab 20 M) [exPoint c] = .ok (out, [exPoint 2]) := by
    unfold computeRegion
    rw [h3, ok_bind]
    show (addPoints r.geom.n (regionX r) (regionY r) (setRegion r [exPoint c]) (rtab 36 _) >>= _) = _
    rw [hset1, h4, ok_bind]
    show (downsample (rtab 36 V) r.geom (rtab 20 M) r.main r.x1 r.y1 r.scale >>= _) = _
    rw [h5, ok_bind]
    rfl
  have h7 : evalCore g (some id) true [r] [exPoint c] = .ok (out, [exPoint 2]) := by
    unfold evalCore
    rw [h1, ok_bind]
    show ((if true = true then addPoints g.n (mainX g) (mainY g) [exPoint c] (rtab 20 _) else _) >>= _) = _
    rw [if_pos rfl, h2, ok_bind]
    show computeRegions [r] (rtab 20 M) [exPoint c] = _
    simp only [computeRegions, h6, ok_bind]
  rw [h7, ok_bind]
  refine ⟨_, rfl, ?_, ?_⟩
  · have := hpix 1 3 (by decide) (by decide)
    show out[8]? = _
    have e : replaced V r.geom r.main r.x1 r.y1 r.scale 2 2 (fun k => fin (M k)) 1 3 = fin (M 8) := by
      rw [replaced, if_neg (by decide)]
      rfl
    rw [e] at this
    have e2 : M 8 = 2 * c := by
      have hx : (mainX g 8 : XR) = fin 3 := by simp [mainX, g]; try norm_num
      have hy : (mainY g 8 : XR) = fin 1 := by simp [mainY, g]
      simp only [M, List.map_cons, List.map_nil, sumFn_cons, sumFn_nil, part, contrib, hx, hy, hval]
      simp [exPoint]
      ring
    rw [e2] at this
    exact this
  · rw [hm]
    simp [exMix, r]

/-- C12 is false for point sources together with oversampled regions: evaluating the same parameter vector twice in a row gives two different
images (the second evaluation uses the region's oversampling scale for the main image: at pixel (3, 1) the argument of the PSF is 4 instead of 2). -/
theorem C12_false :
    ∃ m1 m2, runOp (exMix 1) (.eval [fin 1, fin 1, fin 1]) = .ok m1 ∧ runOp m1 (.eval [fin 1, fin 1, fin 1]) = .ok m2 ∧
      m1.modelVec[8]? = some (fin 2) ∧ m2.modelVec[8]? = some (fin 4) := by
  obtain ⟨m1, h1, v1, s1⟩ := exMix_eval 1 (exMix 1) rfl
  obtain ⟨m2, h2, v2, _⟩ := exMix_eval 2 m1 (by rw [s1])
  refine ⟨m1, m2, h1, h2, ?_, ?_⟩
  · rw [v1]; norm_num
  · rw [v2]; norm_num

/-- Example for `C10_sum`: the witness model satisfies the hypotheses of the sum theorem. -/
example : ∃ objs pos m', setupFns [fin 1, fin 1, fin 1] ((exMix 1).fns.zip (exMix 1).starts) ⟨0, 0, 0⟩ = .ok (objs, pos) ∧
    FiniteModel (exMix 1) objs ∧ createModelImage (exMix 1) [fin 1, fin 1, fin 1] = .ok m' := by
  obtain ⟨m1, h1, _⟩ := exMix_eval 1 (exMix 1) rfl
  have hset : setupFns [fin 1, fin 1, fin 1] ((exMix 1).fns.zip (exMix 1).starts) ⟨0, 0, 0⟩ = .ok ([exPoint 1], ⟨3, fin 1, fin 1⟩) := by
    simp [exMix, setupFns, newSet, fnSetup, loopMap, rd, exPoint]
  have hid : ∀ n, LinConv n id := fun n => ⟨id, fun _ _ => rfl, fun _ => rfl⟩
  have hip : FinInterp (some fun x _ => x) := ⟨_, rfl, fun x _ => ⟨x, rfl⟩⟩
  refine ⟨_, _, m1, hset, ⟨?_, ?_, fun _ => hip, ?_, ?_, ?_, ?_, ?_⟩, h1⟩
  · intro o ho hp
    simp only [List.mem_singleton] at ho
    subst ho
    cases hp
  · intro o ho _
    simp only [List.mem_singleton] at ho
    subst ho
    exact ⟨1, [], 1, 1, 1, 1, rfl, rfl, rfl, rfl, rfl⟩
  · intro _ r hr
    simp only [exMix, List.mem_singleton] at hr
    subst hr
    exact hip
  · intro f hf
    cases hf
    exact hid _
  · intro r hr f hf
    simp only [exMix, List.mem_singleton] at hr
    subst hr
    cases hf
    exact hid _
  · intro r hr
    simp only [exMix, List.mem_singleton] at hr
    subst hr
    decide
  · intro r hr
    simp only [exMix, List.mem_singleton] at hr
    subst hr
    rfl

/-- Example for `C12_history_partial`: the witness model without its region, after one evaluation. -/
example : NoMix { exMix 1 with regions := [] } ∧
    ({ exMix 1 with regions := [] } : Img XR).fns.length ≤ ({ exMix 1 with regions := [] } : Img XR).starts.length :=
  ⟨Or.inr rfl, by simp [exMix]⟩

/-- Example for `C12_settled_partial`: a history with one evaluation of the witness model succeeds. -/
example : ∃ m1, runOps [.eval [fin 1, fin 1, fin 1]] (exMix 1) = .ok m1 := by
  obtain ⟨m1, h1, _⟩ := exMix_eval 1 (exMix 1) rfl
  exact ⟨m1, by simp [runOps, runOp, h1]⟩

end Imfit
