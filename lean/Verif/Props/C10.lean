import Verif.Lemmas.Image
import Mathlib.Algebra.BigOperators.Intervals
import Mathlib.Tactic.Linarith

/-!
# C10 — the model image is the sum of its components
-/

namespace Imfit

open XR

/-- An interpolator that gives finite values at finite arguments. -/
def FinInterp (p : Option (Interp XR)) : Prop := ∃ f, p = some f ∧ ∀ x y : ℝ, ∃ r, f (fin x) (fin y) = fin r

/-- Conditions under which exact arithmetic makes sense for the model, at the function objects `objs` set up with a parameter vector:
ordinary functions have finite values, point sources have finite parameters and an interpolator with finite values, convolution
is additive (see C15), regions refer to the main image and have a positive scale. -/
structure FiniteModel (m : Img XR) (objs : List (FnObj XR)) : Prop where
  ord : ∀ o ∈ objs, o.desc.isPoint = false → ∀ x y : ℝ, ∃ r, o.desc.val o.pars o.x0 o.y0 (fin x) (fin y) = fin r
  point : ∀ o ∈ objs, o.desc.isPoint = true → ∃ p t a b c d, o.pars = fin p :: t ∧ o.x0 = fin a ∧ o.y0 = fin b ∧ o.oscale = fin c ∧
    o.iscale = fin d
  inter : (∃ o ∈ objs, o.desc.isPoint = true) → FinInterp m.interp
  rinter : (∃ o ∈ objs, o.desc.isPoint = true) → ∀ r ∈ m.regions, FinInterp r.interp
  lin : LinOpt m.geom.n m.conv
  rlin : ∀ r ∈ m.regions, LinOpt r.geom.n r.conv
  rscale : ∀ r ∈ m.regions, 1 ≤ r.scale
  rmain : ∀ r ∈ m.regions, r.main = m.geom

/-- `setRegion` on one object. -/
noncomputable def setOne (r : Region XR) (o : FnObj XR) : FnObj XR :=
  if o.desc.isPoint then { o with interp := r.interp, oscale := lit (r.scale : ℚ) } else o

theorem setRegion_eq (r : Region XR) (fns : List (FnObj XR)) : setRegion r fns = fns.map (setOne r) := rfl

theorem setOne_desc (r : Region XR) (o : FnObj XR) : (setOne r o).desc = o.desc := by
  unfold setOne; split <;> rfl

theorem setOne_setOne (r r' : Region XR) (o : FnObj XR) : setOne r' (setOne r o) = setOne r' o := by
  unfold setOne
  by_cases h : o.desc.isPoint <;> simp [h]

theorem setOne_ord {r : Region XR} {o : FnObj XR} (h : o.desc.isPoint = false) : setOne r o = o := by simp [setOne, h]

/-- The object has finite values in region `r`. -/
def GoodIn (r : Region XR) (o : FnObj XR) : Prop := ∀ x y : ℝ, FinAt (setOne r o) (fin x) (fin y)

theorem GoodIn.setOne {r r' : Region XR} {o : FnObj XR} (h : GoodIn r' o) : GoodIn r' (setOne r o) := by
  unfold GoodIn
  rw [setOne_setOne]
  exact h

theorem regionX_fin (r : Region XR) (hs : 1 ≤ r.scale) (k : Nat) : ∃ x, regionX r k = fin x := by
  have : (r.scale : ℝ) ≠ 0 := by
    have : r.scale ≠ 0 := by omega
    exact_mod_cast this
  simp [regionX, subpix, fin_div_of_ne this]

theorem regionY_fin (r : Region XR) (hs : 1 ≤ r.scale) (k : Nat) : ∃ y, regionY r k = fin y := by
  have : (r.scale : ℝ) ≠ 0 := by
    have : r.scale ≠ 0 := by omega
    exact_mod_cast this
  simp [regionY, subpix, fin_div_of_ne this]

theorem additive2_sum {D : (Nat → ℝ) → (Nat → ℝ) → (Nat → ℝ)}
    (h : ∀ v w m p, D (fun k => v k + w k) (fun k => m k + p k) = fun k => D v m k + D w p k) (l : List ((Nat → ℝ) × (Nat → ℝ))) :
    D (sumFn (l.map Prod.fst)) (sumFn (l.map Prod.snd)) = sumFn (l.map fun p => D p.1 p.2) := by
  induction l with
  | nil =>
    have h1 := h (fun _ => 0) (fun _ => 0) (fun _ => 0) (fun _ => 0)
    simp only [add_zero] at h1
    funext k
    have := congrFun h1 k
    show D (fun _ => 0) (fun _ => 0) k = 0
    linarith
  | cons v l ih =>
    have e1 : sumFn ((v :: l).map Prod.fst) = fun k => v.1 k + sumFn (l.map Prod.fst) k := by funext k; simp
    have e2 : sumFn ((v :: l).map Prod.snd) = fun k => v.2 k + sumFn (l.map Prod.snd) k := by funext k; simp
    rw [e1, e2, h, ih]
    funext k
    simp

theorem sumFn_add (l : List (FnObj XR)) (f g : FnObj XR → Nat → ℝ) (k : Nat) :
    sumFn (l.map f) k + sumFn (l.map g) k = sumFn (l.map fun o k => f o k + g o k) k := by
  induction l with
  | nil => simp
  | cons o l ih =>
    simp only [List.map_cons, sumFn_cons]
    rw [← ih]
    ring

/-- One region: if it succeeds once, it is additive over the functions. -/
theorem computeRegion_add (r : Region XR) (hs : 1 ≤ r.scale) (hl : LinOpt r.geom.n r.conv)
    (hok : ∃ ps : List (FnObj XR × (Nat → ℝ)), (∀ p ∈ ps, GoodIn r p.1) ∧
      ∃ out, computeRegion r (rtab r.main.n (sumFn (ps.map Prod.snd))) (ps.map Prod.fst) = .ok out) :
    ∃ S : FnObj XR × (Nat → ℝ) → (Nat → ℝ), ∀ ps : List (FnObj XR × (Nat → ℝ)), (∀ p ∈ ps, GoodIn r p.1) →
      computeRegion r (rtab r.main.n (sumFn (ps.map Prod.snd))) (ps.map Prod.fst) =
        .ok (rtab r.main.n (sumFn (ps.map S)), (ps.map Prod.fst).map (setOne r)) := by
  obtain ⟨L, hLa, hL⟩ := applyConv_lin r.geom.n r.conv hl
  have hfin : ∀ ps : List (FnObj XR × (Nat → ℝ)), (∀ p ∈ ps, GoodIn r p.1) →
      computeRegion r (rtab r.main.n (sumFn (ps.map Prod.snd))) (ps.map Prod.fst) =
        (downsample (rtab r.geom.n (sumFn (ps.map fun p k => L (part false (regionX r) (regionY r) p.1) k +
            part true (regionX r) (regionY r) (setOne r p.1) k))) r.geom (rtab r.main.n (sumFn (ps.map Prod.snd))) r.main r.x1 r.y1 r.scale >>=
          fun m => .ok (m, (ps.map Prod.fst).map (setOne r))) := by
    intro ps hg
    unfold computeRegion
    have hf : ∀ o ∈ ps.map Prod.fst, GoodIn r o := by
      intro o ho
      obtain ⟨p, hp, rfl⟩ := List.mem_map.1 ho
      exact hg p hp
    rw [fillImage_eq]
    · simp only [ok_bind, hL, setRegion_eq]
      rw [addPoints_eq]
      · simp only [ok_bind, pure_eq_ok]
        rw [additive_sum hLa]
        have e : (fun k => sumFn (List.map L (List.map (part false (regionX r) (regionY r)) (List.map Prod.fst ps))) k +
            sumFn (List.map (part true (regionX r) (regionY r)) (List.map (setOne r) (List.map Prod.fst ps))) k) =
            sumFn (ps.map fun p k => L (part false (regionX r) (regionY r) p.1) k + part true (regionX r) (regionY r) (setOne r p.1) k) := by
          funext k
          have := sumFn_add (ps.map Prod.fst) (fun o => L (part false (regionX r) (regionY r) o))
            (fun o => part true (regionX r) (regionY r) (setOne r o)) k
          simpa [List.map_map, Function.comp_def] using this
        rw [e]
      · intro o ho _ k _
        obtain ⟨o', ho', rfl⟩ := List.mem_map.1 ho
        obtain ⟨x, hx⟩ := regionX_fin r hs k
        obtain ⟨y, hy⟩ := regionY_fin r hs k
        rw [hx, hy]
        exact hf o' ho' x y
    · intro o ho hp k _
      obtain ⟨x, hx⟩ := regionX_fin r hs k
      obtain ⟨y, hy⟩ := regionY_fin r hs k
      have := hf o ho x y
      rw [setOne_ord hp] at this
      rw [hx, hy]
      exact this
  obtain ⟨ps0, hg0, out, hout⟩ := hok
  rw [hfin ps0 hg0] at hout
  have hd : ∃ v m out, downsample (rtab r.geom.n v) r.geom (rtab r.main.n m) r.main r.x1 r.y1 r.scale = .ok out := by
    refine ⟨sumFn (ps0.map fun p k => L (part false (regionX r) (regionY r) p.1) k + part true (regionX r) (regionY r) (setOne r p.1) k),
      sumFn (ps0.map Prod.snd), ?_⟩
    · cases h : downsample (rtab r.geom.n (sumFn (ps0.map fun p k => L (part false (regionX r) (regionY r) p.1) k +
            part true (regionX r) (regionY r) (setOne r p.1) k))) r.geom (rtab r.main.n (sumFn (ps0.map Prod.snd))) r.main r.x1 r.y1 r.scale with
      | ok o => exact ⟨o, rfl⟩
      | error e => rw [h] at hout; cases hout
  obtain ⟨D, hDa, hD⟩ := downsample_add r.geom r.main r.x1 r.y1 r.scale hs hd
  refine ⟨fun p => D (fun k => L (part false (regionX r) (regionY r) p.1) k + part true (regionX r) (regionY r) (setOne r p.1) k) p.2, ?_⟩
  intro ps hg
  rw [hfin ps hg]
  have hD' := hD (sumFn (ps.map fun p k => L (part false (regionX r) (regionY r) p.1) k + part true (regionX r) (regionY r) (setOne r p.1) k))
    (sumFn (ps.map Prod.snd))
  simp only at hD'
  rw [hD', ok_bind]
  have := additive2_sum hDa (ps.map fun p => (fun k => L (part false (regionX r) (regionY r) p.1) k +
    part true (regionX r) (regionY r) (setOne r p.1) k, p.2))
  simp only [List.map_map, Function.comp_def] at this
  rw [this]

/-- All regions: if they succeed for the whole list, they succeed for every single function and the results add up. -/
theorem computeRegions_add (n : Nat) (rs : List (Region XR)) (hs : ∀ r ∈ rs, 1 ≤ r.scale) (hl : ∀ r ∈ rs, LinOpt r.geom.n r.conv)
    (hm : ∀ r ∈ rs, r.main.n = n) (ps : List (FnObj XR × (Nat → ℝ))) (hg : ∀ p ∈ ps, ∀ r ∈ rs, GoodIn r p.1)
    (out : List XR × List (FnObj XR))
    (hok : computeRegions rs (rtab n (sumFn (ps.map Prod.snd))) (ps.map Prod.fst) = .ok out) :
    ∃ S : FnObj XR × (Nat → ℝ) → (Nat → ℝ), out.1 = rtab n (sumFn (ps.map S)) ∧
      ∀ p ∈ ps, ∃ o', singleRegions rs (rtab n p.2) p.1 = .ok (rtab n (S p), o') := by
  induction rs generalizing ps with
  | nil =>
    simp only [computeRegions, Except.ok.injEq] at hok
    subst hok
    exact ⟨Prod.snd, rfl, fun p _ => ⟨p.1, rfl⟩⟩
  | cons r rs ih =>
    have hmr := hm r (by simp)
    have hgr : ∀ p ∈ ps, GoodIn r p.1 := fun p hp => hg p hp r (by simp)
    simp only [computeRegions] at hok
    cases h1 : computeRegion r (rtab n (sumFn (ps.map Prod.snd))) (ps.map Prod.fst) with
    | error e => rw [h1] at hok; cases hok
    | ok q =>
      rw [h1, ok_bind] at hok
      obtain ⟨S1, hS1⟩ := computeRegion_add r (hs r (by simp)) (hl r (by simp)) ⟨ps, hgr, q, by rw [hmr]; exact h1⟩
      rw [hmr] at hS1
      have hq := hS1 ps hgr
      rw [h1] at hq
      have hq' := Except.ok.inj hq
      subst hq'
      let ps1 : List (FnObj XR × (Nat → ℝ)) := ps.map fun p => (setOne r p.1, S1 p)
      have e1 : ps1.map Prod.snd = ps.map S1 := by simp [ps1, Function.comp_def]
      have e2 : ps1.map Prod.fst = (ps.map Prod.fst).map (setOne r) := by simp [ps1, Function.comp_def]
      obtain ⟨S2, hS2, hS2'⟩ := ih (fun r' hr' => hs r' (by simp [hr'])) (fun r' hr' => hl r' (by simp [hr']))
        (fun r' hr' => hm r' (by simp [hr'])) ps1
        (by
          intro p hp r' hr'
          obtain ⟨p', hp', rfl⟩ := List.mem_map.1 hp
          exact (hg p' hp' r' (by simp [hr'])).setOne)
        (by rw [e1, e2]; exact hok)
      refine ⟨fun p => S2 (setOne r p.1, S1 p), ?_, ?_⟩
      · rw [hS2]
        simp [ps1, Function.comp_def]
      · intro p hp
        have hp1 := hS1 [p] (by intro p' hp'; simp only [List.mem_singleton] at hp'; subst hp'; exact hgr _ hp)
        have e3 : sumFn ([p].map Prod.snd) = p.2 := by funext k; simp
        have e4 : sumFn ([p].map S1) = S1 p := by funext k; simp
        rw [e3, e4] at hp1
        obtain ⟨o', ho'⟩ := hS2' (setOne r p.1, S1 p) (List.mem_map.2 ⟨p, hp, rfl⟩)
        refine ⟨o', ?_⟩
        simp only [List.map_cons, List.map_nil] at hp1
        simp only [singleRegions, hp1, ok_bind]
        exact ho'

theorem setupFns_desc (params : List XR) (l : List (FnObj XR × Bool)) (p : SetupPos XR) (r : List (FnObj XR) × SetupPos XR)
    (h : setupFns params l p = .ok r) : r.1.map FnObj.desc = l.map fun q => q.1.desc := by
  induction l generalizing p r with
  | nil => simp only [setupFns, Except.ok.injEq] at h; subst h; rfl
  | cons q rest ih =>
    obtain ⟨o, st⟩ := q
    simp only [setupFns] at h
    cases h1 : newSet params p st with
    | error e => rw [h1] at h; cases h
    | ok p1 =>
      rw [h1, ok_bind] at h
      cases h2 : fnSetup o params p1.offset p1.x0 p1.y0 with
      | error e => rw [h2] at h; cases h
      | ok o1 =>
        rw [h2, ok_bind] at h
        cases h3 : setupFns params rest { p1 with offset := p1.offset + o.desc.nParams } with
        | error e => rw [h3] at h; cases h
        | ok r1 =>
          rw [h3, ok_bind] at h
          have h' := Except.ok.inj h
          subst h'
          have hd : o1.desc = o.desc := by
            unfold fnSetup at h2
            cases h4 : loopMap o.desc.nParams (fun k => rd params (p1.offset + k)) with
            | error e => rw [h4] at h2; cases h2
            | ok l => rw [h4, ok_bind] at h2; have := Except.ok.inj h2; subst this; rfl
          simp [hd, ih _ _ h3]

theorem mainX_fin (g : Geom) (k : Nat) : ∃ x, (mainX g k : XR) = fin x := by simp [mainX]
theorem mainY_fin (g : Geom) (k : Nat) : ∃ y, (mainY g k : XR) = fin y := by simp [mainY]

theorem resetInterp_desc (p : Option (Interp XR)) (o : FnObj XR) : (resetInterp p o).desc = o.desc := by
  unfold resetInterp; split <;> rfl

theorem resetInterp_ord {p : Option (Interp XR)} {o : FnObj XR} (h : o.desc.isPoint = false) : resetInterp p o = o := by
  simp [resetInterp, h]

theorem setOne_resetInterp (p : Option (Interp XR)) (r : Region XR) (o : FnObj XR) : setOne r (resetInterp p o) = setOne r o := by
  unfold setOne resetInterp
  by_cases h : o.desc.isPoint <;> simp [h]

/-- A point source with an interpolator and finite members has finite values. -/
theorem point_fin {o : FnObj XR} (hp : o.desc.isPoint = true) (hi : FinInterp o.interp)
    (h : ∃ p t a b c d, o.pars = fin p :: t ∧ o.x0 = fin a ∧ o.y0 = fin b ∧ o.oscale = fin c ∧ o.iscale = fin d) (x y : ℝ) :
    FinAt o (fin x) (fin y) := by
  obtain ⟨p, t, a, b, c, d, h1, h2, h3, h4, h5⟩ := h
  obtain ⟨f, hf, hff⟩ := hi
  obtain ⟨v, hv⟩ := hff (c * (x - a)) (c * (y - b))
  refine ⟨p * d * v, ?_⟩
  have hr : rd (fin p :: t) 0 = .ok (fin p) := rfl
  simp [fnValue, hp, hf, h1, h2, h3, h4, h5, hv, hr]

/-- C10. For every model (any number of ordinary functions, point sources, function sets, oversampled regions; with or without
convolution) and every parameter vector for which the model image is computed: each single-function image is computed too, and the model
image is their pixelwise sum over all functions (exact arithmetic, the Kahan compensation included on the left side only). The images
are evaluated from the same state `m`; that the state does not matter is C12. -/
theorem C10_sum (m m' : Img XR) (params : List XR) (objs : List (FnObj XR)) (pos : SetupPos XR)
    (hset : setupFns params (m.fns.zip m.starts) ⟨0, 0, 0⟩ = .ok (objs, pos)) (hst : m.fns.length ≤ m.starts.length)
    (hpar : ∀ p ∈ params, isfin p = true) (hfin : FiniteModel m objs)
    (hok : createModelImage m params = .ok m') :
    ∃ F : Nat → Nat → ℝ,
      (∀ idx, idx < m.fns.length → ∃ mi, singleFunctionImage m params idx = .ok mi ∧ mi.modelVec = tab m.geom.n fun k => fin (F idx k)) ∧
      m'.modelVec = tab m.geom.n fun k => fin (∑ idx ∈ Finset.range m.fns.length, F idx k) := by
  have hdesc := setupFns_desc _ _ _ _ hset
  simp only at hdesc
  have hlen : objs.length = m.fns.length := by
    have := congrArg List.length hdesc
    simp only [List.length_map, List.length_zip] at this
    omega
  have hdesc2 : objs.map FnObj.desc = m.fns.map FnObj.desc := by
    rw [hdesc]
    have : (m.fns.zip m.starts).map (fun q => q.1.desc) = ((m.fns.zip m.starts).map Prod.fst).map FnObj.desc := by
      simp [Function.comp_def]
    rw [this, List.map_fst_zip hst]
  have hpoints : m.points = objs.any fun o => o.desc.isPoint := by
    have e1 : m.points = (m.fns.map FnObj.desc).any (fun d => d.isPoint) := by simp [Img.points, List.any_map, Function.comp_def]
    rw [e1, ← hdesc2]
    simp [List.any_map, Function.comp_def]
  obtain ⟨L, hLa, hL⟩ := applyConv_lin m.geom.n m.conv hfin.lin
  let X : Nat → XR := mainX m.geom
  let Y : Nat → XR := mainY m.geom
  let R := resetInterp m.interp
  have hRfin : ∀ o ∈ objs, ∀ x y : ℝ, FinAt (R o) (fin x) (fin y) := by
    intro o ho x y
    cases hp : o.desc.isPoint with
    | false =>
      simp only [R]
      rw [resetInterp_ord hp]
      obtain ⟨r, hr⟩ := hfin.ord o ho hp x y
      exact ⟨r, by simp [fnValue, hp, hr]⟩
    | true =>
      apply point_fin
      · simp only [R]; rw [resetInterp_desc]; exact hp
      · simpa [R, resetInterp, hp] using hfin.inter ⟨o, ho, hp⟩
      · simpa [R, resetInterp, hp] using hfin.point o ho hp
  have hGood : ∀ o ∈ objs, ∀ r ∈ m.regions, GoodIn r (R o) := by
    intro o ho r hr x y
    simp only [R]
    rw [setOne_resetInterp]
    cases hp : o.desc.isPoint with
    | false =>
      rw [setOne_ord hp]
      obtain ⟨r, hr⟩ := hfin.ord o ho hp x y
      exact ⟨r, by simp [fnValue, hp, hr]⟩
    | true =>
      apply point_fin
      · rw [setOne_desc]; exact hp
      · simpa [setOne, hp] using hfin.rinter ⟨o, ho, hp⟩ r hr
      · obtain ⟨p, t, a, b, c, d, h1, h2, h3, h4, h5⟩ := hfin.point o ho hp
        exact ⟨p, t, a, b, (r.scale : ℝ), d, by simp [setOne, hp, h1, h2, h3, h5]⟩
  -- main image of one function
  let M : FnObj XR → Nat → ℝ := fun o k => L (part false X Y o) k + part true X Y (R o) k
  have hpt : pointStep m objs (rtab m.geom.n (sumFn (objs.map fun o => L (part false X Y o)))) =
      .ok (rtab m.geom.n (sumFn (objs.map M)), objs.map R) := by
    have e : sumFn (objs.map M) = fun k => sumFn (objs.map fun o => L (part false X Y o)) k + sumFn ((objs.map R).map (part true X Y)) k := by
      funext k
      have := sumFn_add objs (fun o => L (part false X Y o)) (fun o => part true X Y (R o)) k
      simpa [List.map_map, Function.comp_def, M] using this.symm
    unfold pointStep
    cases hpp : m.points with
    | true =>
      rw [if_pos rfl]
      have hs : setInterp m.interp objs = objs.map R := rfl
      rw [hs, addPoints_eq]
      · rw [ok_bind, pure_eq_ok, e]
      · intro o ho _ k _
        obtain ⟨o', ho', rfl⟩ := List.mem_map.1 ho
        obtain ⟨x, hx⟩ := mainX_fin m.geom k
        obtain ⟨y, hy⟩ := mainY_fin m.geom k
        rw [hx, hy]
        exact hRfin o' ho' x y
    | false =>
      rw [if_neg (by simp)]
      have hno : ∀ o ∈ objs, o.desc.isPoint = false := by
        intro o ho
        by_contra hc
        have : m.points = true := by
          rw [hpoints, List.any_eq_true]
          exact ⟨o, ho, by simpa using hc⟩
        rw [hpp] at this
        cases this
      have hR : objs.map R = objs := by
        conv_rhs => rw [← List.map_id objs]
        exact List.map_congr_left fun o ho => resetInterp_ord (hno o ho)
      have hz : sumFn (objs.map (part true X Y)) = fun _ => 0 := by
        funext k
        have : ∀ l : List (FnObj XR), (∀ o ∈ l, o.desc.isPoint = false) → sumFn (l.map (part true X Y)) k = 0 := by
          intro l hl
          induction l with
          | nil => rfl
          | cons o l ih =>
            simp only [List.map_cons, sumFn_cons]
            rw [ih fun o' ho' => hl o' (by simp [ho'])]
            simp [part, contrib, hl o (by simp)]
        exact this objs hno
      rw [e, hR, hz]
      simp
  have hmain : createModelImage m params = (computeRegions m.regions (rtab m.geom.n (sumFn (objs.map M))) (objs.map R) >>= fun q =>
      .ok { m with fns := q.2, modelVec := q.1, computed := true }) := by
    unfold createModelImage
    rw [hset, ok_bind, fillImage_eq]
    · simp only [ok_bind, hL]
      rw [additive_sum hLa]
      simp only [List.map_map, Function.comp_def]
      rw [hpt]
      rfl
    · intro o ho hp k _
      obtain ⟨x, hx⟩ := mainX_fin m.geom k
      obtain ⟨y, hy⟩ := mainY_fin m.geom k
      have := hRfin o ho x y
      simp only [R] at this
      rw [resetInterp_ord hp] at this
      rw [hx, hy]
      exact this
  rw [hmain] at hok
  let ps : List (FnObj XR × (Nat → ℝ)) := objs.map fun o => (R o, M o)
  have e1 : ps.map Prod.snd = objs.map M := by simp [ps, Function.comp_def]
  have e2 : ps.map Prod.fst = objs.map R := by simp [ps, Function.comp_def]
  cases hreg : computeRegions m.regions (rtab m.geom.n (sumFn (objs.map M))) (objs.map R) with
  | error e => rw [hreg] at hok; cases hok
  | ok out =>
    rw [hreg, ok_bind] at hok
    have hm' := Except.ok.inj hok
    obtain ⟨S, hS, hS'⟩ := computeRegions_add m.geom.n m.regions hfin.rscale hfin.rlin (fun r hr => by rw [hfin.rmain r hr]) ps
      (by
        intro p hp r hr
        obtain ⟨o, ho, rfl⟩ := List.mem_map.1 hp
        exact hGood o ho r hr) out (by rw [e1, e2]; exact hreg)
    refine ⟨fun idx k => if h : idx < objs.length then S (R objs[idx], M objs[idx]) k else 0, ?_, ?_⟩
    · intro idx hidx
      have hio : idx < objs.length := by omega
      have hmem : objs[idx] ∈ objs := List.getElem_mem hio
      obtain ⟨o', ho'⟩ := hS' (R objs[idx], M objs[idx]) (List.mem_map.2 ⟨_, hmem, rfl⟩)
      have hc : checkParams params = true := by
        unfold checkParams
        exact List.all_eq_true.2 hpar
      have hrd : rd objs idx = .ok objs[idx] := rd_ok hio
      have hv1 : loopMap m.geom.n (fun k => fnValue (R objs[idx]) (mainX m.geom k) (mainY m.geom k)) =
          .ok (rtab m.geom.n fun k => valR (R objs[idx]) (X k) (Y k)) := by
        rw [loopMap_ok m.geom.n _ (fun k => fin (valR (R objs[idx]) (X k) (Y k)))]
        · rfl
        · intro k _
          obtain ⟨x, hx⟩ := mainX_fin m.geom k
          obtain ⟨y, hy⟩ := mainY_fin m.geom k
          have := (hRfin objs[idx] hmem x y).eq
          simp only [X, Y]
          rw [hx, hy]
          exact this
      have hv2 : singleConv m (R objs[idx]) (rtab m.geom.n fun k => valR (R objs[idx]) (X k) (Y k)) = rtab m.geom.n (M objs[idx]) := by
        unfold singleConv
        have hd : (R objs[idx]).desc = objs[idx].desc := resetInterp_desc _ _
        cases hp : objs[idx].desc.isPoint with
        | true =>
          rw [if_pos (by rw [hd]; exact hp)]
          have z : part false X Y objs[idx] = fun _ => 0 := by funext k; simp [part, contrib, hp]
          congr 1
          funext k
          simp only [M, z, additive_zero hLa]
          simp [part, contrib, hd, hp]
        | false =>
          rw [if_neg (by rw [hd, hp]; simp), hL]
          congr 1
          have z : part false X Y objs[idx] = fun k => valR (R objs[idx]) (X k) (Y k) := by
            funext k
            simp only [R]
            rw [resetInterp_ord hp]
            simp [part, contrib, hp]
          funext k
          simp only [M, z]
          simp [part, contrib, hd, hp]
      have hsing : singleFunctionImage m params idx = .ok { m with fns := objs.set idx o', modelVec := rtab m.geom.n (S (R objs[idx], M objs[idx])) } := by
        unfold singleFunctionImage
        rw [if_pos hc, hset, ok_bind]
        simp only [hrd, ok_bind]
        have hv1' := hv1
        simp only [R] at hv1'
        rw [hv1', ok_bind]
        have hv2' := hv2
        simp only [R] at hv2'
        rw [hv2']
        have ho'' := ho'
        simp only [R] at ho''
        rw [ho'', ok_bind]
        rfl
      rw [hsing]
      refine ⟨_, rfl, ?_⟩
      show rtab m.geom.n (S (R objs[idx], M objs[idx])) = _
      simp only [hio, dif_pos]
      rfl
    · rw [← hm']
      show out.1 = _
      rw [hS]
      apply tab_congr
      intro k _
      congr 1
      simp only [ps, List.map_map, Function.comp_def, sumFn]
      rw [← hlen]
      have : ∀ l : List (FnObj XR), (l.map fun o => S (R o, M o) k).sum =
          ∑ idx ∈ Finset.range l.length, (if h : idx < l.length then S (R l[idx], M l[idx]) k else 0) := by
        intro l
        rw [Finset.sum_range]
        simp only [Fin.is_lt, dif_pos]
        rw [← List.sum_ofFn]
        congr 1
        apply List.ext_getElem
        · simp
        · intro i h1 h2
          simp
      exact this objs

/-- The compensated summation itself: in exact arithmetic the sum is the plain sum and the stored error is 0, for any list of finite values. -/
theorem C10_kahan (vs : List ℝ) : (vs.map fin).foldl kahanAdd ⟨fin 0, fin 0⟩ = ⟨fin vs.sum, fin 0⟩ := by
  have : ∀ s : ℝ, (vs.map fin).foldl kahanAdd ⟨fin s, fin 0⟩ = ⟨fin (s + vs.sum), fin 0⟩ := by
    induction vs with
    | nil => simp
    | cons v vs ih =>
      intro s
      simp only [List.map_cons, List.foldl_cons, List.sum_cons]
      have : kahanAdd ⟨fin s, fin 0⟩ (fin v) = ⟨fin (s + v), fin 0⟩ := by simp [kahanAdd]
      rw [this, ih, add_assoc]
  simpa using this 0

end Imfit
