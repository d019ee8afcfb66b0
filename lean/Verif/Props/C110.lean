import Verif.Props.C12
import Verif.Props.C108

/-!
# C110 — The images of the functions add up to the image of the model
-/

namespace Imfit

open Spec XR

variable {α : Type}

namespace Spec

/-- The model image belongs to a data image of `cols` × `rows` pixels: it has margins of the size of the PSF if there is convolution. -/
structure Fits (m : Img α) (cols rows : Nat) : Prop where
  pos : 1 ≤ cols
  pad : m.conv.isSome = true → m.geom.cols = cols + 2 * m.geom.psfCols ∧ m.geom.rows = rows + 2 * m.geom.psfRows
  bare : m.conv = none → m.geom.cols = cols ∧ m.geom.rows = rows ∧ m.geom.psfCols = 0 ∧ m.geom.psfRows = 0

/-- The position in the model image of the pixel in row `i` and column `j` of the data image. -/
def insideAt (m : Img α) (i j : Nat) : Nat := m.geom.cols * (m.geom.psfRows + i) + (m.geom.psfCols + j)

end Spec

theorem tab_get {β : Type} (n : Nat) (g : Nat → β) (k : Nat) (h : k < n) : rd (tab n g) k = .ok (g k) := by
  rw [rd_ok (by rw [tab_length]; exact h)]
  simp [tab]

theorem inside_lt (m : Img α) (cols rows : Nat) (h : Fits m cols rows) (z : Nat) (hz : z < cols * rows) : insideAt m (z / cols) (z % cols) < m.geom.n := by
  have h1 : z / cols < rows := Nat.div_lt_of_lt_mul hz
  have h2 : z % cols < cols := Nat.mod_lt _ h.pos
  unfold insideAt Geom.n
  obtain ⟨e1, e2⟩ : m.geom.cols = cols + 2 * m.geom.psfCols ∧ m.geom.rows = rows + 2 * m.geom.psfRows := by
    cases hc : m.conv with
    | some f => exact h.pad (by simp [hc])
    | none => obtain ⟨a, b, c, d⟩ := h.bare hc; omega
  calc m.geom.cols * (m.geom.psfRows + z / cols) + (m.geom.psfCols + z % cols)
      < m.geom.cols * (m.geom.psfRows + z / cols) + m.geom.cols := by omega
    _ = m.geom.cols * (m.geom.psfRows + z / cols + 1) := by ring
    _ ≤ m.geom.cols * m.geom.rows := Nat.mul_le_mul_left _ (by omega)

/-- The part that is cut out. -/
theorem cutOut_eq (m m1 : Img α) (cols rows : Nat) (h : Fits m cols rows) (h1 : m1.geom = m.geom) (h2 : m1.conv = m.conv) (f : Nat → α) (hv : m1.modelVec = tab m.geom.n f) :
    cutOut m1 cols rows = .ok (tab (cols * rows) fun z => f (insideAt m (z / cols) (z % cols))) := by
  unfold cutOut
  rw [h2]
  cases hc : m.conv with
  | some g =>
    rw [Option.isSome_some, if_pos rfl, loopMap_ok _ _ fun z => f (insideAt m (z / cols) (z % cols))]
    · rfl
    · intro z hz
      rw [hv, h1]
      have e : m.geom.cols * (m.geom.psfRows + z / cols) + m.geom.psfCols + (z - z / cols * cols) = insideAt m (z / cols) (z % cols) := by
        have := Nat.div_add_mod z cols
        have h3 : z / cols * cols = cols * (z / cols) := Nat.mul_comm _ _
        unfold insideAt
        omega
      rw [e, tab_get _ _ _ (inside_lt m cols rows h z hz)]
  | none =>
    obtain ⟨a, b, c, d⟩ := h.bare hc
    rw [Option.isSome_none, if_neg (by decide), hv]
    congr 1
    unfold tab Geom.n
    rw [a, b]
    refine List.map_congr_left fun z hz => ?_
    unfold insideAt
    rw [a, c, d]
    congr 1
    have := Nat.div_add_mod z cols
    simp only [Nat.zero_add]
    omega

theorem imageOf_ok {r : Res (Img α)} {v : List α} (h : imageOf r = .ok v) : ∃ m, r = .ok m ∧ m.modelVec = v := by
  cases r with
  | error e => cases h
  | ok m => exact ⟨m, rfl, by injection h⟩

/-- The images of the functions, whatever the state is. -/
theorem functionPictures_eq (m : Img XR) (hst : m.fns.length ≤ m.starts.length) (hmix : NoMix m) (params : List XR) (cols rows : Nat) (hg : Fits m cols rows)
    (F : Nat → Nat → ℝ) (hF : ∀ idx, idx < m.fns.length → ∃ mi, singleFunctionImage m params idx = .ok mi ∧ mi.modelVec = tab m.geom.n fun k => fin (F idx k))
    (root : Str) (names : List Str) (i : Nat) (hi : i + names.length ≤ m.fns.length) (m1 : Img XR) (hs : SimImg m m1) :
    functionPictures root cols rows params names i m1 = .ok ((List.range names.length).map fun j =>
      ⟨functionFile root (i + j) (names.getD j []), cols, rows, tab (cols * rows) fun z => fin (F (i + j) (insideAt m (z / cols) (z % cols)))⟩) := by
  induction names generalizing i m1 with
  | nil => rfl
  | cons name names ih =>
    simp only [List.length_cons] at hi
    obtain ⟨mi, e1, e2⟩ := hF i (by omega)
    have hsim := singleFunctionImage_sim hs params i
    rw [e1] at hsim
    obtain ⟨m2, e3, e4⟩ := imageOf_ok (hsim.symm.trans (show imageOf (.ok mi) = .ok mi.modelVec from rfl))
    have hst1 : m1.fns.length ≤ m1.starts.length := by rw [← hs.fns.length_eq, ← hs.starts]; exact hst
    have hs2 : SimImg m m2 := hs.trans (runOp_sim m1 m2 (.single params i) hst1 (hs.noMix hmix) e3)
    rw [functionPictures, e3, ok_bind, cutOut_eq m m2 cols rows hg hs2.geom.symm hs2.conv.symm _ (e4.trans e2), ok_bind, ih (i + 1) (by omega) m2 hs2, ok_bind]
    congr 1
    rw [List.length_cons, List.range_succ_eq_map, List.map_cons, List.map_map]
    congr 1
    refine List.map_congr_left fun j _ => ?_
    simp only [Function.comp_apply, List.getD_cons_succ, Nat.succ_eq_add_one, show i + 1 + j = i + (j + 1) by omega]

/-- `makeimage --output-functions`: one image for the model and one for each function, in their order and of the size of the model; at every pixel the values of the functions add up to
that of the model (exact arithmetic). Missing: point sources together with oversampled regions (`C110_false`). -/
theorem C110_sum_partial (o : MakeOpts XR) (hsave : o.saveImage = true) (hexp : o.saveExpanded = false) (root : Str) (hroot : o.functionRoot = some root) (m m' : Img XR)
    (cols rows : Nat) (hg : Fits m cols rows) (names : List Str) (hn : names.length = m.fns.length) (params : List XR) (objs : List (FnObj XR)) (pos : SetupPos XR)
    (hset : setupFns params (m.fns.zip m.starts) ⟨0, 0, 0⟩ = .ok (objs, pos)) (hst : m.fns.length ≤ m.starts.length) (hmix : NoMix m)
    (hpar : ∀ p ∈ params, isfin p = true) (hfin : FiniteModel m objs) (hok : createModelImage m params = .ok m') :
    ∃ G : Nat → Nat → ℝ,
      makePictures o cols rows names params m = .ok (⟨o.output, cols, rows, tab (cols * rows) fun z => fin (∑ i ∈ Finset.range m.fns.length, G i z)⟩ ::
        (List.range names.length).map fun i => ⟨functionFile root i (names.getD i []), cols, rows, tab (cols * rows) fun z => fin (G i z)⟩) := by
  obtain ⟨F, h1, h2⟩ := C10_sum m m' params objs pos hset hst hpar hfin hok
  have hs : SimImg m m' := runOp_sim m m' (.eval params) hst hmix hok
  refine ⟨fun i z => F i (insideAt m (z / cols) (z % cols)), ?_⟩
  have hfl : fluxesOnly o = false := by simp [fluxesOnly, hsave]
  rw [makePictures, hfl, if_neg (by decide), hok, ok_bind, mainPictures, hsave, if_pos rfl, cutOut_eq m m' cols rows hg hs.geom.symm hs.conv.symm _ h2, ok_bind, hexp,
    if_neg (by decide), ok_bind, hroot]
  simp only
  rw [functionPictures_eq m hst hmix params cols rows hg F h1 root names 0 (by omega) m' hs, ok_bind]
  simp only [Nat.zero_add, List.singleton_append]

/-- Without PSF and oversampled regions, the image of a function shows its values at the centres of the pixels, whose coordinates count from 1. Any arithmetic. -/
theorem C110_values [FP α] (m : Img α) (cols rows : Nat) (hg : Fits m cols rows) (hc : m.conv = none) (hr : m.regions = []) (params : List α)
    (hpar : ∀ p ∈ params, isfin p = true) (objs : List (FnObj α)) (pos : SetupPos α) (hset : setupFns params (m.fns.zip m.starts) ⟨0, 0, 0⟩ = .ok (objs, pos))
    (i : Nat) (hi : i < objs.length) (hord : objs[i].desc.isPoint = false) :
    (singleFunctionImage m params i >>= fun m1 => cutOut m1 cols rows) = .ok (tab (cols * rows) fun z =>
      objs[i].desc.val objs[i].pars objs[i].x0 objs[i].y0 (lit ((z % cols : Nat) + 1 : ℚ)) (lit ((z / cols : Nat) + 1 : ℚ))) := by
  have hck : checkParams params = true := List.all_eq_true.2 hpar
  obtain ⟨a, b, c, d⟩ := hg.bare hc
  have hri : resetInterp m.interp objs[i] = objs[i] := by rw [resetInterp, hord]; rfl
  have hv : loopMap m.geom.n (fun k => fnValue objs[i] (mainX m.geom k) (mainY m.geom k)) = .ok (tab m.geom.n fun k =>
      objs[i].desc.val objs[i].pars objs[i].x0 objs[i].y0 (mainX m.geom k) (mainY m.geom k)) := by
    rw [loopMap_ok _ _ fun k => objs[i].desc.val objs[i].pars objs[i].x0 objs[i].y0 (mainX m.geom k) (mainY m.geom k)]
    · rfl
    · intro k _
      rw [fnValue, hord]
      rfl
  rw [singleFunctionImage, if_pos hck, hset, ok_bind]
  simp only [rd_ok hi, ok_bind, hri, hv, singleConv, hord, hc, hr, applyConv, singleRegions, Bool.false_eq_true, if_false, pure_eq_ok]
  refine (cutOut_eq m _ cols rows hg ?_ ?_ (fun k => objs[i].desc.val objs[i].pars objs[i].x0 objs[i].y0 (mainX m.geom k) (mainY m.geom k)) ?_).trans ?_
  · rfl
  · exact hc.symm
  · rfl
  congr 1
  unfold tab
  refine List.map_congr_left fun z hz => ?_
  have hz' : z < cols * rows := List.mem_range.1 hz
  have e : insideAt m (z / cols) (z % cols) = z := by
    unfold insideAt
    rw [a, c, d]
    have := Nat.div_add_mod z cols
    simp only [Nat.zero_add]
    omega
  simp only [mainX, mainY, e, a, c, d]
  congr 2 <;> rw [Nat.cast_zero, sub_zero] <;> push_cast <;> rfl

theorem digits_end (a b : List Char) (ha : ∀ c ∈ a, c.isDigit = true) (hb : ∀ c ∈ b, c.isDigit = true) (s t : List Char) (h : a ++ '_' :: s = b ++ '_' :: t) : a = b := by
  induction a generalizing b with
  | nil =>
    cases b with
    | nil => rfl
    | cons c b =>
      injection h with h1 h2
      have := hb c (by simp)
      rw [← h1] at this
      exact absurd this (by decide)
  | cons c a ih =>
    cases b with
    | nil =>
      injection h with h1 h2
      have := ha c (by simp)
      rw [h1] at this
      exact absurd this (by decide)
    | cons d b =>
      injection h with h1 h2
      rw [h1, ih b (fun c hc => ha c (by simp [hc])) (fun c hc => hb c (by simp [hc])) h2]

/-- No image of a function is written over that of another one. -/
theorem C110_names (root : Str) (i j : Nat) (a b : Str) (h : functionFile root i a = functionFile root j b) : i = j := by
  unfold functionFile at h
  simp only [List.append_assoc, List.append_cancel_left_eq] at h
  have := digits_end _ _ (repr_digit (i + 1)) (repr_digit (j + 1)) (a ++ ".fits".toList) (b ++ ".fits".toList) h
  have h2 := congrArg wholeVal this
  rw [wholeVal_repr, wholeVal_repr] at h2
  omega

/-! ## Where the code differs -/

theorem exMix_finite (c : ℝ) (m : Img XR) (hm : m = { exMix c with modelVec := m.modelVec, computed := m.computed }) :
    setupFns [fin 1, fin 1, fin 1] (m.fns.zip m.starts) ⟨0, 0, 0⟩ = .ok ([exPoint c], ⟨3, fin 1, fin 1⟩) ∧ FiniteModel m [exPoint c] := by
  have hset : setupFns [fin 1, fin 1, fin 1] (m.fns.zip m.starts) ⟨0, 0, 0⟩ = .ok ([exPoint c], ⟨3, fin 1, fin 1⟩) := by
    rw [hm]
    simp [exMix, setupFns, newSet, fnSetup, loopMap, rd, exPoint]
  have hid : ∀ n, LinConv n id := fun n => ⟨id, fun _ _ => rfl, fun _ => rfl⟩
  have hip : FinInterp (some fun x _ => x) := ⟨_, rfl, fun x _ => ⟨x, rfl⟩⟩
  have hregs : m.regions = [⟨1, 1, ⟨6, 6, 1, 1⟩, 2, some id, some fun x _ => x, ⟨5, 4, 1, 1⟩⟩] := by rw [hm]; rfl
  have hconv : m.conv = some id := by rw [hm]; rfl
  have hint : m.interp = some fun x _ => x := by rw [hm]; rfl
  have hgeom : m.geom = ⟨5, 4, 1, 1⟩ := by rw [hm]; rfl
  refine ⟨hset, ?_, ?_, fun _ => hint ▸ hip, ?_, ?_, ?_, ?_, ?_⟩
  · intro o ho hp
    simp only [List.mem_singleton] at ho
    subst ho
    cases hp
  · intro o ho _
    simp only [List.mem_singleton] at ho
    subst ho
    exact ⟨1, [], 1, 1, c, 1, rfl, rfl, rfl, rfl, rfl⟩
  · intro _ r hr
    rw [hregs, List.mem_singleton] at hr
    subst hr
    exact hip
  · intro f hf
    rw [hconv] at hf
    cases hf
    exact hid _
  · intro r hr f hf
    rw [hregs, List.mem_singleton] at hr
    subst hr
    cases hf
    exact hid _
  · intro r hr
    rw [hregs, List.mem_singleton] at hr
    subst hr
    decide
  · intro r hr
    rw [hregs, List.mem_singleton] at hr
    subst hr
    exact hgeom.symm

/-- A point source and an oversampled region: the image of the only function is not the image of the model. In the third pixel it is twice as bright, since the oversampling of the region is still
set in the point source when its own image is made. -/
theorem C110_false (o : MakeOpts XR) (hsave : o.saveImage = true) (hexp : o.saveExpanded = false) (root : Str) (hroot : o.functionRoot = some root) :
    ∃ a b, makePictures o 3 2 ["PointSource".toList] [fin 1, fin 1, fin 1] (exMix 1) = .ok [a, b] ∧ a.pixels[2]? = some (fin 2) ∧ b.pixels[2]? = some (fin 4) := by
  obtain ⟨m1, h1, v1, s1⟩ := exMix_eval 1 (exMix 1) rfl
  obtain ⟨m2, h2, v2, _⟩ := exMix_eval 2 m1 (by rw [s1])
  have hpar : ∀ p ∈ [fin 1, fin 1, (fin 1 : XR)], isfin p = true := by simp
  obtain ⟨e1, f1⟩ := exMix_finite 1 (exMix 1) rfl
  obtain ⟨e2, f2⟩ := exMix_finite 2 m1 (by rw [s1])
  have l1 : m1.fns.length = 1 := by rw [s1]; rfl
  have hgeom1 : m1.geom = ⟨5, 4, 1, 1⟩ := by rw [s1]; rfl
  have hconv1 : m1.conv = some id := by rw [s1]; rfl
  have hst1 : m1.fns.length ≤ m1.starts.length := by rw [s1]; exact Nat.le_refl 1
  obtain ⟨F1, -, g1⟩ := C10_sum (exMix 1) m1 _ _ _ e1 (by decide) hpar f1 h1
  obtain ⟨F2, k2, g2⟩ := C10_sum m1 m2 _ _ _ e2 hst1 hpar f2 h2
  obtain ⟨m3, k3, g3⟩ := k2 0 (by omega)
  have hg : Fits (exMix 1) 3 2 := ⟨by decide, fun _ => ⟨rfl, rfl⟩, fun h => by cases h⟩
  have hg1 : Fits m1 3 2 := ⟨by decide, fun _ => by rw [hgeom1]; exact ⟨rfl, rfl⟩, fun h => by rw [hconv1] at h; cases h⟩
  obtain ⟨hgeom3, hconv3⟩ : m3.geom = m1.geom ∧ m3.conv = m1.conv := by
    have hrun := (runOp_sim2 m1 m3 (.single [fin 1, fin 1, fin 1] 0) hst1 [] ⟨1, 1, ⟨6, 6, 1, 1⟩, 2, some id, some fun x _ => x, ⟨5, 4, 1, 1⟩⟩ (by rw [s1]; rfl) k3).1
    exact ⟨hrun.geom.symm, hrun.conv.symm⟩
  have c1 := cutOut_eq (exMix 1) m1 3 2 hg hgeom1 hconv1 _ g1
  have c3 := cutOut_eq m1 m3 3 2 hg1 hgeom3 hconv3 _ g3
  have hfl : fluxesOnly o = false := by simp [fluxesOnly, hsave]
  refine ⟨⟨o.output, 3, 2, tab (3 * 2) fun z => fin (∑ idx ∈ Finset.range (exMix 1).fns.length, F1 idx (insideAt (exMix 1) (z / 3) (z % 3)))⟩,
    ⟨functionFile root 0 "PointSource".toList, 3, 2, tab (3 * 2) fun z => fin (F2 0 (insideAt m1 (z / 3) (z % 3)))⟩, ?_, ?_, ?_⟩
  · rw [makePictures, hfl, if_neg (by decide), h1, ok_bind, mainPictures, hsave, if_pos rfl, c1, ok_bind, hexp, if_neg (by decide), ok_bind, hroot]
    simp only
    rw [functionPictures, k3, ok_bind, c3, ok_bind, functionPictures, ok_bind, ok_bind]
    rfl
  · have : m1.modelVec[8]? = some (fin (∑ idx ∈ Finset.range (exMix 1).fns.length, F1 idx 8)) := by rw [g1]; rfl
    rw [v1] at this
    show some (fin (∑ idx ∈ Finset.range (exMix 1).fns.length, F1 idx 8)) = _
    rw [← this]
    norm_num
  · have : m2.modelVec[8]? = some (fin (∑ idx ∈ Finset.range m1.fns.length, F2 idx 8)) := by rw [g2, hgeom1]; rfl
    rw [v2, l1, Finset.sum_range_one] at this
    show some (fin (F2 0 (insideAt m1 0 2))) = _
    have h8 : insideAt m1 0 2 = 8 := by rw [insideAt, hgeom1]; rfl
    rw [h8, ← this]
    norm_num

/-- `--save-expanded` without a PSF: the size of the margins is never set. -/
theorem C110_expanded_false (o : MakeOpts α) (hs : o.saveImage = true) (he : o.saveExpanded = true) (hp : o.psf = none) (cols rows : Nat) (m : Img α) (v : List α)
    (hv : cutOut m cols rows = .ok v) : mainPictures o cols rows m = .error .uninit := by
  rw [mainPictures, hs, if_pos rfl, hv, ok_bind, he, if_pos rfl, hp]
  rfl

/-- A model with two constant functions, without PSF. -/
noncomputable def exTwoFns : Img XR :=
  { fns := [⟨⟨1, false, fun ps _ _ _ _ => ps.headD (fin 0)⟩, [], fin 0, fin 0, none, fin 1, fin 1⟩, ⟨⟨1, false, fun ps _ _ x _ => ps.headD (fin 0) * x⟩, [], fin 0, fin 0, none, fin 1, fin 1⟩],
    starts := [true, false], geom := ⟨2, 1, 0, 0⟩, conv := none, interp := none, regions := [], modelVec := [], computed := false }

example : Fits exTwoFns 2 1 ∧ NoMix exTwoFns ∧ (∃ objs pos, setupFns [fin 0, fin 0, fin 5, fin 7] (exTwoFns.fns.zip exTwoFns.starts) ⟨0, 0, 0⟩ = .ok (objs, pos) ∧ FiniteModel exTwoFns objs) ∧
    ∃ m', createModelImage exTwoFns [fin 0, fin 0, fin 5, fin 7] = .ok m' := by
  have hset : setupFns [fin 0, fin 0, fin 5, fin 7] (exTwoFns.fns.zip exTwoFns.starts) ⟨0, 0, 0⟩ =
      .ok ([⟨⟨1, false, fun ps _ _ _ _ => ps.headD (fin 0)⟩, [fin 5], fin 0, fin 0, none, fin 1, fin 1⟩,
        ⟨⟨1, false, fun ps _ _ x _ => ps.headD (fin 0) * x⟩, [fin 7], fin 0, fin 0, none, fin 1, fin 1⟩], ⟨4, fin 0, fin 0⟩) := by
    simp [exTwoFns, setupFns, newSet, fnSetup, loopMap, rd]
  refine ⟨⟨by decide, fun h => (by cases h), fun _ => ⟨rfl, rfl, rfl, rfl⟩⟩, .inr rfl, ⟨_, _, hset, ?_⟩, ?_⟩
  · refine ⟨?_, ?_, ?_, ?_, fun f hf => (by cases hf), ?_, ?_, ?_⟩
    · intro o ho _ x y
      simp only [List.mem_cons, List.not_mem_nil, or_false] at ho
      rcases ho with rfl | rfl
      · exact ⟨5, rfl⟩
      · exact ⟨7 * x, rfl⟩
    · intro o ho hp
      simp only [List.mem_cons, List.not_mem_nil, or_false] at ho
      rcases ho with rfl | rfl <;> cases hp
    · rintro ⟨o, ho, hp⟩
      simp only [List.mem_cons, List.not_mem_nil, or_false] at ho
      rcases ho with rfl | rfl <;> cases hp
    · intro _ r hr
      cases hr
    · intro r hr; cases hr
    · intro r hr; cases hr
    · intro r hr; cases hr
  · unfold createModelImage
    rw [hset, ok_bind]
    exact ⟨_, rfl⟩

end Imfit
