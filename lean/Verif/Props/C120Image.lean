import Verif.Props.C110
import Verif.Props.C13
import Verif.Props.C15
import Verif.Props.C17
import Verif.Props.C11
import Verif.Spec.Section

/-!
# C120 — The model of a section is the section of the model: images
-/

namespace Imfit

open Spec XR

namespace Spec

/-- The region `r` of the section is the region `R` of the whole image, and lies in the section; the number of its rows is computed rightly (see C17). -/
structure SameRegion (dx dy : Nat) (g G : Geom) (r R : Region XR) : Prop where
  same : R = { r with x1 := r.x1 + dx, y1 := r.y1 + dy, main := G }
  main : r.main = g
  fits : ∃ w h : Nat, RegionFits r.geom g r.x1 r.y1 r.scale w h ∧ Int.tdiv ((r.geom.cols : Int) - 2 * (r.geom.psfRows : Int)) (r.scale : Int) = h

/-- Both images are convolved with the same PSF `P`, or none is convolved. -/
def SamePsf (m M : Img XR) : Prop :=
  (m.conv = none ∧ M.conv = none) ∨ ∃ (P : Nat → Nat → ℝ) (normalize : Bool), 0 < m.geom.psfCols ∧ 0 < m.geom.psfRows ∧
    (normalize = true → Spec.total m.geom.psfCols m.geom.psfRows P ≠ 0) ∧
    m.conv = some (Cv.fn ⟨m.geom.cols, m.geom.rows, m.geom.psfCols, m.geom.psfRows, Spec.image m.geom.psfCols m.geom.psfRows P⟩ normalize) ∧
    M.conv = some (Cv.fn ⟨M.geom.cols, M.geom.rows, m.geom.psfCols, m.geom.psfRows, Spec.image m.geom.psfCols m.geom.psfRows P⟩ normalize)

/-- `m` is the model of the section of `cols` × `rows` pixels that begins at column `dx` and row `dy` of an image of `width` × `height` pixels with the model `M`. -/
structure SectionModel (m M : Img XR) (dx dy cols rows width height : Nat) : Prop where
  part : Fits m cols rows
  whole : Fits M width height
  fns : m.fns = M.fns
  starts : m.starts = M.starts
  interp : m.interp = M.interp
  psfCols : m.geom.psfCols = M.geom.psfCols
  psfRows : m.geom.psfRows = M.geom.psfRows
  right : dx + cols ≤ width
  top : dy + rows ≤ height
  psf : SamePsf m M
  regions : List.Forall₂ (SameRegion dx dy m.geom M.geom) m.regions M.regions

/-- The functions have finite centres and depend on the distances from them only; with a PSF their values are numbers. -/
structure Movable (convolved : Bool) (s : SetVals XR) : Prop where
  x0 : ∃ r, s.x0 = fin r
  y0 : ∃ r, s.y0 = fin r
  relative : ∀ f ∈ s.fns, f.1.isPoint = false → Relative fun x0 y0 x y => .ok (f.1.val f.2 x0 y0 x y)
  finite : convolved = true → ∀ f ∈ s.fns, f.1.isPoint = false → ∀ x y : ℝ, ∃ r, f.1.val f.2 s.x0 s.y0 (fin x) (fin y) = fin r

end Spec

/-! ## Function objects -/

/-- The object with its centre counted from another pixel. -/
noncomputable def moveObj (dx dy : Nat) (o : FnObj XR) : FnObj XR := { o with x0 := o.x0 - fin dx, y0 := o.y0 - fin dy }

/-- What is needed of an object after `Setup`. -/
structure MovableObj (o : FnObj XR) : Prop where
  x0 : ∃ r, o.x0 = fin r
  y0 : ∃ r, o.y0 = fin r
  relative : o.desc.isPoint = false → Relative fun x0 y0 x y => .ok (o.desc.val o.pars x0 y0 x y)

theorem fnValue_moved (dx dy : Nat) (o : FnObj XR) (h : MovableObj o) (x y : ℝ) :
    fnValue (moveObj dx dy o) (fin (x - dx)) (fin (y - dy)) = fnValue o (fin x) (fin y) := by
  obtain ⟨⟨a, ha⟩, ⟨b, hb⟩, hr⟩ := h
  unfold fnValue
  cases hp : o.desc.isPoint with
  | true =>
    simp only [moveObj, hp, ha, hb, fin_sub, if_true, show x - dx - (a - dx) = x - a by ring, show y - dy - (b - dy) = y - b by ring]
  | false =>
    simp only [moveObj, hp, ha, hb, fin_sub, Bool.false_eq_true, if_false]
    exact hr hp dx dy a b x y

theorem pixelSum_moved (dx dy : Nat) (want : Bool) (x y : ℝ) (objs : List (FnObj XR)) (h : ∀ o ∈ objs, MovableObj o) (s : KS XR) :
    pixelSum want (fin (x - dx)) (fin (y - dy)) (objs.map (moveObj dx dy)) s = pixelSum want (fin x) (fin y) objs s := by
  induction objs generalizing s with
  | nil => rfl
  | cons o objs ih =>
    have e : pixelStep want (fin (x - dx)) (fin (y - dy)) s (moveObj dx dy o) = pixelStep want (fin x) (fin y) s o := by
      unfold pixelStep
      rw [fnValue_moved dx dy o (h o (by simp)) x y]
      rfl
    simp only [List.map_cons, pixelSum, e]
    exact bind_congr fun s1 => ih (fun o ho => h o (by simp [ho])) s1

theorem obj_ext {l l' : List (FnObj XR)} (h1 : l.map FnObj.view = l'.map FnObj.view)
    (h2 : l.map (fun o => (o.desc, o.interp, o.oscale, o.iscale)) = l'.map fun o => (o.desc, o.interp, o.oscale, o.iscale)) : l = l' := by
  induction l generalizing l' with
  | nil => cases l' with
    | nil => rfl
    | cons => cases h1
  | cons o l ih =>
    cases l' with
    | nil => cases h1
    | cons o' l' =>
      simp only [List.map_cons, List.cons.injEq, FnObj.view, Prod.mk.injEq] at h1 h2
      obtain ⟨⟨a1, a2, a3, a4⟩, h1⟩ := h1
      obtain ⟨⟨-, b2, b3, b4⟩, h2⟩ := h2
      rw [ih h1 h2]
      congr 1
      cases o
      cases o'
      simp_all

theorem setup_moved (dx dy : Nat) (sets : List (SetVals XR)) (hw : WellFormed sets) (objs : List (FnObj XR)) (hm : Matches objs sets) (u v : XR) (c : Bool)
    (hs : ∀ s ∈ sets, Movable c s) :
    ∃ os p q, setupFns (paramVector sets) (objs.zip ((flagged (sizesOf sets)).map Prod.snd)) ⟨0, u, v⟩ = .ok (os, p) ∧
      setupFns (paramVector (sets.map (SetVals.seenFrom dx dy))) (objs.zip ((flagged (sizesOf sets)).map Prod.snd)) ⟨0, u, v⟩ = .ok (os.map (moveObj dx dy), q) ∧
      os.map FnObj.desc = objs.map FnObj.desc ∧
      ∀ o ∈ os, MovableObj o ∧ (c = true → o.desc.isPoint = false → ∀ x y : ℝ, ∃ r, o.desc.val o.pars o.x0 o.y0 (fin x) (fin y) = fin r) := by
  obtain ⟨os, x, y, h1, h2, h3⟩ := setupFns_sets sets hw.2 objs hm [] u v
  have hsz : sizesOf (sets.map (SetVals.seenFrom dx dy)) = sizesOf sets := by
    simp [sizesOf, SetVals.seenFrom, Function.comp_def]
  have hm' : Matches objs (sets.map (SetVals.seenFrom dx dy)) := by
    unfold Matches at hm ⊢
    rw [hm, List.flatMap_map]
    rfl
  have hw' : ∀ s ∈ sets.map (SetVals.seenFrom dx dy), s.fns ≠ [] ∧ ∀ f ∈ s.fns, f.2.length = f.1.nParams := by
    intro s hs
    obtain ⟨t, ht, rfl⟩ := List.mem_map.1 hs
    exact hw.2 t ht
  obtain ⟨os', x', y', h1', h2', h3'⟩ := setupFns_sets (sets.map (SetVals.seenFrom dx dy)) hw' objs hm' [] u v
  simp only [List.nil_append, List.length_nil, hsz] at h1 h1'
  have e : os' = os.map (moveObj dx dy) := by
    refine obj_ext ?_ ?_
    · rw [h2', List.flatMap_map, List.map_map,
        show FnObj.view ∘ moveObj dx dy = (fun t : FnDesc XR × XR × XR × List XR => (t.1, t.2.1 - fin dx, t.2.2.1 - fin dy, t.2.2.2)) ∘ FnObj.view from rfl,
        ← List.map_map, h2, List.map_flatMap]
      refine List.flatMap_congr fun s _ => ?_
      rw [List.map_map]
      rfl
    · rw [h3', List.map_map, ← h3]
      rfl
  rw [e] at h1'
  refine ⟨os, _, _, h1, h1', ?_, ?_⟩
  · have := congrArg (List.map (fun t : FnDesc XR × Option (Interp XR) × XR × XR => t.1)) h3
    simpa [List.map_map, Function.comp_def] using this
  · intro o ho
    have hv : o.view ∈ os.map FnObj.view := List.mem_map_of_mem ho
    rw [h2] at hv
    obtain ⟨s, hs1, hs2⟩ := List.mem_flatMap.1 hv
    obtain ⟨f, hf1, hf2⟩ := List.mem_map.1 hs2
    simp only [FnObj.view, Prod.mk.injEq] at hf2
    obtain ⟨e1, e2, e3, e4⟩ := hf2
    obtain ⟨m1, m2, m3, m4⟩ := hs s hs1
    rw [e2] at m1 m4
    rw [e3] at m2 m4
    refine ⟨⟨m1, m2, fun hp => ?_⟩, fun hc hp x y => ?_⟩
    · rw [← e1, ← e4]
      exact m3 f hf1 (by rw [e1]; exact hp)
    · rw [← e1, ← e4]
      exact m4 hc f hf1 (by rw [e1]; exact hp) x y

/-! ## Pixels -/

/-- A loop that ends has computed a value in every turn. -/
theorem loopMap_values {n : Nat} {f : Nat → Res XR} {l : List XR} (h : loopMap n f = .ok l) : ∃ g, l = tab n g ∧ ∀ k, k < n → f k = .ok (g k) := by
  have hg : ∀ k, ∃ v, k < n → f k = .ok v := by
    intro k
    by_cases hk : k < n
    · obtain ⟨v, hv⟩ := loopMap_get n f l h k hk
      exact ⟨v, fun _ => hv⟩
    · exact ⟨nan, fun h => absurd h hk⟩
  choose g hg using hg
  refine ⟨g, ?_, hg⟩
  have e := loopMap_ok n f g hg
  rw [h] at e
  injection e

theorem div_ix {c j : Nat} (i : Nat) (h : j < c) : (i * c + j) / c = i := by
  rw [Nat.mul_comm, Nat.mul_add_div (by omega), Nat.div_eq_of_lt h, Nat.add_zero]

theorem mod_ix {c j : Nat} (i : Nat) (h : j < c) : (i * c + j) % c = j := by
  rw [Nat.mul_comm, Nat.mul_add_mod, Nat.mod_eq_of_lt h]

theorem ix_lt {i j c r : Nat} (hi : i < r) (hj : j < c) : i * c + j < c * r := by
  calc i * c + j < i * c + c := by omega
    _ = c * (i + 1) := by ring
    _ ≤ c * r := Nat.mul_le_mul_left _ (by omega)

/-- Where pixel `k` of the model image of the section is in the model image of the whole. -/
def placeIn (dx dy : Nat) (g G : Geom) (k : Nat) : Nat := (dy + k / g.cols) * G.cols + (dx + k % g.cols)

/-- The sizes of the two model images. -/
structure PaddedSizes (dx dy : Nat) (g G : Geom) (cols rows : Nat) : Prop where
  pos : 1 ≤ cols
  pc : g.psfCols = G.psfCols
  pr : g.psfRows = G.psfRows
  cols : g.cols = cols + 2 * g.psfCols
  rows : g.rows = rows + 2 * g.psfRows
  right : dx + g.cols ≤ G.cols
  top : dy + g.rows ≤ G.rows

theorem sizes_of {m M : Img XR} {dx dy cols rows width height : Nat} (h : SectionModel m M dx dy cols rows width height) : PaddedSizes dx dy m.geom M.geom cols rows := by
  obtain ⟨e1, e2⟩ : m.geom.cols = cols + 2 * m.geom.psfCols ∧ m.geom.rows = rows + 2 * m.geom.psfRows := by
    cases hc : m.conv with
    | some f => exact h.part.pad (by simp [hc])
    | none => obtain ⟨a, b, c, d⟩ := h.part.bare hc; omega
  obtain ⟨f1, f2⟩ : M.geom.cols = width + 2 * M.geom.psfCols ∧ M.geom.rows = height + 2 * M.geom.psfRows := by
    cases hc : M.conv with
    | some f => exact h.whole.pad (by simp [hc])
    | none => obtain ⟨a, b, c, d⟩ := h.whole.bare hc; omega
  have h1 := h.right
  have h2 := h.top
  have h3 := h.psfCols
  have h4 := h.psfRows
  exact ⟨h.part.pos, h3, h4, e1, e2, by omega, by omega⟩

theorem placeIn_lt {dx dy : Nat} {g G : Geom} {cols rows : Nat} (h : PaddedSizes dx dy g G cols rows) {k : Nat} (hk : k < g.n) : placeIn dx dy g G k < G.n := by
  have h1 := h.pos
  have h2 := h.cols
  have h3 := h.right
  have h4 := h.top
  have hp : 0 < g.cols := by omega
  have a : k / g.cols < g.rows := Nat.div_lt_of_lt_mul hk
  have b : k % g.cols < g.cols := Nat.mod_lt _ hp
  exact ix_lt (by omega) (by omega)

theorem mainX_moved {dx dy : Nat} {g G : Geom} {cols rows : Nat} (h : PaddedSizes dx dy g G cols rows) (k : Nat) :
    ∃ x : ℝ, (mainX G (placeIn dx dy g G k) : XR) = fin x ∧ (mainX g k : XR) = fin (x - dx) := by
  have h1 := h.pos
  have h2 := h.cols
  have h3 := h.right
  have b : k % g.cols < g.cols := Nat.mod_lt _ (by omega)
  refine ⟨_, by rw [mainX, lit_def], ?_⟩
  rw [mainX, lit_def, placeIn, mod_ix _ (by omega), h.pc]
  congr 1
  push_cast
  ring

theorem mainY_moved {dx dy : Nat} {g G : Geom} {cols rows : Nat} (h : PaddedSizes dx dy g G cols rows) (k : Nat) :
    ∃ y : ℝ, (mainY G (placeIn dx dy g G k) : XR) = fin y ∧ (mainY g k : XR) = fin (y - dy) := by
  have h1 := h.pos
  have h2 := h.cols
  have h3 := h.right
  have b : k % g.cols < g.cols := Nat.mod_lt _ (by omega)
  refine ⟨_, by rw [mainY, lit_def], ?_⟩
  rw [mainY, lit_def, placeIn, div_ix _ (by omega), h.pr]
  congr 1
  push_cast
  ring

theorem sum_moved {dx dy : Nat} {g G : Geom} {cols rows : Nat} (h : PaddedSizes dx dy g G cols rows) (want : Bool) (os : List (FnObj XR)) (ho : ∀ o ∈ os, MovableObj o) (k : Nat) :
    pixelSum want (mainX g k) (mainY g k) (os.map (moveObj dx dy)) ⟨0, 0⟩ =
      pixelSum want (mainX G (placeIn dx dy g G k)) (mainY G (placeIn dx dy g G k)) os ⟨0, 0⟩ := by
  obtain ⟨x, x1, x2⟩ := mainX_moved h k
  obtain ⟨y, y1, y2⟩ := mainY_moved h k
  rw [x1, x2, y1, y2]
  exact pixelSum_moved dx dy want x y os ho _

theorem fill_moved {dx dy : Nat} {g G : Geom} {cols rows : Nat} (h : PaddedSizes dx dy g G cols rows) (os : List (FnObj XR)) (ho : ∀ o ∈ os, MovableObj o) {v : List XR}
    (hv : fillImage G.n (mainX G) (mainY G) os = .ok v) :
    ∃ f, v = tab G.n f ∧ fillImage g.n (mainX g) (mainY g) (os.map (moveObj dx dy)) = .ok (tab g.n fun k => f (placeIn dx dy g G k)) := by
  obtain ⟨f, h1, h2⟩ := loopMap_values hv
  refine ⟨f, h1, ?_⟩
  refine loopMap_ok _ _ (fun k => f (placeIn dx dy g G k)) fun k hk => ?_
  rw [sum_moved h false os ho k]
  exact h2 _ (placeIn_lt h hk)

/-- The images agree inside the margins. -/
structure Agree (dx dy : Nat) (g G : Geom) (cols rows : Nat) (a b : List XR) : Prop where
  small : a.length = g.n
  large : b.length = G.n
  inside : ∀ i j, i < rows → j < cols → a[(g.psfRows + i) * g.cols + (g.psfCols + j)]? = b[(dy + (g.psfRows + i)) * G.cols + (dx + (g.psfCols + j))]?

theorem tab_at {n k : Nat} (f : Nat → XR) (h : k < n) : (tab n f)[k]? = some (f k) := by simp [tab, h]

theorem inside_pos {dx dy : Nat} {g G : Geom} {cols rows i j : Nat} (h : PaddedSizes dx dy g G cols rows) (hi : i < rows) (hj : j < cols) :
    (g.psfRows + i) * g.cols + (g.psfCols + j) < g.n ∧ placeIn dx dy g G ((g.psfRows + i) * g.cols + (g.psfCols + j)) = (dy + (g.psfRows + i)) * G.cols + (dx + (g.psfCols + j)) := by
  have h2 := h.cols
  have h3 := h.rows
  refine ⟨ix_lt (by omega) (by omega), ?_⟩
  rw [placeIn, div_ix _ (by omega), mod_ix _ (by omega)]

/-- Images that agree everywhere. -/
theorem agree_tab {dx dy : Nat} {g G : Geom} {cols rows : Nat} (h : PaddedSizes dx dy g G cols rows) (f : Nat → XR) :
    Agree dx dy g G cols rows (tab g.n fun k => f (placeIn dx dy g G k)) (tab G.n f) := by
  refine ⟨tab_length _ _, tab_length _ _, fun i j hi hj => ?_⟩
  obtain ⟨h1, h2⟩ := inside_pos h hi hj
  have h3 := placeIn_lt h h1
  rw [h2] at h3
  rw [tab_at _ h1, tab_at _ h3, h2]

/-! ## Convolution -/

theorem cv_fn (c : Cv) (P : Nat → Nat → ℝ) (normalize : Bool) (hcI : 0 < c.colsI) (hrI : 0 < c.rowsI) (hcP : 0 < c.colsP) (hrP : 0 < c.rowsP)
    (hp : c.psf = Spec.image c.colsP c.rowsP P) (hn : normalize = true → Spec.total c.colsP c.rowsP P ≠ 0) (v : Nat → ℝ) :
    c.fn normalize (rtab (c.colsI * c.rowsI) v) = rtab (c.colsI * c.rowsI) fun k =>
      Spec.linearConvolution c.colsI c.rowsI c.colsP c.rowsP (fun y x => v (y * c.colsI + x)) (usedPsf c.colsP c.rowsP P normalize) (k / c.colsI) (k % c.colsI) := by
  obtain ⟨r, h1, h2⟩ := C15_convolution c P (fun y x => v (y * c.colsI + x)) normalize hcI hrI hcP hrP hp hn
  rw [Nat.mul_comm c.colsI c.rowsI, image_rtab]
  simp only [Cv.fn, h1, h2]
  rfl

theorem convolution_moved {dx dy : Nat} {g G : Geom} {cols rows : Nat} (h : PaddedSizes dx dy g G cols rows) (v : Nat → ℝ) (Q : Nat → Nat → ℝ) {i j : Nat} (hi : i < rows) (hj : j < cols) :
    Spec.linearConvolution g.cols g.rows g.psfCols g.psfRows (fun y x => v (placeIn dx dy g G (y * g.cols + x))) Q (g.psfRows + i) (g.psfCols + j) =
      Spec.linearConvolution G.cols G.rows g.psfCols g.psfRows (fun y x => v (y * G.cols + x)) Q (dy + (g.psfRows + i)) (dx + (g.psfCols + j)) := by
  have h2 := h.cols
  have h3 := h.rows
  have h4 := h.right
  have h5 := h.top
  unfold Spec.linearConvolution
  refine Finset.sum_congr rfl fun a ha => Finset.sum_congr rfl fun b hb => ?_
  have ha := Finset.mem_range.1 ha
  have hb := Finset.mem_range.1 hb
  congr 1
  obtain ⟨y, hy⟩ : ∃ y : Nat, ((g.psfRows + i : Nat) : ℤ) - ((a : ℤ) - (g.psfRows / 2 : Nat)) = y := ⟨g.psfRows + i + g.psfRows / 2 - a, by omega⟩
  obtain ⟨x, hx⟩ : ∃ x : Nat, ((g.psfCols + j : Nat) : ℤ) - ((b : ℤ) - (g.psfCols / 2 : Nat)) = x := ⟨g.psfCols + j + g.psfCols / 2 - b, by omega⟩
  have hY : ((dy + (g.psfRows + i) : Nat) : ℤ) - ((a : ℤ) - (g.psfRows / 2 : Nat)) = ((dy + y : Nat) : ℤ) := by push_cast at hy ⊢; omega
  have hX : ((dx + (g.psfCols + j) : Nat) : ℤ) - ((b : ℤ) - (g.psfCols / 2 : Nat)) = ((dx + x : Nat) : ℤ) := by push_cast at hx ⊢; omega
  have by' : y < g.rows := by omega
  have bx : x < g.cols := by omega
  rw [hy, hx, hY, hX]
  unfold Spec.zeroOutside
  rw [if_pos ⟨by omega, by omega, by omega, by omega⟩, if_pos ⟨by omega, by omega, by omega, by omega⟩]
  simp only [Int.toNat_natCast]
  rw [placeIn, div_ix _ bx, mod_ix _ bx]

theorem conv_moved {m M : Img XR} {dx dy cols rows : Nat} (h : PaddedSizes dx dy m.geom M.geom cols rows) (hp : SamePsf m M) (os : List (FnObj XR)) (ho : ∀ o ∈ os, MovableObj o)
    (hf : m.conv.isSome = true → ∀ o ∈ os, o.desc.isPoint = false → ∀ x y : ℝ, ∃ r, o.desc.val o.pars o.x0 o.y0 (fin x) (fin y) = fin r) {v : List XR}
    (hv : fillImage M.geom.n (mainX M.geom) (mainY M.geom) os = .ok v) :
    ∃ u, fillImage m.geom.n (mainX m.geom) (mainY m.geom) (os.map (moveObj dx dy)) = .ok u ∧ Agree dx dy m.geom M.geom cols rows (applyConv m.conv u) (applyConv M.conv v) := by
  obtain ⟨f, h1, h2⟩ := fill_moved h os ho hv
  refine ⟨_, h2, ?_⟩
  rcases hp with ⟨e1, e2⟩ | ⟨P, normalize, p1, p2, p3, p4, p5⟩
  · rw [e1, e2, h1]
    exact agree_tab h f
  · have hfin : fillImage M.geom.n (mainX M.geom) (mainY M.geom) os = .ok (rtab M.geom.n (sumFn (os.map (part false (mainX M.geom) (mainY M.geom))))) := by
      refine fillImage_eq _ _ _ _ fun o ho' hp k _ => ?_
      obtain ⟨x, hx⟩ := mainX_fin M.geom k
      obtain ⟨y, hy⟩ := mainY_fin M.geom k
      obtain ⟨r, hr⟩ := hf (by rw [p4]; rfl) o ho' hp x y
      refine ⟨r, ?_⟩
      rw [hx, hy, fnValue, hp, if_neg (by decide), hr]
    generalize sumFn (os.map (part false (mainX M.geom) (mainY M.geom))) = w at hfin
    rw [hv] at hfin
    injection hfin with hw
    have hfw : ∀ k, k < M.geom.n → f k = fin (w k) := by
      intro k hk
      have e : (tab M.geom.n f)[k]? = (rtab M.geom.n w)[k]? := by rw [← h1, hw]
      rw [rtab, tab_at _ hk, tab_at _ hk] at e
      injection e
    have hu : (tab m.geom.n fun k => f (placeIn dx dy m.geom M.geom k)) = rtab m.geom.n fun k => w (placeIn dx dy m.geom M.geom k) :=
      tab_congr fun k hk => hfw _ (placeIn_lt h hk)
    have q1 := h.pos
    have q2 := h.cols
    have q3 := h.rows
    have q4 := h.right
    have q5 := h.top
    rw [hu, hw, p4, p5]
    have r1 := cv_fn ⟨m.geom.cols, m.geom.rows, m.geom.psfCols, m.geom.psfRows, Spec.image m.geom.psfCols m.geom.psfRows P⟩ P normalize (by simp only; omega) (by simp only; omega) p1 p2 rfl
      p3 (fun k => w (placeIn dx dy m.geom M.geom k))
    have r2 := cv_fn ⟨M.geom.cols, M.geom.rows, m.geom.psfCols, m.geom.psfRows, Spec.image m.geom.psfCols m.geom.psfRows P⟩ P normalize (by simp only; omega) (by simp only; omega) p1 p2 rfl
      p3 w
    simp only at r1 r2
    have s1 : applyConv (some (Cv.fn ⟨m.geom.cols, m.geom.rows, m.geom.psfCols, m.geom.psfRows, Spec.image m.geom.psfCols m.geom.psfRows P⟩ normalize))
        (rtab m.geom.n fun k => w (placeIn dx dy m.geom M.geom k)) = _ := r1
    have s2 : applyConv (some (Cv.fn ⟨M.geom.cols, M.geom.rows, m.geom.psfCols, m.geom.psfRows, Spec.image m.geom.psfCols m.geom.psfRows P⟩ normalize))
        (rtab M.geom.n w) = _ := r2
    rw [s1, s2]
    refine ⟨tab_length _ _, tab_length _ _, fun i j hi hj => ?_⟩
    obtain ⟨t1, t2⟩ := inside_pos h hi hj
    have t3 := placeIn_lt h t1
    rw [t2] at t3
    have b1 : m.geom.psfCols + j < m.geom.cols := by omega
    have b2 : dx + (m.geom.psfCols + j) < M.geom.cols := by omega
    rw [rtab, rtab, tab_at _ (show _ < m.geom.cols * m.geom.rows from t1), tab_at _ (show _ < M.geom.cols * M.geom.rows from t3), div_ix _ b1, mod_ix _ b1, div_ix _ b2, mod_ix _ b2, convolution_moved h w _ hi hj]

/-! ## Point sources -/

theorem setInterp_moved (dx dy : Nat) (p : Option (Interp XR)) (os : List (FnObj XR)) : setInterp p (os.map (moveObj dx dy)) = (setInterp p os).map (moveObj dx dy) := by
  simp only [setInterp, List.map_map]
  refine List.map_congr_left fun o _ => ?_
  simp only [Function.comp_apply]
  cases h : o.desc.isPoint <;> simp [moveObj, h]

theorem movable_setInterp {p : Option (Interp XR)} {os : List (FnObj XR)} (h : ∀ o ∈ os, MovableObj o) : ∀ o ∈ setInterp p os, MovableObj o := by
  intro o ho
  obtain ⟨o', ho', rfl⟩ := List.mem_map.1 ho
  beta_reduce
  cases hp : o'.desc.isPoint with
  | false => exact h o' ho'
  | true => exact ⟨(h o' ho').x0, (h o' ho').y0, fun h' => by simp_all⟩

theorem points_moved {dx dy : Nat} {g G : Geom} {cols rows : Nat} (h : PaddedSizes dx dy g G cols rows) (os : List (FnObj XR)) (ho : ∀ o ∈ os, MovableObj o) {a b v : List XR}
    (hab : Agree dx dy g G cols rows a b) (hv : addPoints G.n (mainX G) (mainY G) os b = .ok v) :
    ∃ u, addPoints g.n (mainX g) (mainY g) (os.map (moveObj dx dy)) a = .ok u ∧ Agree dx dy g G cols rows u v := by
  obtain ⟨f, h1, h2⟩ := loopMap_values hv
  have hs : ∀ k, ∃ s, k < G.n → pixelSum true (mainX G k) (mainY G k) os ⟨0, 0⟩ = .ok s ∧ ∃ x, b[k]? = some x ∧ f k = x + s.sum := by
    intro k
    by_cases hk : k < G.n
    · have e := h2 k hk
      cases hps : pixelSum true (mainX G k) (mainY G k) os ⟨0, 0⟩ with
      | error e' => rw [hps] at e; cases e
      | ok s =>
        rw [hps, ok_bind, rd_ok (by rw [hab.large]; exact hk), ok_bind] at e
        refine ⟨s, fun _ => ⟨rfl, b[k]'(by rw [hab.large]; exact hk), List.getElem?_eq_getElem _, ?_⟩⟩
        injection e with e
        exact e.symm
    · exact ⟨⟨0, 0⟩, fun h' => absurd h' hk⟩
  choose s hs using hs
  have hu : addPoints g.n (mainX g) (mainY g) (os.map (moveObj dx dy)) a = .ok (tab g.n fun k => a.getD k nan + (s (placeIn dx dy g G k)).sum) := by
    refine loopMap_ok _ _ (fun k => a.getD k nan + (s (placeIn dx dy g G k)).sum) fun k hk => ?_
    rw [sum_moved h true os ho k, (hs _ (placeIn_lt h hk)).1, ok_bind, rd_ok (by rw [hab.small]; exact hk), ok_bind]
    rw [List.getD_eq_getElem?_getD, List.getElem?_eq_getElem (by rw [hab.small]; exact hk)]
    rfl
  refine ⟨_, hu, tab_length _ _, by rw [h1]; exact tab_length _ _, fun i j hi hj => ?_⟩
  obtain ⟨t1, t2⟩ := inside_pos h hi hj
  have t3 := placeIn_lt h t1
  rw [t2] at t3
  obtain ⟨-, x, x1, x2⟩ := hs _ t3
  have hin := hab.inside i j hi hj
  rw [x1] at hin
  rw [h1, tab_at _ t1, tab_at _ t3, x2, t2, List.getD_eq_getElem?_getD, hin]
  rfl

/-! ## Oversampled regions -/

theorem regionX_moved {dx dy : Nat} {g G : Geom} {r R : Region XR} (h : SameRegion dx dy g G r R) (k : Nat) : ∃ x : ℝ, regionX R k = fin x ∧ regionX r k = fin (x - dx) := by
  obtain ⟨w, hh, hf, -⟩ := h.fits
  have hs := hf.scalePos
  have : (r.scale : ℝ) ≠ 0 := by
    have : r.scale ≠ 0 := by omega
    exact_mod_cast this
  rw [h.same]
  simp only [regionX, subpix, lit_def, one_def, Rat.cast_natCast, fin_div_of_ne this, fin_mul, fin_sub, fin_add, Rat.cast_intCast]
  refine ⟨_, rfl, ?_⟩
  congr 1
  push_cast
  ring

theorem regionY_moved {dx dy : Nat} {g G : Geom} {r R : Region XR} (h : SameRegion dx dy g G r R) (k : Nat) : ∃ y : ℝ, regionY R k = fin y ∧ regionY r k = fin (y - dy) := by
  obtain ⟨w, hh, hf, -⟩ := h.fits
  have hs := hf.scalePos
  have : (r.scale : ℝ) ≠ 0 := by
    have : r.scale ≠ 0 := by omega
    exact_mod_cast this
  rw [h.same]
  simp only [regionY, subpix, lit_def, one_def, Rat.cast_natCast, fin_div_of_ne this, fin_mul, fin_sub, fin_add, Rat.cast_intCast]
  refine ⟨_, rfl, ?_⟩
  congr 1
  push_cast
  ring

theorem region_sum {dx dy : Nat} {g G : Geom} {r R : Region XR} (h : SameRegion dx dy g G r R) (want : Bool) (os : List (FnObj XR)) (ho : ∀ o ∈ os, MovableObj o) (k : Nat) :
    pixelSum want (regionX r k) (regionY r k) (os.map (moveObj dx dy)) ⟨0, 0⟩ = pixelSum want (regionX R k) (regionY R k) os ⟨0, 0⟩ := by
  obtain ⟨x, x1, x2⟩ := regionX_moved h k
  obtain ⟨y, y1, y2⟩ := regionY_moved h k
  rw [x1, x2, y1, y2]
  exact pixelSum_moved dx dy want x y os ho _

theorem setRegion_moved (dx dy : Nat) (r R : Region XR) (h1 : R.interp = r.interp) (h2 : R.scale = r.scale) (os : List (FnObj XR)) :
    setRegion r (os.map (moveObj dx dy)) = (setRegion R os).map (moveObj dx dy) := by
  simp only [setRegion, List.map_map, h1, h2]
  refine List.map_congr_left fun o _ => ?_
  simp only [Function.comp_apply]
  cases h : o.desc.isPoint <;> simp [moveObj, h]

theorem movable_setRegion {r : Region XR} {os : List (FnObj XR)} (h : ∀ o ∈ os, MovableObj o) : ∀ o ∈ setRegion r os, MovableObj o := by
  intro o ho
  obtain ⟨o', ho', rfl⟩ := List.mem_map.1 ho
  beta_reduce
  cases hp : o'.desc.isPoint with
  | false => exact h o' ho'
  | true => exact ⟨(h o' ho').x0, (h o' ho').y0, fun h' => by simp_all⟩

/-- Two loops that go step by step. -/
theorem forN_rel {σ τ : Type} (R : σ → τ → Prop) (n : Nat) (f : Nat → σ → Res σ) (g : Nat → τ → Res τ) {s : σ} {t t' : τ} (h0 : R s t)
    (hs : ∀ z a b b', z < n → R a b → g z b = .ok b' → ∃ a', f z a = .ok a' ∧ R a' b') (h : forN n t g = .ok t') : ∃ s', forN n s f = .ok s' ∧ R s' t' := by
  induction n generalizing t' with
  | zero =>
    simp only [forN] at h
    injection h with h
    exact ⟨s, rfl, h ▸ h0⟩
  | succ n ih =>
    simp only [forN] at h ⊢
    cases h1 : forN n t g with
    | error e => rw [h1] at h; cases h
    | ok b =>
      rw [h1, ok_bind] at h
      obtain ⟨a, ha, hab⟩ := ih (fun z a b b' hz => hs z a b b' (by omega)) h1
      obtain ⟨a', ha', hab'⟩ := hs n a b t' (by omega) hab h
      exact ⟨a', by rw [ha, ok_bind]; exact ha', hab'⟩

theorem ix_inj {c i j i' j' : Nat} (hj : j < c) (hj' : j' < c) (h : i * c + j = i' * c + j') : i = i' ∧ j = j' := by
  have a := congrArg (· / c) h
  have b := congrArg (· % c) h
  simp only [div_ix _ hj, div_ix _ hj', mod_ix _ hj, mod_ix _ hj'] at a b
  exact ⟨a, b⟩

theorem downsample_moved {dx dy : Nat} {g G : Geom} {cols rows : Nat} (h : PaddedSizes dx dy g G cols rows) {r R : Region XR} (hr : SameRegion dx dy g G r R) (over : List XR)
    {a b b' : List XR} (hab : Agree dx dy g G cols rows a b) (hb : downsample over R.geom b R.main R.x1 R.y1 R.scale = .ok b') :
    ∃ a', downsample over r.geom a r.main r.x1 r.y1 r.scale = .ok a' ∧ Agree dx dy g G cols rows a' b' := by
  obtain ⟨w, hh, hf, hrow⟩ := hr.fits
  have f1 := hf.scalePos
  have f2 := hf.gcols
  have f3 := hf.left
  have f4 := hf.low
  have f5 := hf.right
  have f6 := hf.top
  have k1 := h.pc
  have k2 := h.pr
  have k3 := h.cols
  have k4 := h.rows
  have k5 := h.right
  have k6 := h.top
  rw [hr.same] at hb
  rw [hr.main]
  simp only at hb
  have hsr : subRows r.geom r.scale = hh := by unfold subRows; rw [hrow]; simp
  have hsc : subCols r.geom r.scale = w := by
    unfold subCols
    rw [f2]
    have : ((w * r.scale + 2 * r.geom.psfCols : Nat) : Int) - 2 * (r.geom.psfCols : Int) = (w : Int) * r.scale := by push_cast; ring
    rw [this, Int.mul_tdiv_cancel _ (by omega)]
    simp
  unfold downsample at hb ⊢
  rw [hsr, hsc] at hb ⊢
  refine forN_rel (Agree dx dy g G cols rows) hh _ _ hab (fun is c d d' his hcd hd => ?_) hb
  refine forN_rel (Agree dx dy g G cols rows) w _ _ hcd (fun js c d d' hjs hcd hd => ?_) hd
  cases hbin : binFlux over r.geom.cols (is * r.scale + r.geom.psfRows) (js * r.scale + r.geom.psfCols) r.scale with
  | error e => rw [hbin] at hd; cases hd
  | ok fl =>
    rw [hbin, ok_bind] at hd
    rw [ok_bind]
    obtain ⟨y, hy⟩ : ∃ y : Nat, r.y1 - 1 = y := ⟨(r.y1 - 1).toNat, by omega⟩
    obtain ⟨x, hx⟩ : ∃ x : Nat, r.x1 - 1 = x := ⟨(r.x1 - 1).toNat, by omega⟩
    have hi : y + is < rows := by omega
    have hj : x + js < cols := by omega
    have e1 : (r.y1 - 1 + (g.psfRows : Int) + (is : Int)) * (g.cols : Int) + (r.x1 - 1 + (g.psfCols : Int) + (js : Int)) =
        (((g.psfRows + (y + is)) * g.cols + (g.psfCols + (x + js)) : Nat) : Int) := by
      rw [hy, hx]; push_cast; ring
    have e2 : (r.y1 + dy - 1 + (G.psfRows : Int) + (is : Int)) * (G.cols : Int) + (r.x1 + dx - 1 + (G.psfCols : Int) + (js : Int)) =
        (((dy + (g.psfRows + (y + is))) * G.cols + (dx + (g.psfCols + (x + js))) : Nat) : Int) := by
      rw [show r.y1 + dy - 1 = y + dy by omega, show r.x1 + dx - 1 = x + dx by omega, k1, k2]; push_cast; ring
    obtain ⟨t1, t2⟩ := inside_pos h hi hj
    have t3 := placeIn_lt h t1
    rw [t2] at t3
    rw [e2] at hd
    rw [e1]
    generalize fl / lit ((r.scale * r.scale : Nat) : ℚ) = val at hd ⊢
    have w1 : wrI c (((g.psfRows + (y + is)) * g.cols + (g.psfCols + (x + js)) : Nat) : Int) val = .ok (c.set ((g.psfRows + (y + is)) * g.cols + (g.psfCols + (x + js))) val) := by
      simp only [wrI, wr, Int.toNat_natCast]
      rw [if_neg (by omega), if_pos (by rw [hcd.small]; exact t1)]
    have w2 : wrI d (((dy + (g.psfRows + (y + is))) * G.cols + (dx + (g.psfCols + (x + js))) : Nat) : Int) val =
        .ok (d.set ((dy + (g.psfRows + (y + is))) * G.cols + (dx + (g.psfCols + (x + js)))) val) := by
      simp only [wrI, wr, Int.toNat_natCast]
      rw [if_neg (by omega), if_pos (by rw [hcd.large]; exact t3)]
    rw [w2] at hd
    injection hd with hd
    refine ⟨_, w1, by rw [List.length_set]; exact hcd.small, by rw [← hd, List.length_set]; exact hcd.large, fun i j hi' hj' => ?_⟩
    rw [← hd]
    obtain ⟨u1, u2⟩ := inside_pos h hi' hj'
    have u3 := placeIn_lt h u1
    rw [u2] at u3
    by_cases heq : i = y + is ∧ j = x + js
    · obtain ⟨rfl, rfl⟩ := heq
      rw [List.getElem?_set_self (by rw [hcd.small]; exact t1), List.getElem?_set_self (by rw [hcd.large]; exact t3)]
    · rw [List.getElem?_set_ne, List.getElem?_set_ne]
      · exact hcd.inside i j hi' hj'
      · intro e
        obtain ⟨v1, v2⟩ := ix_inj (by omega) (by omega) e
        exact heq ⟨by omega, by omega⟩
      · intro e
        obtain ⟨v1, v2⟩ := ix_inj (by omega) (by omega) e
        exact heq ⟨by omega, by omega⟩

theorem region_moved {dx dy : Nat} {g G : Geom} {cols rows : Nat} (h : PaddedSizes dx dy g G cols rows) {r R : Region XR} (hr : SameRegion dx dy g G r R) (os : List (FnObj XR))
    (ho : ∀ o ∈ os, MovableObj o) {a b b' : List XR} {os' : List (FnObj XR)} (hab : Agree dx dy g G cols rows a b) (hb : computeRegion R b os = .ok (b', os')) :
    ∃ a', computeRegion r a (os.map (moveObj dx dy)) = .ok (a', os'.map (moveObj dx dy)) ∧ Agree dx dy g G cols rows a' b' ∧ ∀ o ∈ os', MovableObj o := by
  have g1 : R.geom = r.geom := by rw [hr.same]
  have g2 : R.conv = r.conv := by rw [hr.same]
  have g3 : R.interp = r.interp := by rw [hr.same]
  have g4 : R.scale = r.scale := by rw [hr.same]
  have eF : fillImage r.geom.n (regionX r) (regionY r) (os.map (moveObj dx dy)) = fillImage R.geom.n (regionX R) (regionY R) os := by
    unfold fillImage
    rw [g1]
    congr 1
    funext k
    rw [region_sum hr false os ho k]
  have eP : ∀ v, addPoints r.geom.n (regionX r) (regionY r) (setRegion r (os.map (moveObj dx dy))) v = addPoints R.geom.n (regionX R) (regionY R) (setRegion R os) v := by
    intro v
    unfold addPoints
    rw [g1, setRegion_moved dx dy r R g3 g4]
    congr 1
    funext k
    rw [region_sum hr true (setRegion R os) (movable_setRegion ho) k]
  unfold computeRegion at hb ⊢
  rw [eF]
  cases h1 : fillImage R.geom.n (regionX R) (regionY R) os with
  | error e => rw [h1] at hb; cases hb
  | ok v1 =>
    rw [h1, ok_bind] at hb
    rw [ok_bind]
    simp only at hb ⊢
    rw [eP, ← g2]
    cases h2 : addPoints R.geom.n (regionX R) (regionY R) (setRegion R os) (applyConv R.conv v1) with
    | error e => rw [h2] at hb; cases hb
    | ok v3 =>
      rw [h2, ok_bind] at hb
      rw [ok_bind]
      cases h3 : downsample v3 R.geom b R.main R.x1 R.y1 R.scale with
      | error e => rw [h3] at hb; cases hb
      | ok m1 =>
        rw [h3, ok_bind] at hb
        injection hb with hb
        obtain ⟨rfl, rfl⟩ := Prod.mk.inj hb
        obtain ⟨a', ha, haa⟩ := downsample_moved h hr v3 hab h3
        refine ⟨a', ?_, haa, movable_setRegion ho⟩
        rw [ha, ok_bind, setRegion_moved dx dy r R g3 g4]
        rfl

theorem regions_moved {dx dy : Nat} {g G : Geom} {cols rows : Nat} (h : PaddedSizes dx dy g G cols rows) {rs Rs : List (Region XR)} (hr : List.Forall₂ (SameRegion dx dy g G) rs Rs)
    (os : List (FnObj XR)) (ho : ∀ o ∈ os, MovableObj o) {a b b' : List XR} {os' : List (FnObj XR)} (hab : Agree dx dy g G cols rows a b) (hb : computeRegions Rs b os = .ok (b', os')) :
    ∃ a', computeRegions rs a (os.map (moveObj dx dy)) = .ok (a', os'.map (moveObj dx dy)) ∧ Agree dx dy g G cols rows a' b' := by
  induction hr generalizing os a b with
  | nil =>
    simp only [computeRegions] at hb ⊢
    injection hb with hb
    obtain ⟨rfl, rfl⟩ := Prod.mk.inj hb
    exact ⟨a, rfl, hab⟩
  | cons hr _ ih =>
    simp only [computeRegions] at hb ⊢
    rename_i r R _ _ _
    cases h1 : computeRegion R b os with
    | error e => rw [h1] at hb; cases hb
    | ok p =>
      rw [h1, ok_bind] at hb
      obtain ⟨a1, h2, h3, h4⟩ := region_moved h hr os ho hab h1
      obtain ⟨a', h5, h6⟩ := ih p.2 h4 h3 hb
      exact ⟨a', by rw [h2, ok_bind]; exact h5, h6⟩

/-! ## The whole image -/

/-- The model of a section is the section of the model. Missing: oversampled regions that stick out of the section or whose number of rows is computed wrongly (C17). -/
theorem C120_section_partial {m M M' : Img XR} {dx dy cols rows width height : Nat} (h : SectionModel m M dx dy cols rows width height) (sets : List (SetVals XR)) (hw : WellFormed sets)
    (hm : Matches M.fns sets) (hst : M.starts = (flagged (sizesOf sets)).map Prod.snd) (hs : ∀ s ∈ sets, Movable M.conv.isSome s)
    (hok : createModelImage M (paramVector sets) = .ok M') :
    ∃ m' imgS imgW, createModelImage m (paramVector (sets.map (SetVals.seenFrom dx dy))) = .ok m' ∧ cutOut m' cols rows = .ok imgS ∧ cutOut M' width height = .ok imgW ∧
      IsSection dx dy cols rows width imgS imgW := by
  have hz := sizes_of h
  obtain ⟨os, p, q, h1, h2, -, h4⟩ := setup_moved dx dy sets hw M.fns hm 0 0 M.conv.isSome hs
  have hmov : ∀ o ∈ os, MovableObj o := fun o ho => (h4 o ho).1
  have hcs : m.conv.isSome = M.conv.isSome := by
    rcases h.psf with ⟨e1, e2⟩ | ⟨P, nz, -, -, -, e1, e2⟩ <;> simp [e1, e2]
  unfold createModelImage at hok ⊢
  rw [hst, h1, ok_bind] at hok
  rw [h.fns, h.starts, hst, h2, ok_bind]
  simp only at hok ⊢
  cases hv : fillImage M.geom.n (mainX M.geom) (mainY M.geom) os with
  | error e => rw [hv] at hok; cases hok
  | ok v =>
    rw [hv, ok_bind] at hok
    obtain ⟨u, hu, hag⟩ := conv_moved hz h.psf os hmov (fun hc o ho => (h4 o ho).2 (hcs ▸ hc)) hv
    rw [hu, ok_bind]
    have hpt : m.points = M.points := by unfold Img.points; rw [h.fns]
    cases hp : pointStep M os (applyConv M.conv v) with
    | error e => rw [hp] at hok; cases hok
    | ok t =>
      rw [hp, ok_bind] at hok
      have hstep : ∃ a, pointStep m (os.map (moveObj dx dy)) (applyConv m.conv u) = .ok (a, t.2.map (moveObj dx dy)) ∧ Agree dx dy m.geom M.geom cols rows a t.1 ∧ ∀ o ∈ t.2, MovableObj o := by
        unfold pointStep at hp ⊢
        rw [hpt]
        cases hb : M.points with
        | false =>
          rw [hb, if_neg (by decide)] at hp
          injection hp with hp
          rw [if_neg (by decide), ← hp]
          exact ⟨_, rfl, hag, hmov⟩
        | true =>
          rw [hb, if_pos rfl] at hp
          rw [if_pos rfl, h.interp, setInterp_moved]
          cases ha : addPoints M.geom.n (mainX M.geom) (mainY M.geom) (setInterp M.interp os) (applyConv M.conv v) with
          | error e => rw [ha] at hp; cases hp
          | ok w =>
            rw [ha, ok_bind] at hp
            injection hp with hp
            obtain ⟨a, a1, a2⟩ := points_moved hz _ (movable_setInterp hmov) hag ha
            rw [← hp]
            exact ⟨a, by rw [a1, ok_bind]; rfl, a2, movable_setInterp hmov⟩
      obtain ⟨a, a1, a2, a3⟩ := hstep
      rw [a1, ok_bind]
      simp only
      cases hr : computeRegions M.regions t.1 t.2 with
      | error e => rw [hr] at hok; cases hok
      | ok k =>
        rw [hr, ok_bind] at hok
        obtain ⟨a', b1, b2⟩ := regions_moved hz h.regions t.2 a3 a2 hr
        rw [b1, ok_bind]
        injection hok with hok
        have tabOf : ∀ (n : Nat) (l : List XR), l.length = n → l = tab n fun i => l.getD i nan := by
          intro n l hl
          refine List.ext_getElem? fun i => ?_
          by_cases hi : i < n
          · rw [tab_at _ hi, List.getD_eq_getElem?_getD, List.getElem?_eq_getElem (by omega)]; rfl
          · rw [List.getElem?_eq_none (by omega), List.getElem?_eq_none (by rw [tab_length]; omega)]
        have cutS : ∀ m1 : Img XR, m1.geom = m.geom → m1.conv = m.conv → m1.modelVec = a' → cutOut m1 cols rows = .ok _ :=
          fun m1 q1 q2 q3 => cutOut_eq m m1 cols rows h.part q1 q2 (fun i => a'.getD i nan) (by rw [q3]; exact tabOf _ _ b2.small)
        refine ⟨_, _, _, rfl, cutS _ (by rfl) (by rfl) (by rfl),
          cutOut_eq M M' width height h.whole (by rw [← hok]) (by rw [← hok]) (fun i => k.1.getD i nan) (by rw [← hok]; exact tabOf _ _ b2.large), tab_length _ _, fun i j hi hj => ?_⟩
        have r1 := h.right
        have r2 := h.top
        have g1 : i * cols + j < cols * rows := ix_lt hi hj
        have g2 : (dy + i) * width + (dx + j) < width * height := ix_lt (by omega) (by omega)
        refine ⟨_, tab_at _ g1, ?_⟩
        rw [tab_at _ g2, div_ix _ hj, mod_ix _ hj, div_ix _ (by omega), mod_ix _ (by omega)]
        congr 1
        have e := b2.inside i j hi hj
        have p1 := h.psfCols
        have p2 := h.psfRows
        have i1 : insideAt m i j = (m.geom.psfRows + i) * m.geom.cols + (m.geom.psfCols + j) := by rw [insideAt, Nat.mul_comm]
        have i2 : insideAt M (dy + i) (dx + j) = (dy + (m.geom.psfRows + i)) * M.geom.cols + (dx + (m.geom.psfCols + j)) := by
          rw [insideAt, Nat.mul_comm, ← p1, ← p2, show m.geom.psfRows + (dy + i) = dy + (m.geom.psfRows + i) by omega, show m.geom.psfCols + (dx + j) = dx + (m.geom.psfCols + j) by omega]
        rw [List.getD_eq_getElem?_getD, List.getD_eq_getElem?_getD, i1, i2, e]

/-- A function that rises by its parameter per column, counted from the centre. -/
noncomputable def exSlope : FnDesc XR := ⟨1, false, fun ps x0 _ x _ => ps.headD (fin 0) * (x - x0)⟩

/-- A model of a 3 × 2 image with one function. -/
noncomputable def exWhole : Img XR := ⟨[⟨exSlope, [], fin 0, fin 0, none, fin 1, fin 1⟩], [true], ⟨3, 2, 0, 0⟩, none, none, [], [], false⟩

/-- The same for the 2 × 1 section at the upper right. -/
noncomputable def exPart : Img XR := ⟨[⟨exSlope, [], fin 0, fin 0, none, fin 1, fin 1⟩], [true], ⟨2, 1, 0, 0⟩, none, none, [], [], false⟩

/-- A slope of 5 per column that is zero in column 1 of the whole: the two pixels of the section (columns 2 and 3, row 2) have the values 5 and 10. -/
example : ∃ M' m' imgS imgW, createModelImage exWhole [fin 1, fin 1, fin 5] = .ok M' ∧ createModelImage exPart [fin 1 - fin (1 : Nat), fin 1 - fin (1 : Nat), fin 5] = .ok m' ∧
    cutOut m' 2 1 = .ok imgS ∧ cutOut M' 3 2 = .ok imgW ∧ IsSection 1 1 2 1 3 imgS imgW ∧ imgW[(1 + 0) * 3 + (1 + 1)]? = some (fin 10) := by
  have hset : setupFns [fin 1, fin 1, fin 5] (exWhole.fns.zip exWhole.starts) ⟨0, 0, 0⟩ = .ok ([⟨exSlope, [fin 5], fin 1, fin 1, none, fin 1, fin 1⟩], ⟨3, fin 1, fin 1⟩) := by
    simp [exWhole, exSlope, setupFns, newSet, fnSetup, loopMap, rd]
  obtain ⟨M', hM⟩ : ∃ M', createModelImage exWhole [fin 1, fin 1, fin 5] = .ok M' ∧ M'.modelVec = tab 6 fun k => fin (5 * ((k % 3 : Nat) : ℝ)) := by
    have hfill : fillImage exWhole.geom.n (mainX exWhole.geom) (mainY exWhole.geom) [⟨exSlope, [fin 5], fin 1, fin 1, none, fin 1, fin 1⟩] = .ok (tab 6 fun k => fin (5 * ((k % 3 : Nat) : ℝ))) := by
      refine loopMap_ok _ _ _ fun k hk => ?_
      have e : (mainX exWhole.geom k : XR) - fin 1 = fin ((k % 3 : Nat) : ℝ) := by
        simp only [mainX, exWhole, lit_def, fin_sub]
        congr 1
        rw [Rat.cast_intCast, Int.cast_add, Int.cast_sub, Int.cast_natCast, Int.cast_natCast, Int.cast_one, Nat.cast_zero]
        ring
      have h0 : (0 : XR) = fin 0 := rfl
      show Except.ok ((0 : XR) + (fin 5 * (mainX exWhole.geom k - fin 1) - (0 : XR))) = _
      rw [e, h0, fin_mul, fin_sub, fin_add, zero_add, sub_zero]
    unfold createModelImage
    rw [hset, ok_bind]
    simp only
    rw [hfill, ok_bind]
    exact ⟨_, rfl, rfl⟩
  have hw : WellFormed [(⟨fin 1, fin 1, [(exSlope, [fin 5])]⟩ : SetVals XR)] := ⟨by simp, by simp [exSlope]⟩
  have hsec : SectionModel exPart exWhole 1 1 2 1 3 2 := by
    refine ⟨⟨by decide, fun h => (by cases h), fun _ => ⟨rfl, rfl, rfl, rfl⟩⟩, ⟨by decide, fun h => (by cases h), fun _ => ⟨rfl, rfl, rfl, rfl⟩⟩, rfl, rfl, rfl, rfl, rfl, by decide, by decide,
      .inl ⟨rfl, rfl⟩, .nil⟩
  obtain ⟨m', imgS, imgW, h1, h2, h3, h4⟩ := C120_section_partial hsec [⟨fin 1, fin 1, [(exSlope, [fin 5])]⟩] hw rfl rfl (by
    intro s hs
    simp only [List.mem_singleton] at hs
    subst hs
    refine ⟨⟨1, rfl⟩, ⟨1, rfl⟩, ?_, fun h => (by cases h)⟩
    intro f hf _ a b x0 y0 x y
    simp only [List.mem_singleton] at hf
    subst hf
    simp only [exSlope, fin_sub, show x - a - (x0 - a) = x - x0 by ring]) hM.1
  refine ⟨M', m', imgS, imgW, hM.1, h1, h2, h3, h4, ?_⟩
  have hc : M'.conv = none := by
    have := hM.1
    unfold createModelImage at this
    rw [hset, ok_bind] at this
    injection this with this
    rw [← this]
    rfl
  have : imgW = M'.modelVec := by
    unfold cutOut at h3
    rw [hc] at h3
    injection h3 with h3
    exact h3.symm
  rw [this, hM.2, tab_at _ (by decide)]
  norm_num

end Imfit
