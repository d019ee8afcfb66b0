import Verif.Props.C17
import Verif.Props.C18
import Verif.Lemmas.Image

/-!
# C89: the light of a point source

The values of a point source added up over an image, outside and inside an oversampled region.
-/

namespace Imfit

open XR Finset

/-- Sum of the values of a function on a grid of `nx` times `ny` points with spacing 1, starting at (u, v): the light of a PSF sampled on a grid. -/
noncomputable def Spec.gridLight (φ : ℝ → ℝ → ℝ) (nx ny : ℕ) (u v : ℝ) : ℝ := ∑ i ∈ range ny, ∑ j ∈ range nx, φ (u + j) (v + i)

/-- An interpolator with the values `φ`. -/
def Spec.HasValues (f : Interp XR) (φ : ℝ → ℝ → ℝ) : Prop := ∀ a b : ℝ, f (fin a) (fin b) = fin (φ a b)

open Spec

/-- A point source after `Setup`: total intensity, place, intensity scale of the image. -/
structure IsPointAt (o : FnObj XR) (itot x0 y0 is : ℝ) : Prop where
  point : o.desc.isPoint = true
  pars : o.pars = [fin itot]
  x0 : o.x0 = fin x0
  y0 : o.y0 = fin y0
  iscale : o.iscale = fin is

/-- Blocks of `k` numbers. -/
theorem sum_blocks (n k : ℕ) (g : ℕ → ℝ) : ∑ i ∈ range n, ∑ a ∈ range k, g (i * k + a) = ∑ z ∈ range (n * k), g z := by
  induction n with
  | zero => simp
  | succ n ih => rw [sum_range_succ, ih, Nat.succ_mul, sum_range_add]

/-- The values of a point source alone in the pass over the pixels. -/
theorem addPoints_one (n : ℕ) (X Y : ℕ → ℝ) (o : FnObj XR) {itot x0 y0 is c : ℝ} (h : IsPointAt o itot x0 y0 is) (hc : o.oscale = fin c) {f : Interp XR} (hf : o.interp = some f)
    {φ : ℝ → ℝ → ℝ} (hφ : HasValues f φ) (v : ℕ → ℝ) :
    addPoints n (fun k => fin (X k)) (fun k => fin (Y k)) [o] (rtab n v) = .ok (rtab n fun k => v k + itot * is * φ (c * (X k - x0)) (c * (Y k - y0))) := by
  have hv : ∀ x y : ℝ, fnValue o (fin x) (fin y) = .ok (fin (itot * is * φ (c * (x - x0)) (c * (y - y0)))) := by
    intro x y
    unfold fnValue
    have hr : rd [fin itot] 0 = .ok (fin itot) := rfl
    rw [if_pos h.point, hf, h.pars, h.x0, h.y0, h.iscale, hc]
    simp only [hr, ok_bind, pure_eq_ok, fin_sub, fin_mul, hφ _ _]
  rw [addPoints_eq]
  · congr 2
    funext k
    simp [sumFn, part, contrib, h.point, valR, hv]
  · intro o' ho' _ k _
    rw [List.mem_singleton.1 ho']
    exact ⟨_, hv _ _⟩

/-- No ordinary functions: the pass over them gives an image of zeros, also after the convolution. -/
theorem fillImage_one (n : ℕ) (X Y : ℕ → XR) (o : FnObj XR) (hp : o.desc.isPoint = true) (conv : Option (List XR → List XR)) (hl : LinOpt n conv) :
    fillImage n X Y [o] = .ok (rtab n fun _ => 0) ∧ applyConv conv (rtab n fun _ => 0) = rtab n fun _ => 0 := by
  constructor
  · rw [fillImage_eq]
    · congr 2
      funext k
      simp [sumFn, part, contrib, hp]
    · intro o' ho' h
      rw [List.mem_singleton.1 ho', hp] at h
      cases h
  · obtain ⟨L, hLa, hL⟩ := applyConv_lin n conv hl
    rw [hL, additive_zero hLa]

/-- The main image of a model that is one point source: its pixels add up to the total intensity times the light of the PSF on the pixel grid. -/
theorem C89_main (m : Img XR) (o : FnObj XR) (hm : m.fns = [o]) (hst : m.starts = [true]) (hreg : m.regions = []) (hlin : LinOpt m.geom.n m.conv) (hp : o.desc.isPoint = true)
    (hn : o.desc.nParams = 1) (hs : o.oscale = fin 1) {is : ℝ} (hi : o.iscale = fin is) {f : Interp XR} (hf : m.interp = some f) {φ : ℝ → ℝ → ℝ} (hφ : HasValues f φ)
    (x0 y0 itot : ℝ) :
    ∃ m' p, createModelImage m [fin x0, fin y0, fin itot] = .ok m' ∧ m'.modelVec = rtab m.geom.n p ∧
      ∑ k ∈ range m.geom.n, p k = itot * is * gridLight φ m.geom.cols m.geom.rows (1 - m.geom.psfCols - x0) (1 - m.geom.psfRows - y0) := by
  let o1 : FnObj XR := { o with pars := [fin itot], x0 := fin x0, y0 := fin y0 }
  have hset : setupFns [fin x0, fin y0, fin itot] (m.fns.zip m.starts) ⟨0, 0, 0⟩ = .ok ([o1], ⟨3, fin x0, fin y0⟩) := by
    rw [hm, hst]
    show (do
      let o' ← fnSetup o [fin x0, fin y0, fin itot] 2 (fin x0) (fin y0)
      let r ← setupFns [fin x0, fin y0, fin itot] [] ⟨2 + o.desc.nParams, fin x0, fin y0⟩
      pure (o' :: r.1, r.2) : Res _) = _
    unfold fnSetup
    rw [hn]
    rfl
  have hX : (mainX m.geom : ℕ → XR) = fun k => fin (((k % m.geom.cols : ℕ) : ℝ) - m.geom.psfCols + 1) := by
    funext k; unfold mainX; rw [lit_def]; push_cast; rfl
  have hY : (mainY m.geom : ℕ → XR) = fun k => fin (((k / m.geom.cols : ℕ) : ℝ) - m.geom.psfRows + 1) := by
    funext k; unfold mainY; rw [lit_def]; push_cast; rfl
  obtain ⟨h1, h2⟩ := fillImage_one m.geom.n (mainX m.geom) (mainY m.geom) o1 hp m.conv hlin
  let o2 : FnObj XR := { o1 with interp := some f }
  have h3 : setInterp m.interp [o1] = [o2] := by
    have hp1 : o1.desc.isPoint = true := hp
    simp [setInterp, hf, hp1, o2]
  have h4 := addPoints_one m.geom.n (fun k => ((k % m.geom.cols : ℕ) : ℝ) - m.geom.psfCols + 1) (fun k => ((k / m.geom.cols : ℕ) : ℝ) - m.geom.psfRows + 1) o2
    (itot := itot) (x0 := x0) (y0 := y0) (is := is) (c := 1) ⟨hp, rfl, rfl, rfl, hi⟩ hs rfl hφ (fun _ => 0)
  let p : ℕ → ℝ := fun k =>
    0 + itot * is * φ (1 * (((k % m.geom.cols : ℕ) : ℝ) - m.geom.psfCols + 1 - x0)) (1 * (((k / m.geom.cols : ℕ) : ℝ) - m.geom.psfRows + 1 - y0))
  refine ⟨{ m with fns := [o2], modelVec := rtab m.geom.n p, computed := true }, p, ?_, rfl, ?_⟩
  rotate_left
  · simp only [p]
    unfold gridLight Geom.n
    rw [Nat.mul_comm, ← sum_blocks, mul_sum]
    refine sum_congr rfl fun i _ => ?_
    rw [mul_sum]
    refine sum_congr rfl fun j hj => ?_
    have hj := mem_range.1 hj
    have e1 : (i * m.geom.cols + j) % m.geom.cols = j := by rw [Nat.mul_comm, Nat.mul_add_mod, Nat.mod_eq_of_lt hj]
    have e2 : (i * m.geom.cols + j) / m.geom.cols = i := by rw [Nat.mul_comm, Nat.mul_add_div (by omega), Nat.div_eq_of_lt hj, Nat.add_zero]
    rw [e1, e2, zero_add]
    congr 2 <;> ring
  · unfold createModelImage
    rw [hset]
    simp only [ok_bind]
    rw [h1]
    simp only [ok_bind]
    rw [h2]
    have hpt : m.points = true := by simp [Img.points, hm, hp]
    unfold pointStep
    rw [if_pos hpt, h3, hX, hY, h4]
    simp only [ok_bind, pure_eq_ok]
    rw [hreg]
    rfl

/-- A point source alone in an oversampled region: the pixels of the region add up to the total intensity times the light of the PSF on the oversampled grid,
divided by the square of the oversampling scale. -/
theorem C89_region (r : Region XR) (dx dy : ℕ) (hfit : RegionFits r.geom r.main r.x1 r.y1 r.scale dx dy)
    (hrows : Int.tdiv ((r.geom.cols : Int) - 2 * (r.geom.psfRows : Int)) (r.scale : Int) = dy) (hlin : LinOpt r.geom.n r.conv) (o : FnObj XR) {itot x0 y0 is : ℝ}
    (ho : IsPointAt o itot x0 y0 is) {f : Interp XR} (hf : r.interp = some f) {φ : ℝ → ℝ → ℝ} (hφ : HasValues f φ) (main : ℕ → XR) :
    ∃ (out : List XR) (os : List (FnObj XR)) (p : ℕ → ℕ → ℝ), computeRegion r (tab r.main.n main) [o] = .ok (out, os) ∧
      (∀ i j, i < dy → j < dx → out[(row0 r.main r.y1 + i) * r.main.cols + (col0 r.main r.x1 + j)]? = some (fin (p i j))) ∧
      ∑ i ∈ range dy, ∑ j ∈ range dx, p i j =
        itot * is * gridLight φ (dx * r.scale) (dy * r.scale) (r.scale * (r.x1 - x0 - 1 / 2) + 1 / 2) (r.scale * (r.y1 - y0 - 1 / 2) + 1 / 2) / (r.scale * r.scale) := by
  have hs := hfit.scalePos
  have hs' : (r.scale : ℝ) ≠ 0 := by positivity
  have hsub : subpix (α := XR) r.scale = fin (1 / r.scale) := by
    unfold subpix
    simp only [one_def, lit_def]
    rw [fin_div_of_ne (by simpa using hs')]
    simp
  let X : ℕ → ℝ := fun k => (r.x1 : ℝ) - 1 / 2 + (((k % r.geom.cols : ℕ) : ℝ) - r.geom.psfCols + 1 / 2) / r.scale
  let Y : ℕ → ℝ := fun k => (r.y1 : ℝ) - 1 / 2 + (((k / r.geom.cols : ℕ) : ℝ) - r.geom.psfRows + 1 / 2) / r.scale
  have hX : (regionX r : ℕ → XR) = fun k => fin (X k) := by
    funext k
    unfold regionX
    rw [hsub]
    simp only [lit_def, fin_mul, fin_sub, fin_add]
    congr 1
    simp only [X]
    generalize k % r.geom.cols = q
    push_cast
    field_simp
    ring
  have hY : (regionY r : ℕ → XR) = fun k => fin (Y k) := by
    funext k
    unfold regionY
    rw [hsub]
    simp only [lit_def, fin_mul, fin_sub, fin_add]
    congr 1
    simp only [Y]
    generalize k / r.geom.cols = q
    push_cast
    field_simp
    ring
  obtain ⟨h1, h2⟩ := fillImage_one r.geom.n (regionX r) (regionY r) o ho.point r.conv hlin
  let o2 : FnObj XR := { o with interp := r.interp, oscale := lit (r.scale : ℚ) }
  have h3 : setRegion r [o] = [o2] := by simp [setRegion, ho.point, o2]
  have h4 := addPoints_one r.geom.n X Y o2 (itot := itot) (x0 := x0) (y0 := y0) (is := is) (c := r.scale) ⟨ho.point, ho.pars, ho.x0, ho.y0, ho.iscale⟩
    (by show lit (r.scale : ℚ) = _; rw [lit_def]; push_cast; rfl) hf hφ (fun _ => 0)
  set v : ℕ → ℝ := fun k => 0 + itot * is * φ (r.scale * (X k - x0)) (r.scale * (Y k - y0)) with hv
  obtain ⟨out, h5, -, h6⟩ := C17_downsample_partial r.geom r.main r.x1 r.y1 r.scale dx dy hfit hrows v main
  obtain ⟨-, hgc, hgr, hl, hlow, hright, htop⟩ := hfit
  have hR : row0 r.main r.y1 + dy ≤ r.main.rows := by unfold row0; omega
  have hC : col0 r.main r.x1 + dx ≤ r.main.cols := by unfold col0; omega
  refine ⟨out, [o2], fun i j => blockMean v r.geom r.scale i j, ?_, ?_, ?_⟩
  · unfold computeRegion
    rw [h1]
    simp only [ok_bind]
    rw [h2, h3, hX, hY, h4]
    simp only [ok_bind]
    unfold rtab
    rw [h5]
    rfl
  · intro i j hi hj
    rw [h6 _ _ (by omega) (by omega)]
    unfold replaced
    rw [if_pos ⟨by omega, by omega, by omega, by omega⟩]
    congr 3 <;> omega
  · unfold blockMean
    simp only [← sum_div]
    congr 1
    unfold gridLight
    rw [mul_sum, ← sum_blocks dy r.scale]
    refine sum_congr rfl fun i hi => ?_
    rw [sum_comm]
    refine sum_congr rfl fun a ha => ?_
    rw [mul_sum, ← sum_blocks dx r.scale]
    refine sum_congr rfl fun j hj => ?_
    refine sum_congr rfl fun b hb => ?_
    have hb' := mem_range.1 hb
    have hj' := mem_range.1 hj
    have hlt : r.geom.psfCols + j * r.scale + b < r.geom.cols := by
      have : (j + 1) * r.scale ≤ dx * r.scale := Nat.mul_le_mul_right _ hj'
      rw [Nat.succ_mul] at this
      omega
    have e1 : ((r.geom.psfRows + i * r.scale + a) * r.geom.cols + (r.geom.psfCols + j * r.scale + b)) % r.geom.cols = r.geom.psfCols + j * r.scale + b := by
      rw [Nat.mul_comm, Nat.mul_add_mod, Nat.mod_eq_of_lt hlt]
    have e2 : ((r.geom.psfRows + i * r.scale + a) * r.geom.cols + (r.geom.psfCols + j * r.scale + b)) / r.geom.cols = r.geom.psfRows + i * r.scale + a := by
      rw [Nat.mul_comm, Nat.mul_add_div (by omega), Nat.div_eq_of_lt hlt, Nat.add_zero]
    simp only [hv, X, Y, e1, e2, zero_add]
    congr 2
    · push_cast
      field_simp
      ring
    · push_cast
      field_simp
      ring

/-- With the oversampling scale 1 the region has the light of the point source. Missing: every other scale, see `C89_flux_false`. -/
theorem C89_flux_partial (r : Region XR) (dx dy : ℕ) (hfit : RegionFits r.geom r.main r.x1 r.y1 r.scale dx dy)
    (hrows : Int.tdiv ((r.geom.cols : Int) - 2 * (r.geom.psfRows : Int)) (r.scale : Int) = dy) (hlin : LinOpt r.geom.n r.conv) (o : FnObj XR) {itot x0 y0 is : ℝ}
    (ho : IsPointAt o itot x0 y0 is) {f : Interp XR} (hf : r.interp = some f) {φ : ℝ → ℝ → ℝ} (hφ : HasValues f φ) (main : ℕ → XR) (h1 : r.scale = 1) :
    ∃ (out : List XR) (os : List (FnObj XR)) (p : ℕ → ℕ → ℝ), computeRegion r (tab r.main.n main) [o] = .ok (out, os) ∧
      (∀ i j, i < dy → j < dx → out[(row0 r.main r.y1 + i) * r.main.cols + (col0 r.main r.x1 + j)]? = some (fin (p i j))) ∧
      ∑ i ∈ range dy, ∑ j ∈ range dx, p i j = itot * is * gridLight φ dx dy (r.x1 - x0) (r.y1 - y0) := by
  obtain ⟨out, os, p, h2, h3, h4⟩ := C89_region r dx dy hfit hrows hlin o ho hf hφ main
  refine ⟨out, os, p, h2, h3, h4.trans ?_⟩
  rw [h1]
  have e : ∀ a b : ℝ, ((1 : ℕ) : ℝ) * (a - b - 1 / 2) + 1 / 2 = a - b := by intro a b; push_cast; ring
  rw [e, e, Nat.mul_one, Nat.mul_one]
  simp

/-- Whatever the oversampling scale above 1: a point source whose PSF has light 1 on the oversampled grid gets the light `itot / scale²` instead of `itot`. -/
theorem C89_flux_false (r : Region XR) (hk : 2 ≤ r.scale) (dx dy : ℕ) (hfit : RegionFits r.geom r.main r.x1 r.y1 r.scale dx dy)
    (hrows : Int.tdiv ((r.geom.cols : Int) - 2 * (r.geom.psfRows : Int)) (r.scale : Int) = dy) (hlin : LinOpt r.geom.n r.conv) (o : FnObj XR) {itot x0 y0 : ℝ}
    (ho : IsPointAt o itot x0 y0 1) {f : Interp XR} (hf : r.interp = some f) {φ : ℝ → ℝ → ℝ} (hφ : HasValues f φ) (main : ℕ → XR) (hi : 0 < itot)
    (h1 : gridLight φ (dx * r.scale) (dy * r.scale) (r.scale * (r.x1 - x0 - 1 / 2) + 1 / 2) (r.scale * (r.y1 - y0 - 1 / 2) + 1 / 2) = 1) :
    ∃ (out : List XR) (os : List (FnObj XR)) (p : ℕ → ℕ → ℝ), computeRegion r (tab r.main.n main) [o] = .ok (out, os) ∧
      (∀ i j, i < dy → j < dx → out[(row0 r.main r.y1 + i) * r.main.cols + (col0 r.main r.x1 + j)]? = some (fin (p i j))) ∧
      ∑ i ∈ range dy, ∑ j ∈ range dx, p i j = itot / (r.scale * r.scale) ∧ ∑ i ∈ range dy, ∑ j ∈ range dx, p i j ≤ itot / 4 ∧ itot / 4 < itot := by
  obtain ⟨out, os, p, h2, h3, h4⟩ := C89_region r dx dy hfit hrows hlin o ho hf hφ main
  rw [h1, mul_one, mul_one] at h4
  have h5 : (4 : ℝ) ≤ r.scale * r.scale := by
    have : (2 : ℝ) ≤ r.scale := by exact_mod_cast hk
    nlinarith
  refine ⟨out, os, p, h2, h3, h4, ?_, by linarith⟩
  rw [h4]
  exact div_le_div_of_nonneg_left hi.le (by norm_num) h5

/-- A PSF with the value 1 within half a pixel of its centre. -/
noncomputable def Spec.dotPsf (a b : ℝ) : ℝ := if |a| < 1 / 2 ∧ |b| < 1 / 2 then 1 else 0

/-- Its interpolator. -/
noncomputable def dotInterp : Interp XR
  | fin a, fin b => fin (dotPsf a b)
  | _, _ => nan

/-- One pixel, oversampled 3 times, with a point source of intensity 9 in its centre: the pixel gets the value 1. The main image of the same source has the light 9. -/
example : (∃ m' p, createModelImage ⟨[⟨⟨1, true, fun _ _ _ _ _ => fin 0⟩, [], fin 0, fin 0, none, fin 1, fin 1⟩], [true], ⟨1, 1, 0, 0⟩, none, some dotInterp, [], [], false⟩
      [fin 1, fin 1, fin 9] = .ok m' ∧ m'.modelVec = rtab 1 p ∧ ∑ k ∈ range 1, p k = 9) ∧
    ∃ (out : List XR) (os : List (FnObj XR)) (p : ℕ → ℕ → ℝ),
      computeRegion ⟨1, 1, ⟨3, 3, 0, 0⟩, 3, none, some dotInterp, ⟨1, 1, 0, 0⟩⟩ [fin 9] [⟨⟨1, true, fun _ _ _ _ _ => fin 0⟩, [fin 9], fin 1, fin 1, none, fin 1, fin 1⟩] =
        .ok (out, os) ∧ out[0]? = some (fin (p 0 0)) ∧ p 0 0 = 1 := by
  constructor
  · obtain ⟨m', p, h1, h2, h3⟩ := C89_main ⟨[⟨⟨1, true, fun _ _ _ _ _ => fin 0⟩, [], fin 0, fin 0, none, fin 1, fin 1⟩], [true], ⟨1, 1, 0, 0⟩, none, some dotInterp, [], [], false⟩
      _ rfl rfl rfl (by intro f hf; cases hf) rfl rfl rfl rfl rfl (φ := dotPsf) (fun _ _ => rfl) 1 1 9
    refine ⟨m', p, h1, h2, h3.trans ?_⟩
    show (9 : ℝ) * 1 * gridLight dotPsf 1 1 (1 - (0 : ℕ) - 1) (1 - (0 : ℕ) - 1) = 9
    unfold gridLight
    rw [sum_range_one, sum_range_one]
    norm_num [dotPsf]
  · obtain ⟨out, os, p, h1, h2, h3⟩ := C89_region ⟨1, 1, ⟨3, 3, 0, 0⟩, 3, none, some dotInterp, ⟨1, 1, 0, 0⟩⟩ 1 1 ⟨by decide, rfl, rfl, by decide, by decide, by decide, by decide⟩
      rfl (by intro f hf; cases hf) ⟨⟨1, true, fun _ _ _ _ _ => fin 0⟩, [fin 9], fin 1, fin 1, none, fin 1, fin 1⟩ (itot := 9) (x0 := 1) (y0 := 1) (is := 1)
      ⟨rfl, rfl, rfl, rfl, rfl⟩ rfl (φ := dotPsf) (fun _ _ => rfl) (fun _ => fin 9)
    refine ⟨out, os, p, h1, h2 0 0 (by decide) (by decide), ?_⟩
    simp only [sum_range_one] at h3
    rw [h3]
    show (9 : ℝ) * 1 * gridLight dotPsf 3 3 ((3 : ℕ) * (((1 : ℤ) : ℝ) - 1 - 1 / 2) + 1 / 2) ((3 : ℕ) * (((1 : ℤ) : ℝ) - 1 - 1 / 2) + 1 / 2) / ((3 : ℕ) * (3 : ℕ)) = 1
    unfold gridLight
    simp only [sum_range_succ, sum_range_zero]
    norm_num [dotPsf, abs_lt]

end Imfit
