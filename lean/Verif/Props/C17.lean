import Verif.Model.Region
import Verif.Lemmas.Fit
import Mathlib.Tactic.FieldSimp
import Mathlib.Tactic.Linarith
import Mathlib.Tactic.Ring
import Mathlib.Algebra.BigOperators.Intervals

/-!
# C17 — down-sampling replaces each region pixel by the mean of its sub-pixels
-/

namespace Imfit

open XR Finset

/-- An oversampled region of `dx` x `dy` main pixels, as stored: oversampled image with padding, inside a main image with padding, origin
(x1, y1) in data coordinates; the rectangle lies in the data image. -/
structure RegionFits (g mg : Geom) (x1 y1 : Int) (scale dx dy : Nat) : Prop where
  scalePos : 1 ≤ scale
  gcols : g.cols = dx * scale + 2 * g.psfCols
  grows : g.rows = dy * scale + 2 * g.psfRows
  left : 1 ≤ x1
  low : 1 ≤ y1
  right : x1 - 1 + dx + 2 * mg.psfCols ≤ mg.cols
  top : y1 - 1 + dy + 2 * mg.psfRows ≤ mg.rows

/-- Mean of the sub-pixels of region pixel (is, js) (row, column, from 0), for an oversampled image with real pixel values `v`. -/
noncomputable def blockMean (v : Nat → ℝ) (g : Geom) (scale is js : Nat) : ℝ :=
  (∑ a ∈ range scale, ∑ b ∈ range scale, v ((g.psfRows + is * scale + a) * g.cols + (g.psfCols + js * scale + b))) / (scale * scale : ℝ)

/-- Row and column of the region's lower-left pixel in the padded main image. -/
def row0 (mg : Geom) (y1 : Int) : Nat := (y1 - 1 + mg.psfRows).toNat
/-- see `row0` -/
def col0 (mg : Geom) (x1 : Int) : Nat := (x1 - 1 + mg.psfCols).toNat

/-- Value wanted at row `i`, column `j` of the padded main image. -/
noncomputable def replaced (v : Nat → ℝ) (g mg : Geom) (x1 y1 : Int) (scale dx dy : Nat) (main : Nat → XR) (i j : Nat) : XR :=
  if row0 mg y1 ≤ i ∧ i < row0 mg y1 + dy ∧ col0 mg x1 ≤ j ∧ j < col0 mg x1 + dx then
    fin (blockMean v g scale (i - row0 mg y1) (j - col0 mg x1))
  else main (i * mg.cols + j)

theorem binFlux_eq (v : Nat → ℝ) (n cols ii1 jj1 scale : Nat)
    (h : ∀ a b, a < scale → b < scale → (ii1 + a) * cols + (jj1 + b) < n) :
    binFlux (tab n fun k => fin (v k)) cols ii1 jj1 scale =
      .ok (fin (∑ a ∈ range scale, ∑ b ∈ range scale, v ((ii1 + a) * cols + (jj1 + b)))) := by
  unfold binFlux
  rw [forN_ok scale 0 _ (fun A => fin (∑ a ∈ range A, ∑ b ∈ range scale, v ((ii1 + a) * cols + (jj1 + b)))) (by simp)]
  intro a ha
  rw [forN_ok scale _ _ (fun B => fin (∑ a' ∈ range a, ∑ b ∈ range scale, v ((ii1 + a') * cols + (jj1 + b)) +
      ∑ b ∈ range B, v ((ii1 + a) * cols + (jj1 + b)))) (by simp)]
  · rw [sum_range_succ]
  · intro b hb
    have : rd (tab n fun k => fin (v k)) ((ii1 + a) * cols + (jj1 + b)) = .ok (fin (v ((ii1 + a) * cols + (jj1 + b)))) :=
      rd_range_map _ (h a b ha hb)
    rw [this]
    simp only [ok_bind, pure_eq_ok, fin_add]
    rw [sum_range_succ]
    congr 2
    ring

theorem wrI_tab {β : Type} (n : Nat) (f : Nat → β) (i : Int) (k : Nat) (hk : i = k) (hkn : k < n) (b : β) :
    wrI (tab n f) i b = .ok (tab n fun z => if z = k then b else f z) := by
  subst hk
  unfold wrI
  rw [if_neg (by omega), wr_ok (by simpa [tab] using hkn)]
  congr 1
  apply List.ext_getElem
  · simp [tab]
  · intro z h1 h2
    simp only [tab, Int.toNat_natCast, List.getElem_set, List.getElem_map, List.getElem_range]
    by_cases h : k = z
    · simp [h]
    · simp [h, Ne.symm h]

/-- C17 under the condition that makes the row count computed by the code right: `(cols - 2 psfRows) / scale = dy` (the code divides the number of
*columns*). For every main image and every oversampled image with finite pixels: no out-of-bounds access; every main-image pixel inside the
region becomes the mean of its `scale * scale` sub-pixels; every other pixel is untouched. Missing: regions for which the condition fails,
see `C17_wide_false`, `C17_tall_false` and `C17_memory_false`. -/
theorem C17_downsample_partial (g mg : Geom) (x1 y1 : Int) (scale dx dy : Nat) (h : RegionFits g mg x1 y1 scale dx dy)
    (hrows : Int.tdiv ((g.cols : Int) - 2 * (g.psfRows : Int)) (scale : Int) = dy) (v : Nat → ℝ) (main : Nat → XR) :
    ∃ out, downsample (tab g.n fun k => fin (v k)) g (tab mg.n main) mg x1 y1 scale = .ok out ∧
      out.length = mg.n ∧
      ∀ i j, i < mg.rows → j < mg.cols → out[i * mg.cols + j]? = some (replaced v g mg x1 y1 scale dx dy main i j) := by
  obtain ⟨hs, hc, hr, hl, hlow, hright, htop⟩ := h
  have hsr : subRows g scale = dy := by unfold subRows; rw [hrows]; simp
  have hsc : subCols g scale = dx := by
    unfold subCols
    rw [hc]
    have : ((dx * scale + 2 * g.psfCols : Nat) : Int) - 2 * (g.psfCols : Int) = (dx : Int) * scale := by push_cast; ring
    rw [this, Int.mul_tdiv_cancel _ (by omega)]
    simp
  have hrow0 : (row0 mg y1 : Int) = y1 - 1 + mg.psfRows := by unfold row0; omega
  have hcol0 : (col0 mg x1 : Int) = x1 - 1 + mg.psfCols := by unfold col0; omega
  have hR : row0 mg y1 + dy ≤ mg.rows := by omega
  have hC : col0 mg x1 + dx ≤ mg.cols := by omega
  -- value after rows < is complete and row is done up to column js
  let val : Nat → Nat → Nat → XR := fun is js k =>
    let i := k / mg.cols
    let j := k % mg.cols
    if col0 mg x1 ≤ j ∧ j < col0 mg x1 + dx ∧ row0 mg y1 ≤ i ∧
        (i < row0 mg y1 + is ∨ (i = row0 mg y1 + is ∧ j < col0 mg x1 + js)) then
      fin (blockMean v g scale (i - row0 mg y1) (j - col0 mg x1))
    else main k
  have key : downsample (tab g.n fun k => fin (v k)) g (tab mg.n main) mg x1 y1 scale = .ok (tab mg.n (val dy 0)) := by
    unfold downsample
    rw [hsr, hsc]
    rw [forN_ok dy _ _ (fun is => tab mg.n (val is 0))]
    · apply tab_congr
      intro k hk
      simp only [val]
      rw [if_neg]
      rintro ⟨a1, a2, a3, a4 | a4⟩ <;> omega
    · intro is his
      have hstep : ∀ js, js < dx →
          (do
            let f ← binFlux (tab g.n fun k => fin (v k)) g.cols (is * scale + g.psfRows) (js * scale + g.psfCols) scale
            wrI (tab mg.n (val is js)) ((y1 - 1 + (mg.psfRows : Int) + (is : Int)) * (mg.cols : Int) + (x1 - 1 + (mg.psfCols : Int) + (js : Int)))
              (f / lit ((scale * scale : Nat) : ℚ)) : Res (List XR)) = .ok (tab mg.n (val is (js + 1))) := by
        intro js hjs
        rw [binFlux_eq]
        · simp only [ok_bind]
          have hidx : ((y1 - 1 + (mg.psfRows : Int) + (is : Int)) * (mg.cols : Int) + (x1 - 1 + (mg.psfCols : Int) + (js : Int))) =
              (((row0 mg y1 + is) * mg.cols + (col0 mg x1 + js) : Nat) : Int) := by
            push_cast; rw [hrow0, hcol0]
          have hlt : (row0 mg y1 + is) * mg.cols + (col0 mg x1 + js) < mg.n := by
            have h1 : (row0 mg y1 + is + 1) * mg.cols ≤ mg.rows * mg.cols := Nat.mul_le_mul_right _ (by omega)
            have h2 : (row0 mg y1 + is + 1) * mg.cols = (row0 mg y1 + is) * mg.cols + mg.cols := by ring
            have h3 : mg.n = mg.rows * mg.cols := Nat.mul_comm _ _
            omega
          rw [wrI_tab _ _ _ _ hidx hlt]
          congr 1
          apply tab_congr
          intro k hk
          have hcp : 0 < mg.cols := by omega
          have hdm : k = k / mg.cols * mg.cols + k % mg.cols := (Nat.div_add_mod' k mg.cols).symm
          have hmod : ((row0 mg y1 + is) * mg.cols + (col0 mg x1 + js)) % mg.cols = col0 mg x1 + js := by
            rw [Nat.mul_comm, Nat.mul_add_mod, Nat.mod_eq_of_lt (by omega)]
          have hdiv : ((row0 mg y1 + is) * mg.cols + (col0 mg x1 + js)) / mg.cols = row0 mg y1 + is := by
            rw [Nat.mul_comm, Nat.mul_add_div hcp, Nat.div_eq_of_lt (by omega), Nat.add_zero]
          by_cases hk2 : k = (row0 mg y1 + is) * mg.cols + (col0 mg x1 + js)
          · rw [if_pos hk2]
            simp only [val]
            rw [hk2, hmod, hdiv, if_pos ⟨by omega, by omega, by omega, Or.inr ⟨rfl, by omega⟩⟩]
            have hsne : ((scale : ℝ) * scale) ≠ 0 := by
              have : (scale : ℝ) ≠ 0 := by exact_mod_cast (by omega : scale ≠ 0)
              exact mul_ne_zero this this
            simp only [lit_def]
            rw [fin_div_of_ne (by push_cast; exact hsne)]
            congr 1
            unfold blockMean
            push_cast
            congr 1
            apply sum_congr rfl
            intro a _
            apply sum_congr rfl
            intro b _
            congr 1
            rw [show row0 mg y1 + is - row0 mg y1 = is by omega, show col0 mg x1 + js - col0 mg x1 = js by omega]
            ring
          · rw [if_neg hk2]
            simp only [val]
            have hne : ¬ (k / mg.cols = row0 mg y1 + is ∧ k % mg.cols = col0 mg x1 + js) := by
              rintro ⟨e1, e2⟩
              rw [e1, e2] at hdm
              exact hk2 hdm
            have hiff : (col0 mg x1 ≤ k % mg.cols ∧ k % mg.cols < col0 mg x1 + dx ∧ row0 mg y1 ≤ k / mg.cols ∧
                (k / mg.cols < row0 mg y1 + is ∨ (k / mg.cols = row0 mg y1 + is ∧ k % mg.cols < col0 mg x1 + js))) ↔
              (col0 mg x1 ≤ k % mg.cols ∧ k % mg.cols < col0 mg x1 + dx ∧ row0 mg y1 ≤ k / mg.cols ∧
                (k / mg.cols < row0 mg y1 + is ∨ (k / mg.cols = row0 mg y1 + is ∧ k % mg.cols < col0 mg x1 + (js + 1)))) := by
              omega
            simp only [hiff]
        · intro a b ha hb
          have e1 : (is + 1) * scale ≤ dy * scale := Nat.mul_le_mul_right _ (by omega)
          have e2 : (js + 1) * scale ≤ dx * scale := Nat.mul_le_mul_right _ (by omega)
          have e3 : (is + 1) * scale = is * scale + scale := by ring
          have e4 : (js + 1) * scale = js * scale + scale := by ring
          have hcol : js * scale + g.psfCols + b < g.cols := by rw [hc]; omega
          have hrow : is * scale + g.psfRows + a + 1 ≤ g.rows := by rw [hr]; omega
          have h1 : (is * scale + g.psfRows + a + 1) * g.cols ≤ g.rows * g.cols := Nat.mul_le_mul_right _ hrow
          have h2 : (is * scale + g.psfRows + a + 1) * g.cols = (is * scale + g.psfRows + a) * g.cols + g.cols := by ring
          have h3 : g.n = g.rows * g.cols := Nat.mul_comm _ _
          omega
      rw [forN_ok dx _ _ (fun js => tab mg.n (val is js)) rfl hstep]
      congr 1
      apply tab_congr
      intro k hk
      simp only [val]
      have hiff : (col0 mg x1 ≤ k % mg.cols ∧ k % mg.cols < col0 mg x1 + dx ∧ row0 mg y1 ≤ k / mg.cols ∧
          (k / mg.cols < row0 mg y1 + is ∨ (k / mg.cols = row0 mg y1 + is ∧ k % mg.cols < col0 mg x1 + dx))) ↔
        (col0 mg x1 ≤ k % mg.cols ∧ k % mg.cols < col0 mg x1 + dx ∧ row0 mg y1 ≤ k / mg.cols ∧
          (k / mg.cols < row0 mg y1 + (is + 1) ∨ (k / mg.cols = row0 mg y1 + (is + 1) ∧ k % mg.cols < col0 mg x1 + 0))) := by
        omega
      simp only [hiff]
  refine ⟨_, key, by simp [tab], ?_⟩
  intro i j hi hj
  have hlt : i * mg.cols + j < mg.n := by
    have h1 : (i + 1) * mg.cols ≤ mg.rows * mg.cols := Nat.mul_le_mul_right _ hi
    have h2 : (i + 1) * mg.cols = i * mg.cols + mg.cols := by ring
    have h3 : mg.n = mg.rows * mg.cols := Nat.mul_comm _ _
    omega
  have hcp : 0 < mg.cols := by omega
  have hmod : (i * mg.cols + j) % mg.cols = j := by
    rw [Nat.mul_comm, Nat.mul_add_mod, Nat.mod_eq_of_lt hj]
  have hdiv : (i * mg.cols + j) / mg.cols = i := by
    rw [Nat.mul_comm, Nat.mul_add_div hcp, Nat.div_eq_of_lt hj, Nat.add_zero]
  have : (tab mg.n (val dy 0))[i * mg.cols + j]? = some (val dy 0 (i * mg.cols + j)) := by
    simp [tab, hlt]
  rw [this]
  simp only [val, replaced, hmod, hdiv]
  congr 1
  have hiff : (col0 mg x1 ≤ j ∧ j < col0 mg x1 + dx ∧ row0 mg y1 ≤ i ∧ (i < row0 mg y1 + dy ∨ (i = row0 mg y1 + dy ∧ j < col0 mg x1 + 0))) ↔
    (row0 mg y1 ≤ i ∧ i < row0 mg y1 + dy ∧ col0 mg x1 ≤ j ∧ j < col0 mg x1 + dx) := by omega
  simp only [hiff]

/-- The condition of `C17_downsample_partial` holds for square regions with a square oversampled PSF. -/
theorem C17_square (g mg : Geom) (x1 y1 : Int) (scale d : Nat) (h : RegionFits g mg x1 y1 scale d d) (hp : g.psfCols = g.psfRows) :
    Int.tdiv ((g.cols : Int) - 2 * (g.psfRows : Int)) (scale : Int) = d := by
  have hs := h.scalePos
  rw [h.gcols, ← hp]
  have : ((d * scale + 2 * g.psfCols : Nat) : Int) - 2 * (g.psfCols : Int) = (d : Int) * scale := by push_cast; ring
  rw [this, Int.mul_tdiv_cancel _ (by omega)]

/-- The claim is false for a region that is wider than high: 3 x 2 pixels at the lower-left corner of a 3 x 3 image, scale 1, 1 x 1
oversampled PSF. The third row, outside the region, is overwritten (with oversampled padding pixels). -/
theorem C17_wide_false :
    ∃ out, downsample (tab 20 fun _ => fin 7) ⟨5, 4, 1, 1⟩ (tab 9 fun _ => fin 1) ⟨3, 3, 0, 0⟩ 1 1 1 = .ok out ∧
      RegionFits ⟨5, 4, 1, 1⟩ ⟨3, 3, 0, 0⟩ 1 1 1 3 2 ∧ out[2 * 3 + 0]? = some (fin 7) ∧ (fin 7 : XR) ≠ fin 1 := by
  refine ⟨List.replicate 9 (fin 7), ?_, ⟨by decide, by decide, by decide, by decide, by decide, by decide, by decide⟩, rfl, by simp⟩
  have h7 : (fin 7 : XR) / fin 1 = fin 7 := by rw [fin_div_of_ne one_ne_zero]; norm_num
  simp [downsample, subRows, subCols, forN, binFlux, rd, tab, wrI, wr, List.range_succ, List.replicate, lit_def, h7]

/-- The claim is false for a region that is higher than wide: 2 x 3 pixels, scale 1, 1 x 1 PSF, in a 2 x 3 image: the third
row, inside the region, keeps its old value instead of the mean 7 of its (single) sub-pixel. -/
theorem C17_tall_false :
    ∃ out, downsample (tab 20 fun _ => fin 7) ⟨4, 5, 1, 1⟩ (tab 6 fun _ => fin 1) ⟨2, 3, 0, 0⟩ 1 1 1 = .ok out ∧
      RegionFits ⟨4, 5, 1, 1⟩ ⟨2, 3, 0, 0⟩ 1 1 1 2 3 ∧ out[2 * 2 + 0]? = some (fin 1) ∧
      replaced (fun _ => 7) ⟨4, 5, 1, 1⟩ ⟨2, 3, 0, 0⟩ 1 1 1 2 3 (fun _ => fin 1) 2 0 = fin 7 := by
  refine ⟨List.replicate 4 (fin 7) ++ List.replicate 2 (fin 1), ?_,
    ⟨by decide, by decide, by decide, by decide, by decide, by decide, by decide⟩, rfl, ?_⟩
  · have h7 : (fin 7 : XR) / fin 1 = fin 7 := by rw [fin_div_of_ne one_ne_zero]; norm_num
    simp [downsample, subRows, subCols, forN, binFlux, rd, tab, wrI, wr, List.range_succ, List.replicate, lit_def, h7]
  · rw [replaced, if_pos (by decide)]
    simp [blockMean]

/-- Memory safety is false: when the region is the whole 3 x 2 image (scale 1, 1 x 1 PSF), the code writes past the end of the main image,
whatever the pixel values. -/
theorem C17_memory_false (over main : Nat → XR) :
    downsample (tab 20 over) ⟨5, 4, 1, 1⟩ (tab 6 main) ⟨3, 2, 0, 0⟩ 1 1 1 = .error .oob ∧
      RegionFits ⟨5, 4, 1, 1⟩ ⟨3, 2, 0, 0⟩ 1 1 1 3 2 := by
  refine ⟨?_, ⟨by decide, by decide, by decide, by decide, by decide, by decide, by decide⟩⟩
  simp [downsample, subRows, subCols, forN, binFlux, rd, tab, wrI, wr, List.range_succ, bind, Except.bind]

/-- Example: a 2 x 2 region with scale 2 and a 1 x 1 PSF inside a 4 x 4 image satisfies the hypotheses. -/
example : RegionFits ⟨6, 6, 1, 1⟩ ⟨4, 4, 0, 0⟩ 2 2 2 2 2 ∧
    Int.tdiv (((6 : Nat) : Int) - 2 * ((1 : Nat) : Int)) ((2 : Nat) : Int) = (2 : Nat) :=
  ⟨⟨by decide, by decide, by decide, by decide, by decide, by decide, by decide⟩, by decide⟩

end Imfit
