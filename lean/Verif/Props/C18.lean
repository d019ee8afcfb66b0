import Verif.Model.Region
import Verif.Lemmas.Fit
import Mathlib.Tactic.FieldSimp
import Mathlib.Tactic.Linarith
import Mathlib.Tactic.Positivity
import Mathlib.Algebra.BigOperators.Intervals
import Mathlib.Algebra.BigOperators.Field

/-!
# C18 — the sub-pixel grid is centred on the pixels

Column `js` and row `is` count the pixels of the region from its lower-left corner (so the pixel is at
x = x1 + js, y = y1 + is); `b`, `a` are the column and row of a sub-pixel inside it.
-/

namespace Imfit

open XR Finset

/-- Position of sub-pixel (a, b) of region pixel (is, js) in the oversampled image. -/
def subIndex (r : Region XR) (is js a b : Nat) : Nat :=
  (is * r.scale + r.geom.psfRows + a) * r.geom.cols + (js * r.scale + r.geom.psfCols + b)

/-- C18, evaluation points: the coordinates at which the sub-pixels are evaluated. -/
theorem C18_points (r : Region XR) (hs : 1 ≤ r.scale) (is js a b : Nat) (hc : js * r.scale + r.geom.psfCols + b < r.geom.cols) :
    regionX r (subIndex r is js a b) = fin ((r.x1 : ℝ) + js + ((b + 1 / 2) / r.scale - 1 / 2)) ∧
    regionY r (subIndex r is js a b) = fin ((r.y1 : ℝ) + is + ((a + 1 / 2) / r.scale - 1 / 2)) := by
  have hs' : (r.scale : ℝ) ≠ 0 := by positivity
  have hmod : subIndex r is js a b % r.geom.cols = js * r.scale + r.geom.psfCols + b := by
    unfold subIndex; rw [Nat.mul_comm, Nat.mul_add_mod]; exact Nat.mod_eq_of_lt hc
  have hdiv : subIndex r is js a b / r.geom.cols = is * r.scale + r.geom.psfRows + a := by
    unfold subIndex
    rw [Nat.mul_comm, Nat.mul_add_div (by omega), Nat.div_eq_of_lt hc, Nat.add_zero]
  have hsub : subpix (α := XR) r.scale = fin (1 / r.scale) := by
    unfold subpix
    simp only [one_def, lit_def]
    rw [fin_div_of_ne (by simpa using hs')]
    simp
  constructor
  · unfold regionX
    rw [hmod, hsub]
    simp only [lit_def, fin_mul, fin_sub, fin_add]
    congr 1
    push_cast
    field_simp
    ring
  · unfold regionY
    rw [hdiv, hsub]
    simp only [lit_def, fin_mul, fin_sub, fin_add]
    congr 1
    push_cast
    field_simp
    ring

/-- Offset of sub-pixel `b` from the pixel centre. -/
noncomputable def subOffset (scale b : Nat) : ℝ := (b + 1 / 2) / scale - 1 / 2

/-- C18: in each direction the offsets of the `scale` sub-pixels from the pixel centre are strictly between -1/2 and 1/2, equally spaced by
1/scale, and have mean zero. -/
theorem C18_centred (scale : Nat) (hs : 1 ≤ scale) :
    (∀ b, b < scale → -(1 / 2) < subOffset scale b ∧ subOffset scale b < 1 / 2) ∧
    (∀ b, subOffset scale (b + 1) - subOffset scale b = 1 / scale) ∧
    (∑ b ∈ range scale, subOffset scale b) / scale = 0 := by
  have hs0 : (0 : ℝ) < scale := by exact_mod_cast hs
  refine ⟨?_, ?_, ?_⟩
  · intro b hb
    have hb' : (b : ℝ) + 1 ≤ scale := by exact_mod_cast hb
    unfold subOffset
    constructor
    · have : 0 < ((b : ℝ) + 1 / 2) / scale := by positivity
      linarith
    · have : ((b : ℝ) + 1 / 2) / scale < 1 := by
        rw [div_lt_one hs0]; linarith
      linarith
  · intro b
    unfold subOffset
    push_cast
    field_simp
    ring
  · have h1 : ∀ n : Nat, ∑ b ∈ range n, (b : ℝ) = n * (n - 1) / 2 := by
      intro n
      induction n with
      | zero => simp
      | succ n ih => rw [sum_range_succ, ih]; push_cast; ring
    have : ∑ b ∈ range scale, subOffset scale b = 0 := by
      unfold subOffset
      rw [sum_sub_distrib, ← sum_div, sum_add_distrib, h1]
      simp only [sum_const, card_range, nsmul_eq_mul]
      field_simp
      ring
    rw [this]; simp

/-- C18, together: the evaluation points of the pixel at (x1 + js, y1 + is) are the pixel centre plus the centred offsets. -/
theorem C18_grid (r : Region XR) (hs : 1 ≤ r.scale) (is js a b : Nat) (hb : b < r.scale)
    (hc : (js + 1) * r.scale + 2 * r.geom.psfCols ≤ r.geom.cols) :
    regionX r (subIndex r is js a b) = fin (((r.x1 + js : Int) : ℝ) + subOffset r.scale b) ∧
    regionY r (subIndex r is js a b) = fin (((r.y1 + is : Int) : ℝ) + subOffset r.scale a) := by
  have hc' : js * r.scale + r.geom.psfCols + b < r.geom.cols := by
    have : (js + 1) * r.scale = js * r.scale + r.scale := by ring
    omega
  have := C18_points r hs is js a b hc'
  rw [this.1, this.2]
  unfold subOffset
  push_cast
  exact ⟨rfl, rfl⟩

/-- Example: scale 2 gives the offsets -1/4 and 1/4. -/
example : subOffset 2 0 = -1 / 4 ∧ subOffset 2 1 = 1 / 4 := by
  unfold subOffset; norm_num

/-- Example: a region of two pixels with scale 2, origin (5, 7), no padding: the third sub-pixel of the first row is at (5.75, 6.75). -/
example : let r : Region XR := ⟨5, 7, ⟨4, 2, 0, 0⟩, 2, none, none, ⟨10, 10, 0, 0⟩⟩
    regionX r 2 = fin (6 - 1 / 4) ∧ regionY r 2 = fin (7 - 1 / 4) := by
  intro r
  have := C18_grid r (by decide) 0 1 0 0 (by decide) (by decide)
  simp only [subIndex, r, subOffset] at this
  norm_num at this ⊢
  exact this

end Imfit
