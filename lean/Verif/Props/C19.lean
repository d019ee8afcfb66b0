import Verif.Model.Region
import Verif.Lemmas.Fit

/-!
# C19 — oversampled regions are clipped to the image
-/

namespace Imfit

variable {α : Type} [FP α]

/-- Pixel (x, y) belongs to a rectangle. -/
def Rect.Has (r : Rect) (x y : Int) : Prop := r.x1 ≤ x ∧ x ≤ r.x2 ∧ r.y1 ≤ y ∧ y ≤ r.y2

/-- Pixel (x, y) of the data image lies in the part of the main image that the region replaces, according to the sizes recorded in the region. -/
def Region.Covers (r : Region α) (x y : Int) : Prop :=
  r.x1 ≤ x ∧ (x - r.x1 + 1) * r.scale + 2 * r.geom.psfCols ≤ r.geom.cols ∧
  r.y1 ≤ y ∧ (y - r.y1 + 1) * r.scale + 2 * r.geom.psfRows ≤ r.geom.rows

/-- The inputs satisfy the assertions that do not concern the overlap; see the text of `C19_clip_partial`. -/
structure RegionArgs (r : Rect) (scale : Int) (psf : OsPsf α) (main : Geom) : Prop where
  psfSize : 1 ≤ psf.cols ∧ 1 ≤ psf.rows
  wide : r.x1 < r.x2 ∧ r.y1 < r.y2
  scalePos : 1 ≤ scale
  mainSize : 0 < main.cols ∧ 0 < main.rows
  finite : (psf.pix.all fun p => isfin p) = true

/-- C19 for rectangles with x1 < x2 and y1 < y2 (any integers): if the rectangle meets the image, the region covers exactly the
pixels of the rectangle that are in the image; if not, the call stops at a failed assertion. Missing: rectangles of
width or height one, see `C19_one_pixel_false`. -/
theorem C19_clip_partial (r : Rect) (scale : Int) (psf : OsPsf α) (cols rows : Nat) (main : Geom)
    (conv : List α → List α) (interp : Interp α) (h : RegionArgs r scale psf main) :
    ((∃ x y, r.Has x y ∧ 1 ≤ x ∧ x ≤ cols ∧ 1 ≤ y ∧ y ≤ rows) →
      ∃ g, addRegion r scale psf cols rows main conv interp = .ok (some g) ∧
        ∀ x y, g.Covers x y ↔ (r.Has x y ∧ 1 ≤ x ∧ x ≤ cols ∧ 1 ≤ y ∧ y ≤ rows)) ∧
    ((¬ ∃ x y, r.Has x y ∧ 1 ≤ x ∧ x ≤ cols ∧ 1 ≤ y ∧ y ≤ rows) →
      addRegion r scale psf cols rows main conv interp = .error .assert) := by
  have hred : addRegion r scale psf cols rows main conv interp =
      (makeRegion (clipRect r cols rows) scale.toNat psf main conv interp >>= fun g => pure (some g)) := by
    unfold addRegion
    rw [if_neg (not_not.2 h.psfSize), if_neg (not_not.2 h.wide), if_neg (not_not.2 h.scalePos), if_neg (not_not.2 h.mainSize), h.finite]
    simp
  obtain ⟨hx, hy⟩ := h.wide
  have hs := h.scalePos
  rw [hred]
  have ex1 : (clipRect r cols rows).x1 = max r.x1 1 := by simp only [clipRect]; split_ifs <;> omega
  have ex2 : (clipRect r cols rows).x2 = min r.x2 cols := by simp only [clipRect]; split_ifs <;> omega
  have ey1 : (clipRect r cols rows).y1 = max r.y1 1 := by simp only [clipRect]; split_ifs <;> omega
  have ey2 : (clipRect r cols rows).y2 = min r.y2 rows := by simp only [clipRect]; split_ifs <;> omega
  generalize clipRect r cols rows = c at ex1 ex2 ey1 ey2 ⊢
  constructor
  · rintro ⟨x, y, ⟨a1, a2, a3, a4⟩, b1, b2, b3, b4⟩
    unfold makeRegion
    rw [if_neg (by omega), if_neg (by omega)]
    simp only [ok_bind, pure_eq_ok]
    refine ⟨_, rfl, ?_⟩
    intro u v
    have hsp : (0 : Int) < scale := by omega
    have hmul : ∀ a b : Int, a * scale ≤ b * scale ↔ a ≤ b := fun a b => mul_le_mul_iff_of_pos_right hsp
    have e1 : ((scale.toNat : Nat) : Int) = scale := by omega
    simp only [Region.Covers, Rect.Has, Nat.cast_add, Nat.cast_mul, Nat.cast_ofNat, e1]
    rw [show ((c.x2 - c.x1 + 1).toNat : Int) = c.x2 - c.x1 + 1 by omega,
      show ((c.y2 - c.y1 + 1).toNat : Int) = c.y2 - c.y1 + 1 by omega]
    have k1 := hmul (u - c.x1 + 1) (c.x2 - c.x1 + 1)
    have k2 := hmul (v - c.y1 + 1) (c.y2 - c.y1 + 1)
    constructor
    · rintro ⟨g1, g2, g3, g4⟩
      have := k1.1 (by omega)
      have := k2.1 (by omega)
      omega
    · rintro ⟨⟨g1, g2, g3, g4⟩, g5, g6, g7, g8⟩
      have := k1.2 (by omega)
      have := k2.2 (by omega)
      omega
  · intro hno
    unfold makeRegion
    by_cases d1 : c.x2 - c.x1 + 1 > 0
    · rw [if_neg (not_not.2 d1)]
      by_cases d2 : c.y2 - c.y1 + 1 > 0
      · exfalso
        exact hno ⟨c.x1, c.y1, ⟨by omega, by omega, by omega, by omega⟩, by omega, by omega, by omega, by omega⟩
      · rw [if_pos d2]; rfl
    · rw [if_pos d1]; rfl

/-- The full claim is false for a region one pixel wide: for every image that contains it, every scale and PSF, the call
stops at a failed assertion although the region lies inside the image. -/
theorem C19_one_pixel_false (x y1 y2 : Int) (scale : Int) (psf : OsPsf α) (cols rows : Nat) (main : Geom)
    (conv : List α → List α) (interp : Interp α) :
    addRegion ⟨x, x, y1, y2⟩ scale psf cols rows main conv interp = .error .assert := by
  unfold addRegion
  by_cases h : 1 ≤ psf.cols ∧ 1 ≤ psf.rows
  · rw [if_neg (not_not.2 h)]
    simp
  · rw [if_pos h]

/-- Subtracting the offset of an image section moves the rectangle: pixel (x, y) of the section belongs to the corrected rectangle iff
pixel (x + xOff, y + yOff) of the full image belongs to the rectangle given by the user. -/
theorem C19_offset (r : Rect) (xOff yOff x y : Int) : (correctRect r xOff yOff).Has x y ↔ r.Has (x + xOff) (y + yOff) := by
  simp only [Rect.Has, correctRect]
  omega

/-- Example: a 10 x 8 image, region [-3:4, 6:20], scale 3, 5 x 5 PSF: the region is x 1..4, y 6..8. -/
example : ∃ g, addRegion (α := XR) ⟨-3, 4, 6, 20⟩ 3 ⟨5, 5, [.fin 1]⟩ 10 8 ⟨10, 8, 0, 0⟩ id (fun _ _ => 0) = .ok (some g) ∧
    g.Covers 1 6 ∧ g.Covers 4 8 ∧ ¬ g.Covers 5 8 ∧ ¬ g.Covers 4 9 ∧ ¬ g.Covers 4 5 := by
  have h : RegionArgs (α := XR) ⟨-3, 4, 6, 20⟩ 3 ⟨5, 5, [.fin 1]⟩ ⟨10, 8, 0, 0⟩ :=
    ⟨by simp, by simp, by simp, by simp, by simp⟩
  obtain ⟨g, g1, g2⟩ := (C19_clip_partial _ 3 _ 10 8 _ id (fun _ _ => 0) h).1 ⟨1, 6, by simp [Rect.Has], by simp⟩
  refine ⟨g, g1, ?_⟩
  simp only [g2, Rect.Has]
  norm_num

end Imfit
