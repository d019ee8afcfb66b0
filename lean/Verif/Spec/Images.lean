import Verif.Model.Fits

/-!
# The image a name stands for
-/

namespace Imfit.Spec

variable {α : Type}

/-- The name selects a unit that is a two-dimensional image of `c` columns and `r` rows with these pixels. -/
def IsImage (files : Str → Option (FitsFile α)) (name : Str) (c r : ℕ) (px : List α) : Prop :=
  ∃ f h, files name = some f ∧ 0 < f.current ∧ f.hdus[f.current - 1]? = some h ∧ h.image = true ∧ h.naxis = 2 ∧ h.keys = [(c : ℤ), (r : ℤ)] ∧ h.pixels = px

/-- Every name selects a unit that exists, and every two-dimensional image has its size in the header. -/
def Sound (files : Str → Option (FitsFile α)) : Prop :=
  ∀ name f, files name = some f → 0 < f.current ∧ ∃ h, f.hdus[f.current - 1]? = some h ∧
    (h.image = true → h.naxis = 2 → ∃ c r : ℕ, h.keys = [(c : ℤ), (r : ℤ)] ∧ h.pixels.length = c * r)

/-- Images whose sides fit into an `int`. -/
def Small (files : Str → Option (FitsFile α)) : Prop :=
  ∀ name c r px, IsImage files name c r px → c < 2147483648 ∧ r < 2147483648

end Imfit.Spec
