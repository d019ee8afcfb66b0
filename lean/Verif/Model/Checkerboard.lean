import Verif.Model.Plane
import Verif.Model.Psf

/-!
# Functions for tests

Source: `function_objects/func_simple-checkerboard.cpp`.
-/

namespace Imfit

variable {α : Type}

/-- `SimpleCheckerboard::Setup` and `GetValue`, `function_objects/func_simple-checkerboard.cpp:67-101`. -/
def checkerboardValue [FP α] [FI α] [FL α] (params : List α) (offset : Nat) (x0 y0 x y : α) : Res α := do
  let i ← rd params (0 + offset)
  let xi ← ftoi (ffloor (x - x0 + lit (1 / 2)))
  let yi ← ftoi (ffloor (y - y0 + lit (1 / 2)))
  pure (checkerboardCell i xi yi)

end Imfit
