import Verif.Spec.Box
import Mathlib.Analysis.SpecialFunctions.Pow.Real

/-!
# Specification of the derivatives used in a fit
-/

namespace Imfit.Spec

/-- A list that holds the real numbers `v`. -/
def reals {n : ℕ} (v : Fin n → ℝ) : List XR := List.ofFn fun i => XR.fin (v i)

/-- The list of functions computes `D`. -/
def Computes {p m : ℕ} (dev : List XR → List XR) (D : (Fin p → ℝ) → Fin m → ℝ) : Prop := ∀ x, dev (reals x) = reals (D x)

/-- The change of a parameter of value `r`: `1.490116e-8` relative to it, absolute for zero. -/
noncomputable def stepSize (r : ℝ) : ℝ := Real.sqrt (2220446 / 10 ^ 22) * if r = 0 then 1 else |r|

/-- The difference quotient of the deviates in the direction of one parameter. -/
noncomputable def quotient {p m : ℕ} (D : (Fin p → ℝ) → Fin m → ℝ) (x : Fin p → ℝ) (k : Fin p) (h : ℝ) (i : Fin m) : ℝ :=
  (D (Function.update x k (x k + h)) i - D x i) / h

/-- Half of the derivative of the sum of squares with respect to parameter `j`, for residuals `f` with Jacobian `J`. -/
def halfGrad {m n : ℕ} (J : Fin m → Fin n → ℝ) (f : Fin m → ℝ) (j : Fin n) : ℝ := ∑ i, J i j * f i

/-- The length of column `j`. -/
noncomputable def colLength {m n : ℕ} (J : Fin m → Fin n → ℝ) (j : Fin n) : ℝ := Real.sqrt (∑ i, J i j ^ 2)

/-- The length of a vector. -/
noncomputable def length {m : ℕ} (f : Fin m → ℝ) : ℝ := Real.sqrt (∑ i, f i ^ 2)

/-- The derivative `g` of a function to be made small is outwards at a limit at which `x` is. -/
def Outwards (l : Limit) (x g : ℝ) : Prop := (l.lower = some x ∧ 0 < g) ∨ (l.upper = some x ∧ g < 0)

/-- No limits. -/
def Limit.Free (l : Limit) : Prop := l.lower = none ∧ l.upper = none

/-- Parameters within their limits; the fixed ones as in `x0`. -/
def Allowed {p : ℕ} (ls : Fin p → Limit) (x0 x : Fin p → ℝ) : Prop := ∀ k, (ls k).Within (x k) ∧ ((ls k).fixed = true → x k = x0 k)

end Imfit.Spec
