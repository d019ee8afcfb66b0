import Mathlib.Data.Real.Basic
import Mathlib.Order.Interval.Set.Basic

/-!
# Natural cubic splines
-/

namespace Imfit.Spec

/-- A cubic polynomial by its coefficients, with its first and second derivative. -/
structure Cubic where
  a : ℝ
  b : ℝ
  c : ℝ
  d : ℝ

def Cubic.val (q : Cubic) (r : ℝ) : ℝ := q.a + q.b * r + q.c * r ^ 2 + q.d * r ^ 3
def Cubic.slope (q : Cubic) (r : ℝ) : ℝ := q.b + 2 * q.c * r + 3 * q.d * r ^ 2
def Cubic.curv (q : Cubic) (r : ℝ) : ℝ := 2 * q.c + 6 * q.d * r

/-- `S` is a natural cubic spline through the `n` points `(x i, y i)`: it passes through the points, is a cubic polynomial between neighbouring points, its slope and its second
derivative do not jump at the points, and its second derivative is zero at the first and the last point. -/
def IsNaturalSpline (n : ℕ) (x y : ℕ → ℝ) (S : ℝ → ℝ) : Prop :=
  (∀ i, i < n → S (x i) = y i) ∧ ∃ q : ℕ → Cubic, (∀ i, i + 1 < n → ∀ r ∈ Set.Icc (x i) (x (i + 1)), S r = (q i).val r) ∧
    (∀ i, i + 2 < n → (q i).slope (x (i + 1)) = (q (i + 1)).slope (x (i + 1)) ∧ (q i).curv (x (i + 1)) = (q (i + 1)).curv (x (i + 1))) ∧
    (q 0).curv (x 0) = 0 ∧ (q (n - 2)).curv (x (n - 1)) = 0

/-- The points of the parameters `I_0, r_1, I_1, r_2, I_2, r_3, I_3`: the first is at the centre. -/
def knotR (p : ℕ → ℝ) (i : ℕ) : ℝ := if i = 0 then 0 else p (2 * i - 1)

def knotI (p : ℕ → ℝ) (i : ℕ) : ℝ := p (2 * i)

open Classical in
/-- The number of points, of at most `m`: a negative radius, from the third point on, ends the list. -/
noncomputable def usedPoints (m : ℕ) (p : ℕ → ℝ) : ℕ := if 3 ≤ m ∧ knotR p 2 < 0 then 2 else if 4 ≤ m ∧ knotR p 3 < 0 then 3 else m

end Imfit.Spec
