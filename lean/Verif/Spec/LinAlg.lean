import Mathlib.LinearAlgebra.Matrix.NonsingularInverse
import Mathlib.Data.Real.Basic

/-!
# Specification of the linear algebra of the Levenberg-Marquardt solver
-/

namespace Imfit.Spec

open Matrix

/-- `A P = Q R`: `Q` is orthogonal, `R` upper trapezoidal with a diagonal of nonincreasing size, and column `j` of `A P` is column `π j` of `A`.
Each diagonal element is at least as large as the rest of every later column, which is what the choice of the column with the largest norm is for. -/
structure IsQR {m n : ℕ} (A : Matrix (Fin m) (Fin n) ℝ) (π : Equiv.Perm (Fin n)) (Q : Matrix (Fin m) (Fin m) ℝ) (R : Matrix (Fin m) (Fin n) ℝ) :
    Prop where
  orth : Qᵀ * Q = 1
  factor : A.submatrix id π = Q * R
  upper : ∀ (i : Fin m) (j : Fin n), (j : ℕ) < i → R i j = 0
  order : ∀ (i i' : Fin m) (j j' : Fin n), (i : ℕ) = j → (i' : ℕ) = j' → i ≤ i' → |R i' j'| ≤ |R i j|
  pivot : ∀ (i : Fin m) (j j' : Fin n), (i : ℕ) = j → j ≤ j' → ∑ i' ∈ Finset.univ.filter (fun i' => i ≤ i'), R i' j' ^ 2 ≤ R i j ^ 2

/-- The columns of a matrix are shorter than `s`. -/
def ColumnsBelow {m n : ℕ} (A : Matrix (Fin m) (Fin n) ℝ) (s : ℝ) : Prop := ∀ k, ∑ i, A i k ^ 2 < s ^ 2

/-- `x` solves the normal equations `(Jᵀ J + λ D²) x = Jᵀ f` of the damped linear least-squares problem. -/
def DampedNormal {m n : ℕ} (J : Matrix (Fin m) (Fin n) ℝ) (f : Fin m → ℝ) (d : Fin n → ℝ) (lam : ℝ) (x : Fin n → ℝ) : Prop :=
  (Jᵀ * J + lam • Matrix.diagonal fun j => d j ^ 2) *ᵥ x = Jᵀ *ᵥ f

/-- The sum of squares that the linear model `f - J x` of the residuals predicts. -/
def modelSum {m n : ℕ} (J : Matrix (Fin m) (Fin n) ℝ) (f : Fin m → ℝ) (x : Fin n → ℝ) : ℝ := ∑ i, (f i - (J *ᵥ x) i) ^ 2

/-- The square of the size of a step in units of `1 / d`. -/
def scaledSize {n : ℕ} (d x : Fin n → ℝ) : ℝ := ∑ j, (d j * x j) ^ 2

/-- No step of the same size or smaller is better for the linear model. -/
def BestOfItsSize {m n : ℕ} (J : Matrix (Fin m) (Fin n) ℝ) (f : Fin m → ℝ) (d x : Fin n → ℝ) : Prop :=
  ∀ y, scaledSize d y ≤ scaledSize d x → modelSum J f x ≤ modelSum J f y

/-- `C` is the covariance matrix of the parameters in `K`, the others being fixed: the inverse of `Jᵀ J` on `K`, zero elsewhere. -/
structure CovOn {m n : ℕ} (J : Matrix (Fin m) (Fin n) ℝ) (K : Finset (Fin n)) (C : Matrix (Fin n) (Fin n) ℝ) : Prop where
  symm : Cᵀ = C
  zero : ∀ i j, i ∉ K → C i j = 0
  inv : ∀ i ∈ K, ∀ l ∈ K, ∑ k ∈ K, C i k * (Jᵀ * J) k l = if i = l then 1 else 0

/-- No combination of the columns of `J` with coefficients of norm 1 is shorter than `s`, and the columns are shorter than `s / tol`. -/
def WellConditioned {m n : ℕ} (J : Matrix (Fin m) (Fin n) ℝ) (tol : ℝ) : Prop :=
  ∃ s : ℝ, (∀ x, s ^ 2 * ∑ j, x j ^ 2 ≤ ∑ i, ((J *ᵥ x) i) ^ 2) ∧ ∀ j, tol ^ 2 * ∑ i, J i j ^ 2 < s ^ 2

end Imfit.Spec
