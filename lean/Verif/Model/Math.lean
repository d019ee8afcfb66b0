import Verif.Model.XR
import Mathlib.Analysis.SpecialFunctions.Pow.Real
import Mathlib.Analysis.SpecialFunctions.Trigonometric.Basic

/-!
# Mathematical library functions

`FM α` lists the functions of `<math.h>` used by the image functions and by the multi-image code. It carries no laws. `XR` has the exact functions,
with the special values of C Annex F (one unsigned zero).
-/

namespace Imfit

/-- Functions of `<math.h>`. No laws are assumed. -/
class FM (α : Type) where
  /-- `cos` -/
  fcos : α → α
  /-- `sin` -/
  fsin : α → α
  /-- `exp` -/
  fexp : α → α
  /-- `pow` -/
  fpow : α → α → α

export FM (fcos fsin fexp fpow)

namespace XR
noncomputable section

/-- `cos`: `nan` for infinite arguments. -/
def cos' : XR → XR
  | fin a => fin (Real.cos a)
  | _ => nan

/-- `sin`: `nan` for infinite arguments. -/
def sin' : XR → XR
  | fin a => fin (Real.sin a)
  | _ => nan

/-- `exp`. -/
def exp' : XR → XR
  | fin a => fin (Real.exp a)
  | pinf => pinf
  | ninf => fin 0
  | nan => nan

/-- `pow` with a finite positive base. -/
def powPos (a : ℝ) : XR → XR
  | fin b => fin (a ^ b)
  | pinf => if a < 1 then fin 0 else if a = 1 then fin 1 else pinf
  | ninf => if a < 1 then pinf else if a = 1 then fin 1 else fin 0
  | nan => if a = 1 then fin 1 else nan

/-- `pow` with base zero. -/
def powZero : XR → XR
  | fin b => if b = 0 then fin 1 else if 0 < b then fin 0 else pinf
  | pinf => fin 0
  | ninf => pinf
  | nan => nan

open Classical in
/-- `pow` with a finite negative base: defined only for integer exponents. -/
def powNeg (a : ℝ) : XR → XR
  | fin b => if h : ∃ k : ℤ, (k : ℝ) = b then fin (a ^ h.choose) else nan
  | pinf => if |a| < 1 then fin 0 else if |a| = 1 then fin 1 else pinf
  | ninf => if |a| < 1 then pinf else if |a| = 1 then fin 1 else fin 0
  | nan => nan

/-- `pow` with base `+inf`. -/
def powInf : XR → XR
  | fin b => if b = 0 then fin 1 else if 0 < b then pinf else fin 0
  | pinf => pinf
  | ninf => fin 0
  | nan => nan

open Classical in
/-- `pow` with base `-inf`. -/
def powNInf : XR → XR
  | fin b => if b = 0 then fin 1 else if 0 < b then (if ∃ k : ℤ, (2 * k + 1 : ℝ) = b then ninf else pinf) else fin 0
  | pinf => pinf
  | ninf => fin 0
  | nan => nan

/-- `pow`. -/
def pow' : XR → XR → XR
  | fin a, y => if 0 < a then powPos a y else if a = 0 then powZero y else powNeg a y
  | pinf, y => powInf y
  | ninf, y => powNInf y
  | nan, fin b => if b = 0 then fin 1 else nan
  | nan, _ => nan

instance : FM XR where
  fcos := cos'
  fsin := sin'
  fexp := exp'
  fpow := pow'

@[simp] theorem fcos_fin (a : ℝ) : fcos (fin a) = fin (Real.cos a) := rfl
@[simp] theorem fsin_fin (a : ℝ) : fsin (fin a) = fin (Real.sin a) := rfl
@[simp] theorem fexp_fin (a : ℝ) : fexp (fin a) = fin (Real.exp a) := rfl
theorem fpow_pos {a : ℝ} (h : 0 < a) (b : ℝ) : fpow (fin a) (fin b) = fin (a ^ b) := by
  show (if 0 < a then powPos a (fin b) else _) = _
  rw [if_pos h]; rfl
theorem fpow_zero_pos {b : ℝ} (h : 0 < b) : fpow (fin 0) (fin b) = fin 0 := by
  show (if (0 : ℝ) < 0 then _ else if (0 : ℝ) = 0 then powZero (fin b) else _) = _
  rw [if_neg (lt_irrefl 0), if_pos rfl]
  simp only [powZero]
  rw [if_neg h.ne', if_pos h]
/-- For a non-negative base and a positive exponent `pow` is the real power. -/
theorem fpow_nonneg {a b : ℝ} (ha : 0 ≤ a) (hb : 0 < b) : fpow (fin a) (fin b) = fin (a ^ b) := by
  rcases ha.lt_or_eq with h | h
  · exact fpow_pos h b
  · rw [← h, fpow_zero_pos hb, Real.zero_rpow hb.ne']

end
end XR
end Imfit
