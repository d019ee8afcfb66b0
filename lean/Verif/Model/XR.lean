import Mathlib.Analysis.SpecialFunctions.Log.Basic
import Mathlib.Analysis.SpecialFunctions.Sqrt

/-!
# Number model

`FP α` lists the `double` operations used by the C++ code and carries no laws, so a theorem
that quantifies over every `FP α` also holds for IEEE doubles.

`XR` is the exact-arithmetic instance: real numbers plus `+inf`, `-inf` and `nan`, with the
IEEE 754 rules for special values. Simplified: no rounding, no overflow, one unsigned zero
(so `x/0 = +inf` for `x > 0`).
-/

namespace Imfit

/-- The `double` operations used by the modelled code. No laws are assumed. -/
class FP (α : Type) extends Add α, Sub α, Mul α, Div α, Neg α, Zero α, One α where
  /-- `fabs` -/
  fabs : α → α
  /-- `sqrt` -/
  fsqrt : α → α
  /-- `log` -/
  flog : α → α
  /-- `a < b` -/
  flt : α → α → Bool
  /-- `a <= b` -/
  fle : α → α → Bool
  /-- `isfinite(a)` -/
  isfin : α → Bool
  /-- a literal, or the conversion of an integer value to `double` -/
  lit : ℚ → α

export FP (fabs fsqrt flog flt fle isfin lit)

/-- Reals with IEEE special values. -/
inductive XR where
  | fin (r : ℝ)
  | pinf
  | ninf
  | nan

namespace XR


noncomputable section

/-- IEEE addition of special values; exact on finite values. -/
def add : XR → XR → XR
  | fin a, fin b => fin (a + b)
  | nan, _ => nan
  | _, nan => nan
  | pinf, ninf => nan
  | ninf, pinf => nan
  | pinf, _ => pinf
  | _, pinf => pinf
  | ninf, _ => ninf
  | _, ninf => ninf

/-- Negation. -/
def neg : XR → XR
  | fin a => fin (-a)
  | pinf => ninf
  | ninf => pinf
  | nan => nan

/-- Subtraction `a - b = a + (-b)`. -/
def sub (a b : XR) : XR := add a (neg b)

/-- An infinity with the sign of the real `s`; `nan` when `s = 0` (rule for `0 * inf`). -/
def infSign (s : ℝ) : XR := if s > 0 then pinf else if s < 0 then ninf else nan

/-- IEEE multiplication. -/
def mul : XR → XR → XR
  | fin a, fin b => fin (a * b)
  | nan, _ => nan
  | _, nan => nan
  | fin a, pinf => infSign a
  | fin a, ninf => infSign (-a)
  | pinf, fin b => infSign b
  | ninf, fin b => infSign (-b)
  | pinf, pinf => pinf
  | ninf, ninf => pinf
  | pinf, ninf => ninf
  | ninf, pinf => ninf

/-- IEEE division (zero is unsigned: `a / 0` has the sign of `a`, `0 / 0` is `nan`). -/
def div : XR → XR → XR
  | fin a, fin b => if b = 0 then infSign a else fin (a / b)
  | nan, _ => nan
  | _, nan => nan
  | fin _, pinf => fin 0
  | fin _, ninf => fin 0
  | pinf, fin b => if b < 0 then ninf else pinf
  | ninf, fin b => if b < 0 then pinf else ninf
  | _, _ => nan

/-- `fabs`. -/
def abs' : XR → XR
  | fin a => fin |a|
  | pinf => pinf
  | ninf => pinf
  | nan => nan

/-- `sqrt`: `nan` for negative arguments. -/
def sqrt' : XR → XR
  | fin a => if a < 0 then nan else fin (Real.sqrt a)
  | pinf => pinf
  | ninf => nan
  | nan => nan

/-- `log`: `-inf` at zero, `nan` for negative arguments. -/
def log' : XR → XR
  | fin a => if a < 0 then nan else if a = 0 then ninf else fin (Real.log a)
  | pinf => pinf
  | ninf => nan
  | nan => nan

/-- `a < b`, false whenever an operand is `nan`. -/
def lt' : XR → XR → Bool
  | fin a, fin b => decide (a < b)
  | fin _, pinf => true
  | ninf, fin _ => true
  | ninf, pinf => true
  | _, _ => false

/-- `a <= b`, false whenever an operand is `nan`. -/
def le' : XR → XR → Bool
  | fin a, fin b => decide (a ≤ b)
  | fin _, pinf => true
  | ninf, fin _ => true
  | ninf, pinf => true
  | pinf, pinf => true
  | ninf, ninf => true
  | _, _ => false

/-- `isfinite`. -/
def isfin' : XR → Bool
  | fin _ => true
  | _ => false

instance : FP XR where
  add := add
  sub := sub
  mul := mul
  div := div
  neg := neg
  zero := fin 0
  one := fin 1
  fabs := abs'
  fsqrt := sqrt'
  flog := log'
  flt := lt'
  fle := le'
  isfin := isfin'
  lit := fun q => fin (q : ℝ)

@[simp] theorem zero_def : (0 : XR) = fin 0 := rfl
@[simp] theorem one_def : (1 : XR) = fin 1 := rfl
@[simp] theorem fin_add (a b : ℝ) : fin a + fin b = fin (a + b) := rfl
@[simp] theorem fin_sub (a b : ℝ) : fin a - fin b = fin (a - b) := by
  show fin (a + -b) = _; rw [sub_eq_add_neg]
@[simp] theorem fin_mul (a b : ℝ) : fin a * fin b = fin (a * b) := rfl
@[simp] theorem fin_neg (a : ℝ) : -fin a = fin (-a) := rfl
theorem fin_div (a b : ℝ) : fin a / fin b = if b = 0 then infSign a else fin (a / b) := rfl
@[simp] theorem fin_div_of_ne {a b : ℝ} (h : b ≠ 0) : fin a / fin b = fin (a / b) := by
  rw [fin_div, if_neg h]
theorem fin_div_zero (a : ℝ) : fin a / fin 0 = infSign a := by rw [fin_div, if_pos rfl]
theorem infSign_pos {a : ℝ} (h : 0 < a) : infSign a = pinf := by simp [infSign, h]
theorem infSign_zero : infSign 0 = nan := by simp [infSign]
@[simp] theorem fabs_fin (a : ℝ) : (fabs (fin a) : XR) = fin |a| := rfl
theorem fsqrt_fin (a : ℝ) : (fsqrt (fin a) : XR) = if a < 0 then nan else fin (Real.sqrt a) := rfl
@[simp] theorem fsqrt_fin_of_nonneg {a : ℝ} (h : 0 ≤ a) : (fsqrt (fin a) : XR) = fin (Real.sqrt a) := by
  rw [fsqrt_fin, if_neg (not_lt.mpr h)]
theorem flog_fin (a : ℝ) :
    (flog (fin a) : XR) = if a < 0 then nan else if a = 0 then ninf else fin (Real.log a) := rfl
@[simp] theorem flog_fin_of_pos {a : ℝ} (h : 0 < a) : (flog (fin a) : XR) = fin (Real.log a) := by
  rw [flog_fin, if_neg (not_lt.mpr h.le), if_neg h.ne']
@[simp] theorem flt_fin (a b : ℝ) : flt (fin a) (fin b) = decide (a < b) := rfl
@[simp] theorem fle_fin (a b : ℝ) : fle (fin a) (fin b) = decide (a ≤ b) := rfl
@[simp] theorem lit_def (q : ℚ) : (lit q : XR) = fin (q : ℝ) := rfl
@[simp] theorem isfin_fin (a : ℝ) : isfin (fin a) = true := rfl
@[simp] theorem isfin_pinf : isfin pinf = false := rfl
@[simp] theorem isfin_ninf : isfin ninf = false := rfl
@[simp] theorem isfin_nan : isfin nan = false := rfl
@[simp] theorem nan_add (a : XR) : nan + a = nan := by cases a <;> rfl
@[simp] theorem add_nan (a : XR) : a + nan = nan := by cases a <;> rfl
@[simp] theorem nan_mul (a : XR) : nan * a = nan := by cases a <;> rfl
@[simp] theorem mul_nan (a : XR) : a * nan = nan := by cases a <;> rfl
@[simp] theorem nan_sub (a : XR) : nan - a = nan := by cases a <;> rfl
@[simp] theorem sub_nan (a : XR) : a - nan = nan := by cases a <;> rfl
@[simp] theorem fabs_nan : (fabs nan : XR) = nan := rfl
@[simp] theorem fsqrt_nan : (fsqrt nan : XR) = nan := rfl

theorem isfin_iff (a : XR) : isfin a = true ↔ ∃ r, a = fin r := by
  cases a <;> simp

theorem not_isfin (a : XR) (h : isfin a = false) : a = pinf ∨ a = ninf ∨ a = nan := by
  cases a <;> simp_all

/-- `0 * finite = 0`. -/
theorem zero_mul_fin (r : ℝ) : fin 0 * fin r = fin 0 := by simp

end
end XR
end Imfit
