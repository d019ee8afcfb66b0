import Verif.Model.XR
import Verif.Model.Loop

/-!
# Statistics helpers

Source: `core/statistics.cpp`. Array length and the count argument are separate, as in the source.
-/

namespace Imfit

variable {α : Type}

/-- Sum of the first `n` entries. -/
def sumVals [FP α] (v : List α) (n : Nat) : Res α :=
  forN n 0 fun k acc => do
    let x ← rd v k
    pure (acc + x)

/-- `Mean`, `core/statistics.cpp:38-47`. -/
def meanOf [FP α] (v : List α) (n : Nat) : Res α := do
  let s ← sumVals v n
  pure (s / lit (n : ℚ))

/-- Sum of squared differences. `core/statistics.cpp:64-67`. -/
def sumSqDiff [FP α] (v : List α) (n : Nat) (mean : α) : Res α :=
  forN n 0 fun k acc => do
    let x ← rd v k
    pure (acc + (x - mean) * (x - mean))

/-- `StandardDeviation`, `core/statistics.cpp:54-72`. -/
def stdDev [FP α] (v : List α) (n : Nat) : Res α := do
  let s ← sumVals v n
  let q ← sumSqDiff v n (s / lit (n : ℚ))
  if fle 0 q then pure (fsqrt (q / lit (((n : Int) - 1 : Int) : ℚ))) else pure 0

/-- C `round` for a non-negative number: halves go up. -/
def roundHalfUp (q : ℚ) : Int := ⌊q + 1 / 2⌋

/-- Lower index. `core/statistics.cpp:88-92`. Exact product (the source multiplies doubles). -/
def ciLower (n : Nat) : Int :=
  let i := roundHalfUp (1585 / 10000 * (n : ℚ)) - 1
  if i < 0 then 0 else i

/-- Upper index. `core/statistics.cpp:89-95`. -/
def ciUpper (n : Nat) : Int :=
  let i := roundHalfUp (8415 / 10000 * (n : ℚ))
  if i ≥ (n : Int) then (n : Int) - 1 else i

/-- `SortComp`, `core/statistics.cpp:108-120`. -/
def sortComp [FP α] (x y : α) : Int :=
  if flt y x then 1 else if fle x y && fle y x then 0 else -1

/-- `qsort` with `SortComp` on the first `n` entries (the rest of the array is untouched). The library routine is represented by a merge sort: for a
comparison that is a total preorder (no NaN) every correct sort gives the same values. `core/statistics.cpp:98`. -/
def sortVals [FP α] (v : List α) (n : Nat) : List α :=
  (v.take n).mergeSort (fun x y => decide (sortComp x y ≤ 0)) ++ v.drop n

/-- `ConfidenceInterval`, `core/statistics.cpp:84-100`. Returns the sorted array and the two bounds. -/
def confInterval [FP α] (v : List α) (n : Nat) : Res (List α × α × α) := do
  let s := sortVals v n
  let lo ← rdI s (ciLower n)
  let up ← rdI s (ciUpper n)
  pure (s, lo, up)

/-- `-2 ln(likelihood)` from the argument. `core/statistics.cpp:144-147, 167-170`. -/
def minusTwoLogL [FP α] (logL : α) (chiSquareUsed : Bool) : α :=
  if chiSquareUsed then logL else -(lit 2) * logL

/-- `AIC_corrected`, `core/statistics.cpp:139-151`. -/
def aicCorrected [FP α] (logL : α) (nParams nData : Int) (chiSquareUsed : Bool) : α :=
  let twok : α := lit 2 * lit (nParams : ℚ)
  let aic := minusTwoLogL logL chiSquareUsed + twok
  let corr := lit 2 * lit (nParams : ℚ) * (lit (nParams : ℚ) + lit 1) / (lit (nData : ℚ) - lit (nParams : ℚ) - lit 1)
  aic + corr

/-- `BIC`, `core/statistics.cpp:163-176`. -/
def bic [FP α] (logL : α) (nParams nData : Int) (chiSquareUsed : Bool) : α :=
  minusTwoLogL logL chiSquareUsed + lit (nParams : ℚ) * flog (lit (nData : ℚ))

end Imfit
