import Verif.Model.Layout

/-!
# Specification of the parameter layout

A model is a list of function sets, a set is a list of functions. The parameter vector holds, set by set, X0, Y0 and
then the parameters of the functions of that set, function by function.
-/

namespace Imfit.Spec

/-- One function set with its values: X0, Y0, and each function with its own parameter values. -/
structure SetVals (α : Type) where
  x0 : α
  y0 : α
  fns : List (FnDesc α × List α)

/-- The parameter vector. -/
def paramVector {α : Type} (sets : List (SetVals α)) : List α :=
  sets.flatMap fun s => s.x0 :: s.y0 :: s.fns.flatMap (·.2)

/-- Index of the first function of each set, counting from `m`. -/
def startIndices {β : Type} : Nat → List (List β) → List Nat
  | _, [] => []
  | m, s :: rest => m :: startIndices (m + s.length) rest

/-- Position in the parameter vector. `par n j`: parameter `j` of function `n` (both from 0). -/
inductive Slot where
  | x0 (set : Nat)
  | y0 (set : Nat)
  | par (fn j : Nat)
  deriving DecidableEq

/-- Slots of the functions of one set; `n` is the number of the first of them. -/
def fnSlots : Nat → List Nat → List Slot
  | _, [] => []
  | n, p :: ps => (List.range p).map (Slot.par n) ++ fnSlots (n + 1) ps

/-- Slots of all sets: set numbers from `k`, function numbers from `n`; a set is given by its parameter counts. -/
def slotsFrom : Nat → Nat → List (List Nat) → List Slot
  | _, _, [] => []
  | k, n, s :: rest => Slot.x0 k :: Slot.y0 k :: (fnSlots n s ++ slotsFrom (k + 1) (n + s.length) rest)

/-- The meaning of each position of the parameter vector. -/
def slots (sizes : List (List Nat)) : List Slot := slotsFrom 0 0 sizes

/-- The maximal non-empty tab-free pieces of a line. -/
def tabFields (l : Str) : List Str := (l.splitOn '\t').filter (· ≠ [])

/-- Decimal notation. -/
def dec (n : Nat) : Str := (Nat.repr n).toList

/-- Name of the parameter in a slot; `fns` holds the parameter names of all functions, in order. -/
def slotName (fns : List (List Str)) : Slot → Str
  | .x0 _ => "X0".toList
  | .y0 _ => "Y0".toList
  | .par n j => (fns.getD n []).getD j []

/-- Header text of a slot: the name and the 1-based number of the set (X0, Y0) or function. -/
def slotHeader (fns : List (List Str)) : Slot → Str
  | .x0 k => "X0_".toList ++ dec (k + 1)
  | .y0 k => "Y0_".toList ++ dec (k + 1)
  | .par n j => (fns.getD n []).getD j [] ++ "_".toList ++ dec (n + 1)

/-- The value shown to the user: image offset added to X0 and Y0, other values unchanged. -/
def slotValue {α : Type} [FP α] (ox oy : Int) (s : Slot) (v : α) : α :=
  match s with
  | .x0 _ => v + FP.lit (ox : ℚ)
  | .y0 _ => v + FP.lit (oy : ℚ)
  | .par _ _ => v

/-- The image offset belonging to a slot. -/
def slotOffset (ox oy : Int) : Slot → Int
  | .x0 _ => ox
  | .y0 _ => oy
  | .par _ _ => 0

end Imfit.Spec
