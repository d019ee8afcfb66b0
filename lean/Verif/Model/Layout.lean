import Verif.Model.Image
import Verif.Model.Text

/-!
# Parameter-vector bookkeeping of `ModelObject`

Source: `core/model_object.cpp` (`AddFunction`, `DefineFunctionSets`, `PopulateParameterNames`, `GetParameterName`,
`PrintModelParamsHorizontalString`, `GetImageOffsets`, `GetParamHeader`). Strings are lists of characters.
-/

namespace Imfit

variable {α : Type}

/-- The loop that sets `fsetStartFlags`. `core/model_object.cpp:403-407`. -/
def setFlags : List Nat → List Bool → Res (List Bool)
  | [], fl => .ok fl
  | nn :: rest, fl => do
    let fl1 ← wr fl nn true
    setFlags rest fl1

/-- `ModelObject::DefineFunctionSets`, `core/model_object.cpp:387-415`, given the parameter counts of the functions added so far
(`paramSizes`, `core/model_object.cpp:279-290`), the start indices, and the earlier value of `nParamsTot`. Start indices are taken as non-negative. -/
def defineFunctionSets (sizes : List Nat) (starts : List Nat) (tot0 : Nat) : Res (List Bool × Nat) := do
  let fl0 ← wr (List.replicate sizes.length false) 0 true
  let fl ← setFlags starts fl0
  pure (fl, tot0 + (sizes.sum + 2 * starts.length))

/-- `ModelObject::PopulateParameterNames`, `core/model_object.cpp:2169-2181`, for functions given by their parameter names. -/
def populateNames : List (List Str × Bool) → List Str
  | [] => []
  | (names, start) :: rest =>
    (if start then [['X', '0'], ['Y', '0']] else []) ++ names ++ populateNames rest

/-- `ModelObject::GetParameterName`, `core/model_object.cpp:2186-2194`; `none` stands for the string "UNDEFINED". -/
def getParameterName (labels : List Str) (tot : Nat) (i : Nat) : Res (Option Str) :=
  if i < tot then do
    let l ← rd labels i
    pure (some l)
  else .ok none

/-- `PrintToString("%d", n)` for a natural number. -/
def showNat (n : Nat) : Str := Nat.toDigits 10 n

/-- The text of a name as inserted by `%s`. -/
def nameText (n : Option Str) : Str := n.getD "UNDEFINED".toList

/-- Header columns of one function (`core/model_object.cpp:2024-2029`). -/
def headerFn (labels : List Str) (tot n offset : Nat) (count : Nat) : Res Str :=
  forN count [] fun i acc => do
    let name ← getParameterName labels tot (offset + i)
    pure (acc ++ (nameText name ++ ['_'] ++ showNat (n + 1) ++ ['\t']))

/-- Loop of `ModelObject::GetParamHeader`, `core/model_object.cpp:2014-2031`; `nSet` counts sets, `n` functions. -/
def headerLoop (labels : List Str) (tot : Nat) : List (Nat × Bool) → Nat → Nat → Nat → Res Str
  | [], _, _, _ => .ok []
  | (size, start) :: rest, nSet, n, offset => do
    let nSet1 := if start then nSet + 1 else nSet
    let off1 := if start then offset + 2 else offset
    let xy := if start then "X0_".toList ++ showNat nSet1 ++ "\t\t".toList ++ "Y0_".toList ++ showNat nSet1 ++ "\t\t".toList
      else []
    let f ← headerFn labels tot n off1 size
    let r ← headerLoop labels tot rest nSet1 (n + 1) (off1 + size)
    pure (xy ++ f ++ r)

/-- `ModelObject::GetParamHeader`, `core/model_object.cpp:2006-2033`. -/
def paramHeader (labels : List Str) (tot : Nat) (fns : List (Nat × Bool)) : Res Str := do
  let r ← headerLoop labels tot fns 0 0 0
  pure ("# ".toList ++ r)

/-- X0, Y0 part of a one-line dump: no separator in front of the very first value. `core/model_object.cpp:1949-1961`. -/
def horizXY [FP α] (fmt : α → Str) (sep : Str) (params : List α) (ox oy : Int) (n offset : Nat) : Res Str := do
  let x ← rd params offset
  let y ← rd params (offset + 1)
  let x0 := x + lit (ox : ℚ)
  let y0 := y + lit (oy : ℚ)
  if n = 0 then pure (fmt x0 ++ sep ++ fmt y0) else pure (sep ++ fmt x0 ++ sep ++ fmt y0)

/-- X0, Y0 part if the function starts a set. -/
def horizStart [FP α] (fmt : α → Str) (sep : Str) (params : List α) (ox oy : Int) (n offset : Nat) (start : Bool) : Res Str :=
  if start then horizXY fmt sep params ox oy n offset else .ok []

/-- Values of one function. `core/model_object.cpp:1965-1969`. -/
def horizFn (fmt : α → Str) (sep : Str) (params : List α) (offset count : Nat) : Res Str :=
  forN count [] fun i acc => do
    let v ← rd params (offset + i)
    pure (acc ++ (sep ++ fmt v))

/-- `ModelObject::PrintModelParamsHorizontalString`, `core/model_object.cpp:1941-1973`. `fmt` is the conversion "%#.10g". -/
def horizLoop [FP α] (fmt : α → Str) (sep : Str) (params : List α) (ox oy : Int) : List (Nat × Bool) → Nat → Nat → Res Str
  | [], _, _ => .ok []
  | (size, start) :: rest, n, offset => do
    let xy ← horizStart fmt sep params ox oy n offset start
    let off1 := if start then offset + 2 else offset
    let f ← horizFn fmt sep params off1 size
    let r ← horizLoop fmt sep params ox oy rest (n + 1) (off1 + size)
    pure (xy ++ f ++ r)

/-- Write one pair of offsets if the function starts a set. `core/model_object.cpp:1991-1996`. -/
def offsetStart (ox oy : Int) (arr : List Int) (offset : Nat) (start : Bool) : Res (List Int) :=
  if start then do
    let a ← wr arr offset ox
    wr a (offset + 1) oy
  else .ok arr

/-- The loop of `ModelObject::GetImageOffsets`, `core/model_object.cpp:1990-1998`. -/
def offsetLoop (ox oy : Int) : List (Nat × Bool) → Nat → List Int → Res (List Int)
  | [], _, arr => .ok arr
  | (size, start) :: rest, offset, arr => do
    let a ← offsetStart ox oy arr offset start
    offsetLoop ox oy rest ((if start then offset + 2 else offset) + size) a

/-- `ModelObject::GetImageOffsets(double params[])`, `core/model_object.cpp:1982-2000`: fills the caller's array. (The
offsets are `int`s converted to `double`.) -/
def imageOffsets (ox oy : Int) (fns : List (Nat × Bool)) (arr : List Int) : Res (List Int) :=
  if ox ≠ 0 ∨ oy ≠ 0 then offsetLoop ox oy fns 0 arr else .ok arr

end Imfit
