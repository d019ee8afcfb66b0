import Mathlib.Data.List.Basic
import Mathlib.Tactic.Common

/-!
# Outcomes

`Res α` is the outcome of a modelled call: a value, or a fault that the C++ abstract machine does
not define (out-of-bounds access, null dereference), or an explicit stop (`assert`, `exit`),
or running for ever.
-/

namespace Imfit

/-- Ways a modelled call can fail to return normally. -/
inductive Fault where
  /-- access outside an array, vector or string: undefined behaviour in C++ -/
  | oob
  /-- null or uninitialised pointer dereference: undefined behaviour in C++ -/
  | null
  /-- use of a value read from memory that nothing has written: undefined behaviour in C++ -/
  | uninit
  /-- conversion or integer overflow: undefined behaviour in C++ -/
  | overflow
  /-- failed `assert` -/
  | assert
  /-- call of `exit` -/
  | exit
  /-- an exception of the standard library that nothing catches (`std::out_of_range`): the program is terminated -/
  | throw
  /-- the loop does not end (or not within the draws supplied) -/
  | diverge
  deriving DecidableEq, Repr

/-- Outcome of a modelled call. -/
abbrev Res (α : Type) := Except Fault α

/-- Read `l[i]`; undefined outside the bounds. -/
def rd {α : Type} (l : List α) (i : Nat) : Res α :=
  match l[i]? with
  | some a => .ok a
  | none => .error .oob

/-- Read `l[i]` with a signed index. -/
def rdI {α : Type} (l : List α) (i : Int) : Res α :=
  if i < 0 then .error .oob else rd l i.toNat

/-- Write `l[i] = a`; undefined outside the bounds. -/
def wr {α : Type} (l : List α) (i : Nat) (a : α) : Res (List α) :=
  if i < l.length then .ok (l.set i a) else .error .oob

/-- Write with a signed index. -/
def wrI {α : Type} (l : List α) (i : Int) (a : α) : Res (List α) :=
  if i < 0 then .error .oob else wr l i.toNat a

theorem rd_ok {α : Type} {l : List α} {i : Nat} (h : i < l.length) : rd l i = .ok l[i] := by
  simp [rd, h]

theorem rd_oob {α : Type} {l : List α} {i : Nat} (h : l.length ≤ i) : rd l i = .error .oob := by
  simp [rd, h]

theorem wr_ok {α : Type} {l : List α} {i : Nat} {a : α} (h : i < l.length) :
    wr l i a = .ok (l.set i a) := by simp [wr, h]

theorem wr_oob {α : Type} {l : List α} {i : Nat} {a : α} (h : l.length ≤ i) :
    wr l i a = .error .oob := by simp [wr, h]

theorem rd_eq_ok_iff {α : Type} {l : List α} {i : Nat} {a : α} :
    rd l i = .ok a ↔ ∃ h : i < l.length, l[i] = a := by
  unfold rd
  by_cases h : i < l.length
  · simp [h]
  · simp [h]

end Imfit
