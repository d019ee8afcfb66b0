import Verif.Model.XR

/-!
# Limits

Specification used for the minimisers: what it means that a parameter vector lies within limits.
-/

namespace Imfit.Spec

open Imfit

/-- The vector `v` consists of finite numbers and each is between its lower and its upper limit. -/
def InBox (lo hi : List ℝ) (v : List XR) : Prop :=
  ∃ w : List ℝ, v = w.map XR.fin ∧ List.Forall₂ (· ≤ ·) lo w ∧ List.Forall₂ (· ≤ ·) w hi

/-- What the user asks for a parameter: it is held fixed or not, and it may have a lower and an upper limit. -/
structure Limit where
  fixed : Bool
  lower : Option ℝ
  upper : Option ℝ

/-- The value is within the limits. -/
def Limit.Within (l : Limit) (r : ℝ) : Prop := (∀ a, l.lower = some a → a ≤ r) ∧ ∀ b, l.upper = some b → r ≤ b

/-- `v` consists of finite numbers; each is within its limits; the fixed ones have their start value. -/
def Obeys (ls : List Limit) (start : List ℝ) (v : List XR) : Prop :=
  ∃ w : List ℝ, v = w.map XR.fin ∧ w.length = start.length ∧
    ∀ (i : Nat) (l : Limit) (r s : ℝ), ls[i]? = some l → w[i]? = some r → start[i]? = some s → l.Within r ∧ (l.fixed = true → r = s)

end Imfit.Spec
