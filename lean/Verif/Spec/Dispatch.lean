import Verif.Model.XR
import Verif.Model.LevMar

/-!
# What a configuration file asks for a parameter

Independent of the solvers.
-/

namespace Imfit.Spec
open XR

/-- Nothing, `fixed`, or two limits. -/
inductive Wish
  | free
  | fixed
  | limits (a b : ℝ)

/-- A parameter with its start value. -/
structure UserPar where
  start : ℝ
  wish : Wish

/-- The limits are in order, with the start value between them: other files are refused. -/
def UserPar.Sound (u : UserPar) : Prop :=
  match u.wish with
  | .limits a b => a < b ∧ a ≤ u.start ∧ u.start ≤ b
  | _ => True

/-- The value is what was asked for. -/
def UserPar.Keeps (u : UserPar) (x : XR) : Prop :=
  match u.wish with
  | .free => True
  | .fixed => x = fin u.start
  | .limits a b => ∃ r, x = fin r ∧ a ≤ r ∧ r ≤ b

/-- All values are. -/
def KeepsAll (us : List UserPar) (v : List XR) : Prop := List.Forall₂ UserPar.Keeps us v

/-- `mp_par` as the reader of the configuration file fills it. -/
noncomputable def UserPar.record (u : UserPar) : MPPar XR :=
  match u.wish with
  | .free => ⟨false, false, false, fin 0, fin 0⟩
  | .fixed => ⟨true, false, false, fin 0, fin 0⟩
  | .limits a b => ⟨false, true, true, fin a, fin b⟩

end Imfit.Spec
