import Verif.Model.Text

/-!
# Specification of the command line

A command line is read against a list of declarations. Each declaration is a flag or an option and has names.
-/

namespace Imfit.Spec

/-- A declared flag or option. -/
structure Decl where
  isFlag : Bool
  isQueue : Bool
  names : List Str

/-- What an argument says. -/
inductive Ev where
  | flag (i : Nat)
  | value (i : Nat) (v : Str)
  | arg (s : Str)
  deriving DecidableEq

/-- The declaration that owns a name: the last one that has it. -/
def owner (ds : List Decl) (n : Str) : Option Nat := (List.range ds.length).reverse.find? fun i => (ds[i]?.map fun d => decide (n ∈ d.names)).getD false

/-- Is declaration `i` a flag? -/
def isFlagAt (ds : List Decl) (i : Nat) : Bool := (ds[i]?.map Decl.isFlag).getD false

/-- The text after the first `c`, if there is one. -/
def after (c : Char) (s : Str) : Option Str := if c ∈ s then some ((s.dropWhile (· != c)).drop 1) else none

/-- What a command line means (`none`: an error). `wait` is an option whose value is the next argument. -/
def meaning (ds : List Decl) (strict : Bool) : Option Nat → List Str → Option (List Ev)
  | none, [] => some []
  | some _, [] => none
  | some i, v :: as => (meaning ds strict none as).map (Ev.value i v :: ·)
  | none, a :: as =>
    if a.head? ≠ some '-' then (meaning ds strict none as).map (Ev.arg a :: ·)
    else
      let body := a.dropWhile (· == '-')
      if body = [] then none
      else match owner ds (body.takeWhile (· != '=')) with
        | none => if strict then none else meaning ds strict none as
        | some i =>
          if isFlagAt ds i then (meaning ds strict none as).map (Ev.flag i :: ·)
          else match after '=' body with
            | some v => (meaning ds strict none as).map (Ev.value i v :: ·)
            | none => meaning ds strict (some i) as

/-- The values given for option `i`, in order. -/
def valuesOf (i : Nat) (es : List Ev) : List Str := es.filterMap fun
  | .value j v => if j = i then some v else none
  | _ => none

/-- The positional arguments, in order. -/
def argsOf (es : List Ev) : List Str := es.filterMap fun
  | .arg s => some s
  | _ => none

end Imfit.Spec
