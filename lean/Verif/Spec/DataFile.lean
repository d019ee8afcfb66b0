import Verif.Spec.Text

/-!
# What a data file with columns says
-/

namespace Imfit.Spec

/-- The lines of a text; the last one may lack its line end. -/
def fileLines : Str → List Str
  | [] => []
  | c :: s => if c = '\n' then [] :: fileLines s else match fileLines s with
    | [] => [[c]]
    | l :: ls => (c :: l) :: ls

/-- The rows: lines that are no comments, each as the list of its columns. -/
def dataRows (t : Str) : List (List Str) := ((fileLines t).filter fun l => decide (l.head? ≠ some '#')).map (tokens isBlank)

/-- The text in column `k` of row `r`, both counted from 0. -/
def cell (t : Str) (r k : Nat) : Str := ((dataRows t).getD r []).getD k []

end Imfit.Spec
