import Verif.Model.Registry

/-!
# What is promised about the functions that are offered
-/

namespace Imfit.Spec

/-- The order of texts: that of their characters' codes. -/
def Before (a b : Str) : Prop := a.map Char.toNat < b.map Char.toNat

instance : DecidableRel Before := fun a b => inferInstanceAs (Decidable (a.map Char.toNat < b.map Char.toNat))

/-- The line for a parameter: its name and, as a comment, its unit if it has one. -/
def listedLine (p : Str × Str) : Str := p.1 ++ (if p.2 = [] then [] else "\t\t# ".toList ++ p.2) ++ "\n".toList

/-- The part of the list for a function with these parameters and units. -/
def listedBlock (name : Str) (ps : List (Str × Str)) : Str := "\nFUNCTION ".toList ++ name ++ "\n".toList ++ ps.flatMap listedLine

end Imfit.Spec
