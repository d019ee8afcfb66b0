import Verif.Model.Header
import Verif.Spec.Driver
import Verif.Spec.Text

/-!
# What the files of Markov chains should say
-/

namespace Imfit.Spec

variable {α : Type}

/-- What the user said about the range of a parameter. -/
def rangeText (g : α → Str) (p : ParInfo α) : Str := if p.fixed then "fixed".toList else g p.lo ++ ",".toList ++ g p.hi

/-- A parameter line of a configuration file, behind a comment mark. -/
def defLine (g : α → Str) (name number : Str) (p : ParInfo α) : Str := "#".toList ++ name ++ "\t\t".toList ++ number ++ "\t\t".toList ++ rangeText g p

/-- A unit as a comment. -/
def unitComment (u : Str) : Str := if u = [] then [] else "\t\t# ".toList ++ u

/-- A function with its label, its optional parameters and its parameter lines. `us` are the units of the parameters. -/
def fnDefinition (pr : LimFmt α) (ps us : List Str) (f : FnWritten α) : List Str :=
  ["#FUNCTION ".toList ++ f.name ++ (if f.label = [] then [] else "   # LABEL ".toList ++ f.label) ++ "\n".toList] ++
    (if f.extra = [] then [] else ["#OPTIONAL_PARAMS_START\n".toList] ++ f.extra.map (fun p => "#".toList ++ p.1 ++ "   ".toList ++ p.2 ++ "\n".toList) ++
      ["#OPTIONAL_PARAMS_END\n".toList]) ++
    List.zipWith (fun (p : Str × Str) e => defLine pr.g p.1 (pr.g7 e.value) e.lim ++ unitComment p.2 ++ "\n".toList) (ps.zip us) f.entries

/-- The model of a configuration file, line by line behind comment marks. -/
def definition (pr : LimFmt α) (ps us : Str → List Str) (plan : List (SetWritten α)) : List Str :=
  plan.flatMap fun s => ["#\n".toList, defLine pr.g "X0".toList (pr.f4 s.x0.value) s.x0.lim ++ "\n".toList,
    defLine pr.g "Y0".toList (pr.f4 s.y0.value) s.y0.lim ++ "\n".toList] ++ s.fns.flatMap fun f => fnDefinition pr (ps f.name) (us f.name) f

/-- The units of the parameters of a class with `n` parameters: all empty if it has none. -/
def unitList (units : Option (List Str)) (n : Nat) : List Str := units.getD (List.replicate n [])

/-- Limits (not the value) as seen in the image section that starts `d` pixels later. -/
def Entry.limMoved [FP α] (d : Int) (e : Entry α) : Entry α := ⟨e.value, (e.moved d).lim⟩

/-- The centre of a set with its limits as seen in the image section. -/
def SetWritten.limMoved [FP α] (ox oy : Int) (s : SetWritten α) : SetWritten α := { s with x0 := s.x0.limMoved ox, y0 := s.y0.limMoved oy }

/-- Names of the columns that follow the parameters. -/
def stateColumns (nCR : Nat) : List Str :=
  ["likelihood".toList, "burn-in".toList] ++ (List.range nCR).map (fun i => "CR".toList ++ dec (i + 1)) ++ ["accept".toList]

end Imfit.Spec
