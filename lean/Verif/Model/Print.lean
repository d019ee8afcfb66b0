import Verif.Model.CmdLine
import Verif.Model.XR

/-!
# Printing the parameters of a model

Source: `ModelObject::PrintModelParamsToStrings` (`core/model_object.cpp:1823-1933`), without the limits column (`printLimits = false`, as used for saved
parameter files), `PrintParameters` and `SaveParameters` (`core/print_results.cpp:52-60, 221-290`). The `printf` conversions of numbers are a parameter
(`NumFmt`). Texts contain no NUL character.
-/

namespace Imfit

/-- `printf` conversions. -/
structure NumFmt (α : Type) where
  /-- `%.4f` -/
  f4 : α → Str
  /-- `%7g` -/
  g7 : α → Str
  /-- `%.5g` -/
  g5 : α → Str

/-- What printing uses of a function object: `GetShortName`, `GetLabel`, `fsetStartFlags[n]`, the optional parameters if `ExtraParamsSet`, the units if
`HasParameterUnits`, and `paramSizes[n]`. -/
structure FnInfo where
  name : Str
  label : Str
  start : Bool
  extra : Option (List (Str × Str))
  units : Option (List Str)
  n : Nat

/-- A line is put together from pieces, each formatted by `PrintToString`. -/
abbrev Line := List Str

/-- `XY_FORMAT`, `XY_FORMAT_WITH_ERRS`, `core/definitions.h:90-91`. -/
def xyText {α : Type} (pr : NumFmt α) (pre key : Str) (v : α) (err : Option α) : Line :=
  [pre ++ key ++ ['\t', '\t'] ++ pr.f4 v ++ (match err with
    | none => []
    | some e => [' ', '#', ' ', '+', '/', '-', ' '] ++ pr.f4 e) ++ ['\n']]

/-- `PARAM_FORMAT`, `PARAM_FORMAT_WITH_ERRS`, `core/definitions.h:95-96`. -/
def parText {α : Type} (pr : NumFmt α) (pre name : Str) (v : α) (err : Option α) : Str :=
  pre ++ name ++ ['\t', '\t'] ++ pr.g7 v ++ (match err with
    | none => []
    | some e => [' ', '#', ' ', '+', '/', '-', ' '] ++ pr.g5 e)

/-- `UNITS_FORMAT` with its prefix, `core/definitions.h:99`, `core/model_object.cpp:1903, 1915, 1920-1927`. -/
def unitsText {α : Type} (err : Option α) (unit : Str) : Line :=
  if unit.length > 0 then [['\t'] ++ (match err with
    | none => ['\t', '#', ' ']
    | some _ => []) ++ unit] else []

/-- The error of parameter `k`, if errors are printed. -/
def errAt {α : Type} (errs : Option (List α)) (k : Nat) : Res (Option α) :=
  match errs with
  | none => .ok none
  | some es => do let e ← rd es k; .ok (some e)

/-- The unit of parameter `i` (nothing if the function has no units). -/
def unitAt (units : Option (List Str)) (i : Nat) : Res Str :=
  match units with
  | none => .ok []
  | some us => rd us i

/-- `GetParameterName`, `core/model_object.cpp:2186-2193`. -/
def paramName (labels : List Str) (undefined : Str) (i : Nat) : Res Str := if i < labels.length then rd labels i else .ok undefined

/-- One parameter line. `core/model_object.cpp:1897-1929`. -/
def parLine {α : Type} (pr : NumFmt α) (pre : Str) (labels : List Str) (params : List α) (errs : Option (List α)) (units : Option (List Str))
    (off i : Nat) : Res Line := do
  let nm ← paramName labels "<undefined>".toList (off + i)
  let v ← rd params (off + i)
  let e ← errAt errs (off + i)
  let u ← unitAt units i
  .ok ([parText pr pre nm v e] ++ unitsText e u ++ [['\n']])

/-- The lines that start a function set. `core/model_object.cpp:1842-1872`. -/
def setLines {α : Type} [FP α] (pr : NumFmt α) (pre : Str) (params : List α) (errs : Option (List α)) (dx dy : α) (k : Nat) : Res (List Line) := do
  let x ← rd params k
  let y ← rd params (k + 1)
  let ex ← errAt errs k
  let ey ← errAt errs (k + 1)
  .ok [[pre ++ ['\n']], xyText pr pre ['X', '0'] (x + dx) ex, xyText pr pre ['Y', '0'] (y + dy) ey]

/-- The line with the function's name and label. `core/model_object.cpp:1875-1886`. -/
def fnText (pre : Str) (f : FnInfo) : Line :=
  [pre ++ "FUNCTION ".toList ++ f.name ++ (if f.label = [] then [] else "   # LABEL ".toList ++ f.label) ++ ['\n']]

/-- Optional parameters: `GetExtraParamsDescription`, `function_objects/function_object.cpp:217-234`; `core/model_object.cpp:1889-1893`. -/
def extraText (pre : Str) (f : FnInfo) : List Line :=
  match f.extra with
  | none => []
  | some kv => [[pre ++ "OPTIONAL_PARAMS_START".toList ++ ['\n']]] ++ kv.map (fun p => [pre ++ p.1 ++ [' ', ' ', ' '] ++ p.2 ++ ['\n']]) ++
      [[pre ++ "OPTIONAL_PARAMS_END".toList ++ ['\n']]]

/-- The lines that start a function set, if this function starts one, and the index of the function's first parameter. -/
def startLines {α : Type} [FP α] (pr : NumFmt α) (pre : Str) (params : List α) (errs : Option (List α)) (dx dy : α) (f : FnInfo) (k : Nat) :
    Res (List Line × Nat) :=
  if f.start then do
    let s ← setLines pr pre params errs dx dy k
    .ok (s, k + 2)
  else .ok ([], k)

/-- The loop of `PrintModelParamsToStrings`. -/
def printFns {α : Type} [FP α] (pr : NumFmt α) (pre : Str) (labels : List Str) (params : List α) (errs : Option (List α)) (dx dy : α) :
    List FnInfo → Nat → Res (List Line)
  | [], _ => .ok []
  | f :: fs, k => do
    let s ← startLines pr pre params errs dx dy f k
    let ps ← (List.range f.n).mapM (parLine pr pre labels params errs f.units s.2)
    let rest ← printFns pr pre labels params errs dx dy fs (s.2 + f.n)
    .ok (s.1 ++ [fnText pre f] ++ extraText pre f ++ ps ++ rest)

/-- Formatting of a line: every piece goes through `PrintToString`. -/
def formatLine (l : Line) : Res Str := do
  let ps ← l.mapM (vformat · 1)
  .ok ps.flatten

/-- `PrintModelParamsToStrings` (with `printLimits = false`); `dx`, `dy` are the image offset. -/
def printModelParams {α : Type} [FP α] (pr : NumFmt α) (pre : Str) (labels : List Str) (params : List α) (errs : Option (List α)) (dx dy : α)
    (fs : List FnInfo) : Res (List Str) := do
  let ls ← printFns pr pre labels params errs dx dy fs 0
  ls.mapM formatLine

/-- The file written by `SaveParameters`: the header lines, an empty line, the lines about the fit (given here; each starts with `#`), and the
parameters. `core/print_results.cpp:264-288`. -/
def saveParameters {α : Type} [FP α] (pr : NumFmt α) (header about : List Str) (labels : List Str) (params : List α) (errs : Option (List α))
    (dx dy : α) (fs : List FnInfo) : Res Str := do
  let ls ← printModelParams pr [] labels params errs dx dy fs
  .ok ((header.map (· ++ ['\n'])).flatten ++ ['\n'] ++ (about.map (· ++ ['\n'])).flatten ++ ls.flatten)

end Imfit
