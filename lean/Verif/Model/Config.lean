import Verif.Model.Text
import Verif.Model.XR

/-!
# Configuration files

Source: `core/config_file_parser.cpp`. A file is its text. Not modelled: a file that cannot be opened, messages, and line numbers (which only occur in
messages). `strtod` is a parameter (`Strtod`).
-/

namespace Imfit

/-- C `strtod`: value and number of characters used. -/
structure Strtod (α : Type) where
  run : Str → α × Nat

/-- `c_str()` as seen by C functions: up to the first NUL. -/
def cstr (s : Str) : Str := s.takeWhile (· != Char.ofNat 0)

/-- `strtod(s.c_str(), nullptr)`. -/
def Strtod.val {α : Type} (nl : Strtod α) (s : Str) : α := (nl.run (cstr s)).1

/-- `IsNumeric`, `core/utilities.cpp:615-623`. -/
def isNumeric {α : Type} (nl : Strtod α) (s : Str) : Bool :=
  match cstr s with
  | [] => false
  | c :: cs => if isSpaceC c then false else (nl.run (c :: cs)).2 == (c :: cs).length

/-- `mp_par` (`solvers/mpfit.h`), the parts used. -/
structure ParInfo (α : Type) where
  fixed : Bool
  lim0 : Bool
  lim1 : Bool
  lo : α
  hi : α

/-- `memset(&newParamLimit, 0, ...)`. -/
def ParInfo.zero {α : Type} [FP α] : ParInfo α := ⟨false, false, false, 0, 0⟩

def kX0 : Str := ['X', '0']
def kY0 : Str := ['Y', '0']
def kFunction : Str := ['F', 'U', 'N', 'C', 'T', 'I', 'O', 'N']
def kLabel : Str := ['L', 'A', 'B', 'E', 'L']
def kFixed : Str := ['f', 'i', 'x', 'e', 'd']
/-- `core/config_file_parser.cpp:54`. -/
def kOptStart : Str := "OPTIONAL_PARAMS_START".toList
/-- `core/config_file_parser.cpp:55`. -/
def kOptEnd : Str := "OPTIONAL_PARAMS_END".toList

/-- Chop the comment, then split. -/
def chopSplit (l : Str) : Res (List Str) := do
  let c ← chopAt '#' l
  splitString c isBlank

/-- The test of a third token in `ValidParameterLine`, `core/config_file_parser.cpp:88-94`. -/
def validLimits {α : Type} (nl : Strtod α) (tok : Str) : Res Bool := do
  let ps ← splitString tok (· == ',')
  if ps.length ≠ 2 then .ok false
  else do
    let a ← rd ps 0
    let b ← rd ps 1
    .ok (isNumeric nl a && isNumeric nl b)

/-- The part of `ValidParameterLine` for ordinary lines with at least two tokens. -/
def validTokens {α : Type} (nl : Strtod α) (ps : List Str) : Res Bool := do
  let t2 ← rd ps 1
  if !isNumeric nl t2 then .ok false
  else if ps.length > 2 then do
    let t3 ← rd ps 2
    if t3 = kFixed then .ok true else validLimits nl t3
  else .ok true

/-- `ValidParameterLine`, `core/config_file_parser.cpp:68-101`: verdict and the line as left behind (without its comment). -/
def validParameterLine {α : Type} (nl : Strtod α) (l : Str) (opt : Bool) : Res (Bool × Str) := do
  let c ← chopAt '#' l
  let ps ← splitString c isBlank
  if ps.length ≥ 2 then
    if opt then .ok (true, c)
    else do
      let b ← validTokens nl ps
      .ok (b, c)
  else .ok (false, c)

/-- The parser's results and its variable `functionNumber`, `inOptionalParams`. -/
structure PState0 (α : Type) where
  names : List Str
  labels : List Str
  vals : List α
  lims : List (ParInfo α)
  starts : List Nat
  found : Bool
  opts : List (List (Str × Str))
  nFun : Nat
  inOpt : Bool

/-- Limits part of `AddParameterAndLimit`, `core/config_file_parser.cpp:151-181`: the record to store, or `none` for a return of -1. -/
def readLimits {α : Type} [FP α] (nl : Strtod α) (v : α) (extra : Str) : Res (Option (ParInfo α)) :=
  if extra = kFixed then .ok (some { ParInfo.zero with fixed := true })
  else if ',' ∈ extra then do
    let ps ← splitString extra (· == ',')
    let a ← rd ps 0
    let b ← rd ps 1
    let lo := nl.val a
    let hi := nl.val b
    if FP.fle hi lo then .ok none
    else if FP.flt v lo || FP.flt hi v then .ok none
    else .ok (some ⟨false, true, true, lo, hi⟩)
  else .ok (some ParInfo.zero)

/-- `AddParameterAndLimit`, `core/config_file_parser.cpp:127-185`: value, record (`none` when it returns -1) and whether there was a third token. -/
def addParam {α : Type} [FP α] (nl : Strtod α) (l : Str) : Res (α × Option (ParInfo α) × Bool) := do
  let ps ← chopSplit l
  let t ← rd ps 1
  let v := nl.val t
  if ps.length > 2 then do
    let e ← rd ps 2
    let r ← readLimits nl v e
    .ok (v, r, true)
  else .ok (v, some ParInfo.zero, false)

/-- Effect of `AddParameterAndLimit` on the vectors. `none`: the caller returns -1. -/
def pushParam {α : Type} (check : Bool) (st : PState0 α) (p : α × Option (ParInfo α) × Bool) : Option (PState0 α) :=
  match p with
  | (v, none, _) => if check then none else some { st with vals := st.vals ++ [v] }
  | (v, some r, f) => some { st with vals := st.vals ++ [v], lims := st.lims ++ [r], found := st.found || f }

/-- `optionalParamsMap[paramName] = paramVal`. -/
def mapPut (m : List (Str × Str)) (k v : Str) : List (Str × Str) :=
  match m with
  | [] => [(k, v)]
  | (k', v') :: m => if k' = k then (k, v) :: m else (k', v') :: mapPut m k v

/-- `AddOptionalParameter`, `core/config_file_parser.cpp:191-204`, with the access to `optionalParamsVect[functionNumber - 1]`. -/
def addOptional {α : Type} (st : PState0 α) (l : Str) : Res (PState0 α) := do
  let m ← rdI st.opts ((st.nFun : Int) - 1)
  let ps ← chopSplit l
  let k ← rd ps 0
  let v ← rd ps 1
  let os ← wrI st.opts ((st.nFun : Int) - 1) (mapPut m k v)
  .ok { st with opts := os }

/-- `GetFunctionLabel`, `core/config_file_parser.cpp:209-224`. -/
def functionLabel (l : Str) : Res Str :=
  match findSub kLabel l 0 with
  | none => .ok []
  | some k => do
    let t ← substr l (k + 5) none
    trimWhitespace t

/-- `AddFunctionNameAndLabel` and the new map, `core/config_file_parser.cpp:230-246, 441-447`. -/
def addFunction {α : Type} (st : PState0 α) (l : Str) : Res (PState0 α) := do
  let lab ← functionLabel l
  let ps ← chopSplit l
  let n ← rd ps 1
  .ok { st with names := st.names ++ [n], labels := st.labels ++ [lab], opts := st.opts ++ [[]], nFun := st.nFun + 1 }

/-- `AddParameterAndLimit` as used by the parser. -/
def stepParam {α : Type} [FP α] (nl : Strtod α) (check : Bool) (st : PState0 α) (l : Str) : Res (Option (PState0 α)) := do
  let p ← addParam nl l
  .ok (pushParam check st p)

/-- The loop of `ParseFunctionSection`, `core/config_file_parser.cpp:404-479`. `none`: returns -1. The first argument says that an `X0` line (in 2-D mode)
has just been dealt with: the next line is then read without a check that there is one. -/
def parseLoop {α : Type} [FP α] (nl : Strtod α) (mode2D check : Bool) : Bool → PState0 α → List Str → Res (Option (PState0 α))
  | true, _, [] => .error .oob
  | false, st, [] => .ok (some st)
  | true, st, y :: ls =>
    if hasSub kY0 y then do
      match ← stepParam nl check st y with
      | none => .ok none
      | some st1 => parseLoop nl mode2D check false st1 ls
    else .ok none
  | false, st, l :: ls =>
    if hasSub kX0 l then do
      match ← stepParam nl check { st with starts := st.starts ++ [st.nFun] } l with
      | none => .ok none
      | some st1 => parseLoop nl mode2D check mode2D st1 ls
    else if hasSub kFunction l then do
      let st1 ← addFunction st l
      parseLoop nl mode2D check false st1 ls
    else if hasSub kOptStart l then parseLoop nl mode2D check false { st with inOpt := true } ls
    else if hasSub kOptEnd l then parseLoop nl mode2D check false { st with inOpt := false } ls
    else if st.inOpt then do
      let st1 ← addOptional st l
      parseLoop nl mode2D check false st1 ls
    else do
      match ← stepParam nl check st l with
      | none => .ok none
      | some st1 => parseLoop nl mode2D check false st1 ls

/-- `ParseFunctionSection`, `core/config_file_parser.cpp:380-481`. It clears its output vectors, but only appends to `optionalParamsVect`. -/
def parseFunctionSection {α : Type} [FP α] (nl : Strtod α) (mode2D check : Bool) (opts : List (List (Str × Str))) (ls : List Str) :
    Res (Option (PState0 α)) :=
  parseLoop nl mode2D check false ⟨[], [], [], [], [], false, opts, 0, false⟩ ls

/-- Checking the lines of the function section, `core/config_file_parser.cpp:293-323`: the lines as left behind, or `none` at a bad line. -/
def vetLines {α : Type} (nl : Strtod α) : Bool → List Str → Res (Option (List Str))
  | _, [] => .ok (some [])
  | opt, l :: ls =>
    if hasSub kFunction l then do
      match ← vetLines nl opt ls with
      | none => .ok none
      | some r => .ok (some (l :: r))
    else if hasSub kOptStart l then do
      match ← vetLines nl true ls with
      | none => .ok none
      | some r => .ok (some (l :: r))
    else if hasSub kOptEnd l then do
      match ← vetLines nl false ls with
      | none => .ok none
      | some r => .ok (some (l :: r))
    else do
      let v ← validParameterLine nl l opt
      if v.1 then do
        match ← vetLines nl opt ls with
        | none => .ok none
        | some r => .ok (some (v.2 :: r))
      else .ok none

/-- Results of `VetConfigFile`. -/
inductive Vet where
  /-- -1, -2, -3 or -4 -/
  | bad (code : Int)
  /-- index of the first line of the function section, and its lines as left behind -/
  | good (start : Nat) (sect : List Str)

/-- Is there a line after the first `X0` line, and does it contain `Y0`? -/
def yFollows (lines : List Str) (k : Nat) : Bool :=
  match lines[k + 1]? with
  | none => false
  | some y => hasSub kY0 y

/-- `VetConfigFile`, `core/config_file_parser.cpp:256-341`. -/
def vetConfigFile {α : Type} (nl : Strtod α) (mode2D : Bool) (lines : List Str) : Res Vet :=
  match lines.findIdx? (hasSub kX0) with
  | none => .ok (.bad (-1))
  | some k =>
    if mode2D && !yFollows lines k then .ok (.bad (-3))
    else if !(lines.drop k).any (hasSub kFunction) then .ok (.bad (-2))
    else do
      match ← vetLines nl false (lines.drop k) with
      | none => .ok (.bad (-4))
      | some r => .ok (.good k r)

/-- Lines of a text as `getline` delivers them (no empty line after a final newline). -/
def textLines : Str → List Str
  | [] => []
  | c :: cs =>
    if c = '\n' then [] :: textLines cs
    else match textLines cs with
      | [] => [[c]]
      | l :: ls => (c :: l) :: ls

/-- The lines kept: trimmed, not empty, not starting with `#`. `core/config_file_parser.cpp:518-532, 612-622`. -/
def keepLines : List Str → Res (List Str)
  | [] => .ok []
  | l :: ls => do
    let t ← trimWhitespace l
    let r ← keepLines ls
    match t with
    | [] => .ok r
    | c :: _ => if c = '#' then .ok r else .ok (t :: r)

/-- Options before the function section, `core/config_file_parser.cpp:553-561, 634-642`. -/
def readOptions : List Str → Res (List (Str × Str))
  | [] => .ok []
  | l :: ls => do
    let ps ← chopSplit l
    let r ← readOptions ls
    match ps with
    | [a, b] => .ok ((a, b) :: r)
    | _ => .ok r

/-- What a configuration file is taken to say. -/
structure Config (α : Type) where
  options : List (Str × Str)
  names : List Str
  labels : List Str
  vals : List α
  lims : List (ParInfo α)
  starts : List Nat
  found : Bool
  opts : List (List (Str × Str))

/-- The second half of `ReadConfigFile`. `none`: returns -1. -/
def readSections {α : Type} [FP α] (nl : Strtod α) (mode2D check : Bool) (opts : List (List (Str × Str))) (lines : List Str) :
    Vet → Res (Option (Config α))
  | .bad _ => .ok none
  | .good k sect => do
    let os ← readOptions (lines.take k)
    match ← parseFunctionSection nl mode2D check opts sect with
    | none => .ok none
    | some st => .ok (some ⟨os, st.names, st.labels, st.vals, st.lims, st.starts, st.found, st.opts⟩)

/-- `ReadConfigFile` on lines already kept. -/
def readKept {α : Type} [FP α] (nl : Strtod α) (mode2D check : Bool) (opts : List (List (Str × Str))) (lines : List Str) :
    Res (Option (Config α)) := do
  let v ← vetConfigFile nl mode2D lines
  readSections nl mode2D check opts lines v

/-- `ReadConfigFile`, `core/config_file_parser.cpp:494-574` (`check = false`, `opts = []`) and `589-656` (`check = true`, `opts` the caller's vector). -/
def readConfig {α : Type} [FP α] (nl : Strtod α) (mode2D check : Bool) (opts : List (List (Str × Str))) (file : Str) :
    Res (Option (Config α)) := do
  let lines ← keepLines (textLines file)
  readKept nl mode2D check opts lines

end Imfit
