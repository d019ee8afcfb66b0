import Verif.Model.Driver
import Verif.Model.Print

/-!
# The files of Markov chains

Source: `ModelObject::PrintModelParamsToStrings` with the limits column (`printLimits = true`, `core/model_object.cpp:1823-1933`), the header that `imfit-mcmc`
puts in front of its output (`core/mcmc_main.cpp:420-431`), and the lines written for each state of a chain (`cdream/dream.cpp:136-145, 458-471`). The `printf`
conversions and the output of numbers to streams are parameters. Texts contain no NUL character. The first lines of the header (name of the program, time, command
line) are given. Simplified: the short name of a function object is the name it was asked for with (the class registers itself under its short name), and its optional
parameters are described by the pairs it was given.
-/

namespace Imfit

variable {α : Type}

/-- `printf` conversions, with the `%g` of the limits. -/
structure LimFmt (α : Type) extends NumFmt α where
  /-- `%g` -/
  g : α → Str

/-- The third column: `fixed` or two limits. `core/definitions.h:92-93, 97-98`. -/
def limCol (pr : LimFmt α) (p : ParInfo α) : Str := if p.fixed then "fixed".toList else pr.g p.lo ++ [','] ++ pr.g p.hi

/-- `XY_FORMAT_WITH_LIMITS`, `XY_FORMAT_WITH_FIXED`. -/
def xyLimText (pr : LimFmt α) (pre key : Str) (v : α) (p : ParInfo α) : Line :=
  [pre ++ key ++ ['\t', '\t'] ++ pr.f4 v ++ ['\t', '\t'] ++ limCol pr p ++ ['\n']]

/-- `PARAM_FORMAT_WITH_LIMITS`, `PARAM_FORMAT_WITH_FIXED`. -/
def parLimText (pr : LimFmt α) (pre name : Str) (v : α) (p : ParInfo α) : Str :=
  pre ++ name ++ ['\t', '\t'] ++ pr.g7 v ++ ['\t', '\t'] ++ limCol pr p

/-- One parameter line. `core/model_object.cpp:1897-1929`. -/
def parLimLine (pr : LimFmt α) (pre : Str) (labels : List Str) (params : List α) (infos : List (ParInfo α)) (units : Option (List Str)) (off i : Nat) :
    Res Line := do
  let nm ← paramName labels "<undefined>".toList (off + i)
  let v ← rd params (off + i)
  let p ← rd infos (off + i)
  let u ← unitAt units i
  .ok ([parLimText pr pre nm v p] ++ unitsText (none : Option α) u ++ [['\n']])

/-- The lines that start a function set: the image offset is added to the values, not to the limits. `core/model_object.cpp:1842-1861`. -/
def setLimLines [FP α] (pr : LimFmt α) (pre : Str) (params : List α) (infos : List (ParInfo α)) (dx dy : α) (k : Nat) : Res (List Line) := do
  let x ← rd params k
  let y ← rd params (k + 1)
  let px ← rd infos k
  let py ← rd infos (k + 1)
  .ok [[pre ++ ['\n']], xyLimText pr pre ['X', '0'] (x + dx) px, xyLimText pr pre ['Y', '0'] (y + dy) py]

/-- The lines that start a function set, if this function starts one, and the index of the function's first parameter. -/
def startLimLines [FP α] (pr : LimFmt α) (pre : Str) (params : List α) (infos : List (ParInfo α)) (dx dy : α) (f : FnInfo) (k : Nat) :
    Res (List Line × Nat) :=
  if f.start then do
    let s ← setLimLines pr pre params infos dx dy k
    .ok (s, k + 2)
  else .ok ([], k)

/-- The loop of `PrintModelParamsToStrings`. -/
def printLimFns [FP α] (pr : LimFmt α) (pre : Str) (labels : List Str) (params : List α) (infos : List (ParInfo α)) (dx dy : α) :
    List FnInfo → Nat → Res (List Line)
  | [], _ => .ok []
  | f :: fs, k => do
    let s ← startLimLines pr pre params infos dx dy f k
    let ps ← (List.range f.n).mapM (parLimLine pr pre labels params infos f.units s.2)
    let rest ← printLimFns pr pre labels params infos dx dy fs (s.2 + f.n)
    .ok (s.1 ++ [fnText pre f] ++ extraText pre f ++ ps ++ rest)

/-- `PrintModelParamsToStrings` with `printLimits = true`; without parameter information nothing is printed (and −1 returned, which the caller ignores). -/
def printModelLimits [FP α] (pr : LimFmt α) (pre : Str) (labels : List Str) (params : List α) (infos : List (ParInfo α)) (dx dy : α) (fs : List FnInfo) :
    Res (List Str) :=
  if infos.length = 0 then .ok []
  else do
    let ls ← printLimFns pr pre labels params infos dx dy fs 0
    ls.mapM formatLine

/-- What printing uses of a function object. -/
def infoOf (units : Str → Option (List Str)) (f : FnBuilt) (start : Bool) : FnInfo :=
  ⟨f.name, f.label, start, if f.extra = [] then none else some f.extra, units f.name, f.pars.length⟩

/-- The function objects of a model with their start flags. -/
def fnInfos (units : Str → Option (List Str)) (b : Built) : List FnInfo := List.zipWith (infoOf units) b.fns b.flags

/-- The definition of the model, `core/mcmc_main.cpp:422`. `ox`, `oy` are the offsets of the image section (`AddImageOffsets`, `core/mcmc_main.cpp:322`). -/
def chainDefinition [FP α] (pr : LimFmt α) (units : Str → Option (List Str)) (st : FitStart α) (ox oy : Int) : Res (List Str) :=
  printModelLimits pr ['#'] st.built.labels st.values (st.recs.map ParRec.info) (lit (ox : ℚ)) (lit (oy : ℚ)) (fnInfos units st.built)

/-- Names of the columns of crossover probabilities. `core/mcmc_main.cpp:426-428`. -/
def crHeads (nCR : Nat) : Str :=
  ((List.range (nCR - 1)).flatMap fun i => "CR".toList ++ showNat (i + 1) ++ "               ".toList) ++ "CR".toList ++ showNat nCR ++ "        ".toList

/-- The line with the names of the columns. `core/mcmc_main.cpp:424-430`. -/
def columnHeads (labels : List Str) (tot : Nat) (fns : List (Nat × Bool)) (nCR : Nat) : Res Str := do
  let h ← paramHeader labels tot fns
  .ok (h ++ "  likelihood  burn-in    ".toList ++ crHeads nCR ++ "accept\n".toList)

/-- The number of parameters and the start flag of each function. -/
def builtSizes (b : Built) : List (Nat × Bool) := (b.fns.map fun f => f.pars.length).zip b.flags

/-- The header of the output files. `core/mcmc_main.cpp:420-431`, `cdream/dream_pars.cpp:52-58`. -/
def chainHeader [FP α] (pr : LimFmt α) (units : Str → Option (List Str)) (front : List Str) (st : FitStart α) (ox oy : Int) (nCR : Nat) : Res (List Str) := do
  let d ← chainDefinition pr units st ox oy
  let h ← columnHeads st.built.labels st.built.total (builtSizes st.built) nCR
  .ok (front ++ ["#\n# Model definition:\n".toList] ++ d ++ ["#\n# Column Headers\n".toList] ++ [h])

/-- `<<` of an `int` that is 0 or 1. -/
def showFlag (b : Bool) : Str := if b then ['1'] else ['0']

/-- The line for one state of a chain. `fmt` is "%#.10g", `num` the output of a number to the stream. `cdream/dream.cpp:136-144, 462-469`. -/
def chainLine [FP α] (fmt num : α → Str) (fns : List (Nat × Bool)) (values : List α) (ox oy : Int) (lik : α) (burn : Bool) (pCR : List α) (accept : Bool) :
    Res Str := do
  let s ← horizLoop fmt ['\t'] values ox oy fns 0 0
  .ok (s ++ [' '] ++ num lik ++ [' '] ++ showFlag burn ++ [' ', ' '] ++ (pCR.flatMap fun p => num p ++ [' ']) ++ showFlag accept ++ ['\n'])

end Imfit
