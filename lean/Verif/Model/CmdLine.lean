import Verif.Model.Text

/-!
# Command line and formatted output

Source: `core/commandline_parser.cpp`, `core/commandline_parser.h`, and `vformat` of `core/utilities.cpp`. Pointers to `OptionObject`s are positions in
the list `objs` (`optObjPointers`); `optMap` is an association list. Messages to the terminal and the usage text are left out.
-/

namespace Imfit

/-- `OptionObject`, `core/commandline_parser.h:25-47`. -/
structure OptObj where
  isFlag : Bool
  flagSet : Bool
  targetSet : Bool
  isQueue : Bool
  targets : List Str

/-- Constructor, `core/commandline_parser.cpp:63-69`. -/
def OptObj.new : OptObj := { isFlag := false, flagSet := false, targetSet := false, isQueue := false, targets := [] }

/-- `StoreTarget`, `core/commandline_parser.cpp:122-126`. -/
def OptObj.store (o : OptObj) (t : Str) : OptObj := { o with targets := o.targets ++ [t], targetSet := true }

/-- `SetFlag`, `core/commandline_parser.cpp:101-104`. -/
def OptObj.set (o : OptObj) : OptObj := { o with flagSet := true }

/-- `CLineParser` (`core/commandline_parser.h:52-91`): `optMap`, `optObjPointers`, `argStrings`, `commandLineEmpty`, `ignoreUnrecognized`. -/
structure CLine where
  map : List (Str × Nat)
  objs : List OptObj
  args : List Str
  empty : Bool
  ignore : Bool

/-- Constructor, `core/commandline_parser.cpp:154-161`. -/
def CLine.new : CLine := { map := [], objs := [], args := [], empty := true, ignore := true }

/-- `optMap[name] = obj`. -/
def optPut (m : List (Str × Nat)) (k : Str) (v : Nat) : List (Str × Nat) :=
  match m with
  | [] => [(k, v)]
  | (k', v') :: m => if k' = k then (k, v) :: m else (k', v') :: optPut m k v

/-- `optMap.find`. -/
def optGet (m : List (Str × Nat)) (k : Str) : Option Nat :=
  match m with
  | [] => none
  | (k', v') :: m => if k' = k then some v' else optGet m k

/-- A new object under the given names (one or two in the C++). -/
def CLine.add (p : CLine) (o : OptObj) (names : List Str) : CLine :=
  { p with objs := p.objs ++ [o], map := names.foldl (fun m k => optPut m k p.objs.length) p.map }

/-- `AddFlag`, `core/commandline_parser.cpp:210-228`. -/
def CLine.addFlag (p : CLine) (names : List Str) : CLine := p.add { OptObj.new with isFlag := true } names

/-- `AddOption`, `core/commandline_parser.cpp:231-246`. -/
def CLine.addOption (p : CLine) (names : List Str) : CLine := p.add OptObj.new names

/-- `AddQueueOption`, `core/commandline_parser.cpp:249-266`. -/
def CLine.addQueueOption (p : CLine) (names : List Str) : CLine := p.add { OptObj.new with isQueue := true } names

/-- `UnrecognizedAreErrors`, `core/commandline_parser.cpp:197-200`. -/
def CLine.strict (p : CLine) : CLine := { p with ignore := false }

/-- `StripLeadingDashes`, `core/commandline_parser.cpp:41-52`. -/
def stripDashes (s : Str) : Res Str :=
  if s = [] then .ok []
  else match findFrom (fun c => !(c == '-')) s (some 0) with
    | none => .ok []
    | some k => substr s k none

/-- `argv[i][0]`: the terminating NUL of an empty argument. -/
def firstChar (s : Str) : Char := s.headD '\x00'

/-- Effect of one argument. -/
inductive Turn where
  /-- `continue` (or fall through) with the next argument -/
  | next (p : CLine) (i : Nat)
  /-- `return -1` -/
  | stop (p : CLine)

/-- An option (not a flag): target after `=`, else the next argument. `core/commandline_parser.cpp:312-335`. -/
def takeTarget (argv : List Str) (p : CLine) (i k : Nat) (o : OptObj) (pieces : List Str) : Res Turn :=
  if pieces.length > 1 then do
    let v ← rd pieces 1
    let os ← wr p.objs k (o.store v)
    .ok (.next { p with objs := os } i)
  else if i + 1 < argv.length then do
    let v ← rd argv (i + 1)
    let os ← wr p.objs k (o.store v)
    .ok (.next { p with objs := os } (i + 1))
  else .ok (.stop p)

/-- A registered name. `core/commandline_parser.cpp:305-336`. -/
def takeKnown (argv : List Str) (p : CLine) (i k : Nat) (pieces : List Str) : Res Turn := do
  let o ← rd p.objs k
  if o.isFlag then do
    let os ← wr p.objs k o.set
    .ok (.next { p with objs := os } i)
  else takeTarget argv p i k o pieces

/-- A name: registered or not. `core/commandline_parser.cpp:303-342`. -/
def takeName (argv : List Str) (p : CLine) (i : Nat) (pieces : List Str) : Option Nat → Res Turn
  | some k => takeKnown argv p i k pieces
  | none => .ok (if p.ignore then .next p i else .stop p)

/-- An argument that starts with a dash. `core/commandline_parser.cpp:291-342`. -/
def takeOption (argv : List Str) (p : CLine) (i : Nat) (a : Str) : Res Turn := do
  let p := { p with empty := false }
  let s ← stripDashes a
  if s.length < 1 then .ok (.stop p)
  else do
    let pieces ← splitString s (· == '=')
    let n ← rd pieces 0
    takeName argv p i pieces (optGet p.map n)

/-- One turn of the loop; `i` is already the argument's position. `core/commandline_parser.cpp:287-352`. -/
def takeArg (argv : List Str) (p : CLine) (i : Nat) : Res Turn := do
  let a ← rd argv i
  if firstChar a = '-' then takeOption argv p i a
  else .ok (.next { p with empty := false, args := p.args ++ [a] } i)

/-- The loop of `ParseCommandLine` (at most one turn per argument). -/
def cliLoop (argv : List Str) : Nat → Nat → CLine → Res (Int × CLine)
  | 0, i, p => if (i : Int) < (argv.length : Int) - 1 then .error .diverge else .ok (0, p)
  | fuel + 1, i, p =>
    if (i : Int) < (argv.length : Int) - 1 then do
      let t ← takeArg argv p (i + 1)
      match t with
      | .stop p => .ok (-1, p)
      | .next p i => cliLoop argv fuel i p
    else .ok (0, p)

/-- `ParseCommandLine`, `core/commandline_parser.cpp:278-353`; `argv` includes the program name. -/
def parseCommandLine (p : CLine) (argv : List Str) : Res (Int × CLine) := cliLoop argv argv.length 0 p

/-- `FlagSet`, `core/commandline_parser.cpp:366-374`. -/
def CLine.flagSet (p : CLine) (n : Str) : Res Bool :=
  match optGet p.map n with
  | some k => do let o ← rd p.objs k; .ok o.flagSet
  | none => .ok false

/-- `OptionSet`, `core/commandline_parser.cpp:378-386`. -/
def CLine.optionSet (p : CLine) (n : Str) : Res Bool :=
  match optGet p.map n with
  | some k => do let o ← rd p.objs k; .ok o.targetSet
  | none => .ok false

/-- `GetNTargets`, `core/commandline_parser.cpp:390-393`: `operator[]` makes a null pointer for an unknown name. -/
def CLine.nTargets (p : CLine) (n : Str) : Res Nat :=
  match optGet p.map n with
  | some k => do let o ← rd p.objs k; .ok o.targets.length
  | none => .error .null

/-- `GetTargetString`, `core/commandline_parser.cpp:397-405`; `none` is the internal error string. -/
def CLine.target (p : CLine) (n : Str) (j : Nat) : Res (Option Str) :=
  match optGet p.map n with
  | some k => do let o ← rd p.objs k; let t ← rd o.targets j; .ok (some t)
  | none => .ok none

/-- `GetArgument`, `core/commandline_parser.cpp:416-419`. -/
def CLine.argument (p : CLine) (j : Nat) : Res Str := rd p.args j

/-! ## Formatted output -/

/-- The content of a buffer of `size` bytes after C99 `vsnprintf` of the text `t` (no NUL in `t`): at most `size - 1` characters, then NUL. The bytes
after the NUL are not written (`none`: indeterminate, or left over). -/
def snprintfBuf (t : Str) (size : Nat) : List (Option Char) :=
  let n := min t.length (size - 1)
  (t.take n).map some ++ [some '\x00'] ++ List.replicate (size - n - 1) none

/-- Return value of `vsnprintf`: the length of the whole text, negative if that is no `int`. -/
def snprintfRet (t : Str) : Int := if t.length < 2 ^ 31 then t.length else -1

/-- Reading a byte that was not written, or outside the buffer, is undefined. -/
def bufByte (buf : List (Option Char)) (i : Nat) : Res Char := do
  let c ← rd buf i
  match c with
  | some c => .ok c
  | none => .error .oob

/-- `string(buf, needed)`. -/
def bufString (buf : List (Option Char)) (n : Nat) : Res Str := (List.range n).mapM (bufByte buf)

/-- The loop of `vformat`, `core/utilities.cpp:73-92`. `t` is the text that the format describes. `nargs` is the number of variadic arguments that
formatting consumes and `used` tells whether `ap` was already passed to `vsnprintf` (its value is then indeterminate if any argument was consumed:
undefined). A buffer beyond the largest vector throws. -/
def vformatLoop (t : Str) (nargs : Nat) : Nat → Nat → Bool → Res Str
  | 0, _, _ => .error .throw
  | fuel + 1, size, used =>
    if used = true ∧ nargs ≠ 0 then .error .null
    else
      let needed := snprintfRet t
      if needed ≤ (size : Int) ∧ needed ≥ 0 then bufString (snprintfBuf t size) needed.toNat
      else vformatLoop t nargs fuel (if needed > 0 then needed.toNat + 1 else size * 2) true

/-- `vformat` / `PrintToString`, `core/utilities.cpp:52-93`: `INITIAL_BUFFER_SIZE` is 1024; after 54 turns the doubled size would exceed every vector. -/
def vformat (t : Str) (nargs : Nat) : Res Str := vformatLoop t nargs 54 1024 false

end Imfit
