import Verif.Model.Config
import Verif.Model.Profile

/-!
# Reading the data files of `profilefit`

Source: `profile_fitting/read_profile.cpp` and the part of `profile_fitting/profilefit_main.cpp` that reads the data, the PSF and the start values.

A file is its text without NUL characters, or cannot be opened. It may also be something that can be opened but not read to its end (a directory, a broken disk): then
`fgets` fails and `feof` stays false. Line numbers, which only occur in messages, are left out.
-/

namespace Imfit

variable {α : Type}

/-- A stream: what has not been read yet, the end-of-file flag, and whether reading beyond the text fails with an error instead of reporting the end of the file. -/
structure Stream where
  rest : Str
  eof : Bool
  fails : Bool

/-- What `fgets` takes from the text: at most `n` characters up to and including a line end; the third part says whether the end of the text was met. -/
def takeLine : Nat → Str → Str × Str × Bool
  | 0, s => ([], s, false)
  | _ + 1, [] => ([], [], true)
  | n + 1, c :: s => if c = '\n' then ([c], s, false) else (c :: (takeLine n s).1, (takeLine n s).2.1, (takeLine n s).2.2)

/-- C `fgets(buf, size, f)` for `size > 1`: `none` is NULL. -/
def fgets (size : Nat) (f : Stream) : Option Str × Stream :=
  let r := takeLine (size - 1) f.rest
  if r.2.2 then
    if f.fails then (none, { f with rest := [] })
    else (if r.1 = [] then none else some r.1, { f with rest := [], eof := true })
  else (some r.1, { f with rest := r.2.1 })

/-- `MAXLINE`. `profile_fitting/read_profile.cpp:43`. -/
def MAXLINE : Nat := 1024

/-- `while (! feof(f)) if (fgets(buf, MAXLINE - 1, f) != NULL) ...`. `profile_fitting/read_profile.cpp:62-69, 115-118`. `fuel` bounds the number of turns. -/
def readLoop {σ : Type} (step : σ → Str → Res σ) : Nat → Stream → σ → Res σ
  | 0, f, s => if f.eof then .ok s else .error .diverge
  | k + 1, f, s =>
    if f.eof then .ok s
    else match (fgets (MAXLINE - 1) f).1 with
      | none => readLoop step k (fgets (MAXLINE - 1) f).2 s
      | some l => do
        let s ← step s l
        readLoop step k (fgets (MAXLINE - 1) f).2 s

/-- A file on disk: its text and whether reading fails at its end. -/
structure DiskFile where
  text : Str
  fails : Bool

/-- Opening (`exit` if that is not possible) and the loop over the lines. Every turn takes a character or meets the end, so this number of turns suffices if any does. -/
def onLines {σ : Type} (step : σ → Str → Res σ) (file : Option DiskFile) (s : σ) : Res σ :=
  match file with
  | none => .error .exit
  | some d => readLoop step (d.text.length + 2) ⟨d.text, false, d.fails⟩ s

/-- `strncmp(buf, "#", 1) == 0`, `currentLine[0] == '#'`. -/
def isComment (l : Str) : Bool := l.head? == some '#'

/-- `CountDataLines`. `profile_fitting/read_profile.cpp:51-73`. -/
def countDataLines (file : Option DiskFile) : Res Nat :=
  onLines (fun c l => .ok (if isComment l then c else c + 1)) file 0

/-- The local variables and the arrays of `ReadDataFile`. -/
structure Rows (α : Type) where
  i : Int
  j : Int
  xs : List α
  ys : List α
  errs : Option (List α)
  mask : Option (List α)

/-- Columns 3 and 4: stored if there is an array. -/
def setCol (num : Str → α) (col : Option (List α)) (p : List Str) (k : Nat) (j : Int) : Res (Option (List α)) :=
  match col with
  | none => pure none
  | some l => do
    let t ← rd p k
    let l ← wrI l j (num t)
    pure (some l)

/-- A row within the bounds. `profile_fitting/read_profile.cpp:129-154`. -/
def storeDataRow (num : Str → α) (s : Rows α) (l : Str) : Res (Rows α) := do
  let p ← splitString l isBlank
  if p.length ≤ 1 then .error .exit
  else if s.errs.isSome ∧ p.length < 3 then .error .exit
  else if s.mask.isSome ∧ p.length < 4 then .error .exit
  else do
    let t ← rd p 0
    let xs ← wrI s.xs s.j (num t)
    let t ← rd p 1
    let ys ← wrI s.ys s.j (num t)
    let errs ← setCol num s.errs p 2 s.j
    let mask ← setCol num s.mask p 3 s.j
    pure { s with xs := xs, ys := ys, errs := errs, mask := mask }

/-- One line. `profile_fitting/read_profile.cpp:119-157`. -/
def readRow (num : Str → α) (start stop : Int) (s : Rows α) (l : Str) : Res (Rows α) :=
  if isComment l then .ok s
  else if start ≤ s.i + 1 ∧ s.i + 1 ≤ stop then storeDataRow num { s with i := s.i + 1, j := s.j + 1 } l
  else .ok { s with i := s.i + 1 }

/-- `ReadDataFile`: the number of saved rows is `j + 1`. `profile_fitting/read_profile.cpp:77-165`. -/
def readDataFile (num : Str → α) (file : Option DiskFile) (start stop : Int) (xs ys : List α) (errs mask : Option (List α)) : Res (Rows α) :=
  onLines (readRow num start stop) file ⟨-1, -1, xs, ys, errs, mask⟩

/-- `MAX_N_DATA_VALS`. `profile_fitting/profilefit_main.cpp:48`. -/
def MAX_N_DATA_VALS : Int := 1000000

/-- The number of lines is stored in an `int`. -/
def countInt (n : Nat) : Int := Int.bmod n (2 ^ 32)

/-- Number of data lines, refused if there are none or too many. `profile_fitting/profilefit_main.cpp:219-227, 285-293`. -/
def countRows (file : Option DiskFile) : Res Int := do
  let c ← countDataLines file
  if countInt c < 1 ∨ MAX_N_DATA_VALS < countInt c then .error .exit else pure (countInt c)

/-- First and last row. `x1` and `x2` are the options `--x1` and `--x2`; they are stored as they are, the defaults are 0 and -1.
`profile_fitting/profilefit_main.cpp:173-174, 230-243, 638, 647`. -/
def rowRange (n : Int) (x1 x2 : Option Int) : Res (Int × Int) :=
  let start := x1.getD 0
  let stop := if x2.getD (-1) = -1 then n - 1 else x2.getD (-1)
  if start < 0 ∨ n ≤ start then .error .exit
  else if stop ≤ start ∨ n ≤ stop then .error .exit
  else .ok (start, stop)

/-- The data as stored. -/
structure Cols (α : Type) where
  n : Nat
  xs : List α
  ys : List α
  errs : Option (List α)
  mask : Option (List α)

/-- The data file. `profile_fitting/profilefit_main.cpp:219-271`. -/
def readProfile [FP α] (num : Str → α) (file : Option DiskFile) (x1 x2 : Option Int) (useErrors useMask : Bool) : Res (Cols α) := do
  let n ← countRows file
  let r ← rowRange n x1 x2
  let m := (r.2 - r.1 + 1).toNat
  let z : List α := List.replicate m 0
  let q ← readDataFile num file r.1 r.2 z z (if useErrors then some z else none) (if useMask then some z else none)
  if (m : Int) < q.j + 1 then .error .exit else pure ⟨m, q.xs, q.ys, q.errs, q.mask⟩

/-- The PSF file; its number of rows is compared with the number `m` of stored data values. `profile_fitting/profilefit_main.cpp:284-312`. -/
def readPsf1 [FP α] (num : Str → α) (file : Option DiskFile) (m : Nat) : Res (List α) := do
  let n ← countRows file
  let z : List α := List.replicate n.toNat 0
  let q ← readDataFile num file 0 (n - 1) z z none none
  if (m : Int) < q.j + 1 then .error .exit else pure q.ys

/-- Start values: `paramsVect[i] = parameterList[i]`, without a look at the number of values in the configuration file. `profile_fitting/profilefit_main.cpp:329-334`. -/
def startValues1 (fns : List (Fun1 × Bool)) (parameterList : List α) : Res (List α) := loopMap (nParams1 fns) fun i => rd parameterList i

/-- The command line. -/
structure ProfOpts where
  x1 : Option Int
  x2 : Option Int
  useErrors : Bool
  useMask : Bool
  mags : Bool
  zp : XR

/-- What `profilefit` knows before it sets up the model. `profile_fitting/profilefit_main.cpp:218-348`. `psf` is the PSF file, if there is the option `--psf`. -/
noncomputable def profileInput (num : Str → XR) (o : ProfOpts) (data : Option DiskFile) (psf : Option (Option DiskFile)) (fns : List (Fun1 × Bool)) (parameterList : List XR) :
    Res (ProfIn × List XR) := do
  let c ← readProfile num data o.x1 o.x2 o.useErrors o.useMask
  let p ← match psf with
    | none => pure none
    | some f => do
      let v ← readPsf1 num f c.n
      pure (some v)
  let v ← startValues1 fns parameterList
  pure ({ fns := fns, zp := o.zp, mags := o.mags, n := c.n, xs := c.xs, ys := c.ys, errs := c.errs, mask := c.mask.map fun m => (m, MASK_ZERO_IS_GOOD), psf := p }, v)

end Imfit
