import Verif.Model.Res

/-!
# Text handling

Source: `core/utilities.cpp`. A `std::string` is the list of its characters. `std::string::npos` is `none`.
-/

namespace Imfit

/-- Text. -/
abbrev Str := List Char

/-- `find_first_of` / `find_first_not_of`: first position not before `from` whose character satisfies `p` (`npos` as start finds nothing). -/
def findFrom (p : Char → Bool) (s : Str) : Option Nat → Option Nat
  | none => none
  | some k => ((s.drop k).findIdx? p).map (· + k)

/-- `find_last_not_of`: last position whose character satisfies `p`. -/
def findLast (p : Char → Bool) (s : Str) : Option Nat :=
  (s.reverse.findIdx? p).map fun k => s.length - 1 - k

/-- `substr(pos, len)`; throws `std::out_of_range` if `pos` is past the end. `len = none` is `npos`. -/
def substr (s : Str) (pos : Nat) (len : Option Nat) : Res Str :=
  if pos > s.length then .error .throw
  else match len with
    | none => .ok (s.drop pos)
    | some n => .ok ((s.drop pos).take n)

/-- First position not before `from` at which the text `k` occurs. -/
def findSub (k : Str) : Str → Nat → Option Nat
  | s, 0 => if k <+: s then some 0 else match s with
    | [] => none
    | _ :: cs => (findSub k cs 0).map (· + 1)
  | [], _ + 1 => none
  | _ :: cs, n + 1 => (findSub k cs n).map (· + 1)

/-- `s.find(k, 0) != npos`. -/
def hasSub (k s : Str) : Bool := decide (k <:+: s)

/-- Length of the token found: `pos - lastPos` (`npos` if there is no further delimiter). -/
def tokenLen (pos : Option Nat) (last : Nat) : Option Nat := pos.map (· - last)

/-- The loop of `SplitString`, `core/utilities.cpp:222-230`. `last` is `lastPos`; the loop ends when both positions are `npos`, and `pos` is only
set when `last` is. `fuel` bounds the number of turns (`diverge` if it does not suffice). -/
def splitLoop (s : Str) (d : Char → Bool) : Nat → Option Nat → Option Nat → List Str → Res (List Str)
  | _, none, _, toks => .ok toks
  | 0, some _, _, _ => .error .diverge
  | fuel + 1, some last, pos, toks => do
    let t ← substr s last (tokenLen pos last)
    let last' := findFrom (fun c => !d c) s pos
    splitLoop s d fuel last' (findFrom d s last') (toks ++ [t])

/-- `SplitString`, `core/utilities.cpp:208-232`. -/
def splitString (s : Str) (d : Char → Bool) : Res (List Str) :=
  let last := findFrom (fun c => !d c) s (some 0)
  let pos := findFrom d s last
  match pos with
  | none => .ok [s]
  | some _ => splitLoop s d (s.length + 1) last pos []

/-- `SplitStringAdd`, `core/utilities.cpp:238-254`. -/
def splitStringAdd (s : Str) (toks : List Str) (d : Char → Bool) : Res (List Str) :=
  let last := findFrom (fun c => !d c) s (some 0)
  splitLoop s d (s.length + 1) last (findFrom d s last) toks

/-- `ChopComment`, `core/utilities.cpp:260-266`. -/
def chopAt (c : Char) (s : Str) : Res Str :=
  substr s 0 (findFrom (· == c) s (some 0))

/-- Blanks removed by `TrimWhitespace`. -/
def isBlank (c : Char) : Bool := c == ' ' || c == '\t' || c == '\n'

/-- The choice inside `TrimWhitespace`: equal positions (also both `npos`) clear the string. -/
def trimBetween (s : Str) : Option Nat → Option Nat → Res Str
  | none, none => .ok []
  | some a, some b => if a = b then .ok [] else substr s a (some (b - a + 1))
  | _, _ => .error .throw

/-- `TrimWhitespace`, `core/utilities.cpp:273-284`. -/
def trimWhitespace (s : Str) : Res Str :=
  if s = [] then .ok []
  else trimBetween s (findFrom (fun c => !isBlank c) s (some 0)) (findLast (fun c => !isBlank c) s)

/-- `StripBrackets`, `core/utilities.cpp:290-294` (names without NUL characters). -/
def stripBrackets (s : Str) : Res Str := chopAt '[' s

/-! ## Numbers in text -/

/-- `isspace` in the C locale. -/
def isSpaceC (c : Char) : Bool := c == ' ' || (9 ≤ c.toNat && c.toNat ≤ 13)

/-- Value of a run of digits, continuing `acc`. -/
def digitsVal (acc : Nat) : Str → Nat
  | [] => acc
  | c :: cs => digitsVal (acc * 10 + (c.toNat - '0'.toNat)) cs

/-- Sign and digits. -/
def signSplit : Str → Bool × Str
  | '-' :: cs => (true, cs)
  | '+' :: cs => (false, cs)
  | cs => (false, cs)

/-- C `atoi`: blanks, optional sign, digits; everything after the digits is ignored. A value that is no `int` is undefined behaviour. -/
def atoi (s : Str) : Res Int :=
  let t := signSplit (s.dropWhile isSpaceC)
  let v := digitsVal 0 (t.2.takeWhile Char.isDigit)
  let z : Int := if t.1 then -(v : Int) else v
  if -2147483648 ≤ z ∧ z ≤ 2147483647 then .ok z else .error .overflow

/-! ## Image sections in file names -/

/-- One axis of the section: `*` gives 1; otherwise `a:b` gives `a`; anything else is reported (`none`).
`core/utilities.cpp:362-373, 375-386`. -/
def axisStart (piece : Str) : Res (Option Int) :=
  if piece = ['*'] then .ok (some 1)
  else do
    let sub ← splitString piece (· == ':')
    if sub.length ≠ 2 then .ok none
    else do
      let t ← rd sub 0
      let x ← atoi t
      pure (some x)

/-- The y axis, after the x axis has been read. -/
def axisSecond (pieces : List Str) : Option Int → Res (Int × Int)
  | none => .ok (0, 0)
  | some x => do
    let p ← rd pieces 1
    let y ← axisStart p
    match y with
    | none => pure (0, 0)
    | some y => pure (x, y)

/-- `GetStartCoordsFromBracket`, `core/utilities.cpp:350-388`. -/
def startCoordsFromBracket (s : Str) : Res (Int × Int) := do
  let pieces ← splitString s (· == ',')
  let p ← rd pieces 0
  let x ← axisStart p
  axisSecond pieces x

/-- The text between positions `a` and `b` (exclusive). -/
def between (s : Str) (a b : Nat) : Res Str := substr s (a + 1) (some (b - a - 1))

/-- Second bracket group. `core/utilities.cpp:455-470`. -/
def secondGroup (name : Str) (loc3 loc4 : Nat) : Res (Int × Int) := do
  let s ← between name loc3 loc4
  let pieces ← splitString s (· == ',')
  if pieces.length ≠ 2 then .ok (0, 0) else startCoordsFromBracket s

/-- The rest of the decision, with the first bracket text and the second group (if any). `core/utilities.cpp:427-472`. -/
def pixelStartRest (name sec : Str) (second : Option (Nat × Nat)) : Res (Int × Int) := do
  let pieces ← splitString sec (· == ',')
  if pieces.length = 2 then startCoordsFromBracket sec
  else if pieces.length ≠ 1 ∨ sec.length < 1 then .ok (0, 0)
  else match second with
    | none => .ok (1, 1)
    | some (l3, l4) => secondGroup name l3 l4

/-- `GetPixelStartCoords`, `core/utilities.cpp:393-473`. -/
def pixelStartCoords (name : Str) : Res (Int × Int) :=
  match findFrom (· == '[') name (some 0) with
  | none => .ok (1, 1)
  | some l1 => match findFrom (· == ']') name (some l1) with
    | none => .ok (0, 0)
    | some l2 => match findFrom (· == '[') name (some l2) with
      | none => do
        let sec ← between name l1 l2
        pixelStartRest name sec none
      | some l3 => match findFrom (· == ']') name (some l3) with
        | none => .ok (0, 0)
        | some l4 => do
          let sec ← between name l1 l2
          pixelStartRest name sec (some (l3, l4))

/-- `DetermineImageOffset`, `core/utilities.cpp:483-489`. -/
def determineImageOffset (name : Str) : Res (Int × Int) := do
  let c ← pixelStartCoords name
  pure (c.1 - 1, c.2 - 1)

/-- One axis in `GetAllCoordsFromBracket`: start and end. `checked` says whether a wrong number of pieces ends the function.
`core/utilities.cpp:318-341`: on the x axis the `return` keyword is missing (line 324), so nothing is checked. -/
def axisBoth (piece : Str) (checked : Bool) : Res (Option (Int × Int)) :=
  if piece = ['*'] then .ok (some (1, 0))
  else do
    let sub ← splitString piece (· == ':')
    if checked && sub.length != 2 then .ok none
    else do
      let a ← rd sub 0
      let x1 ← atoi a
      let b ← rd sub 1
      let x2 ← atoi b
      pure (some (x1, x2))

/-- Second axis of `GetAllCoordsFromBracket`. -/
def axisBothSecond (pieces : List Str) (x : Int × Int) : Res (Int × Int × Int × Int) := do
  let p ← rd pieces 1
  let y ← axisBoth p true
  match y with
  | none => pure (0, 0, 0, 0)
  | some y => pure (x.1, x.2, y.1, y.2)

/-- Bracket trimming at the start of `GetAllCoordsFromBracket`, `core/utilities.cpp:311-314`. An end of `npos` makes the length `0` (unsigned
wrap-around); a start of `npos` throws. -/
def trimBrackets (s : Str) : Res Str :=
  match findFrom (fun c => !(c == '[')) s (some 0), findLast (fun c => !(c == ']')) s with
  | none, _ => .error .throw
  | some a, none => substr s a (some 0)
  | some a, some b => substr s a (some (b + 1 - a))

/-- `GetAllCoordsFromBracket`, `core/utilities.cpp:300-344`. -/
def allCoordsFromBracket (s : Str) : Res (Int × Int × Int × Int) := do
  let t ← trimBrackets s
  let pieces ← splitString t (· == ',')
  let p ← rd pieces 0
  let x ← axisBoth p false
  axisBothSecond pieces (x.getD (0, 0))

end Imfit
