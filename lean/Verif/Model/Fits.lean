import Verif.Model.Fit
import Verif.Model.Text

/-!
# Reading and writing of images

Source: `core/image_io.cpp` and `core/getimages.cpp` (`GetAndCheckImage`, `GetMaskAndErrorImages`, `GetPsfImage`).

CFITSIO is modelled by what imfit relies on: a disk of files, each a list of header-data units (HDUs); a name selects a file and one of its HDUs. A routine
called with a positive status does nothing. Every call may fail: `faults` lists, in the order of the calls, which do. A call that fails sets none of its
results. `fits_close_file` closes also if the status is positive. Rounding to single precision is a parameter. Allocation does not fail. Messages are left out.
-/

namespace Imfit

variable {α : Type}

/-- A header-data unit: its type, its number of axes, the keywords NAXIS1, NAXIS2, …, pixels and comments. -/
structure Hdu (α : Type) where
  image : Bool
  naxis : Int
  keys : List Int
  pixels : List α
  comments : List Str

/-- An opened file: its units and the number (from 1) of the current one. -/
structure FitsFile (α : Type) where
  hdus : List (Hdu α)
  current : Nat

/-- The disk, the number of files that are open, and which of the coming calls fail. -/
structure Disk (α : Type) where
  files : Str → Option (FitsFile α)
  opened : Nat
  faults : List Bool

/-- Does the next call fail? -/
def Disk.fails (w : Disk α) : Bool := w.faults.headD false

/-- After that call. -/
def Disk.next (w : Disk α) : Disk α := { w with faults := w.faults.tail }

/-- `fits_open_file`. The status is `true` if it is positive. -/
def fitsOpen (w : Disk α) (name : Str) (st : Bool) : Disk α × Bool × Option (FitsFile α) :=
  if st then (w, true, none)
  else if w.fails then (w.next, true, none)
  else match w.files name with
    | none => (w.next, true, none)
    | some f => ({ w.next with opened := w.opened + 1 }, false, some f)

/-- The current unit. -/
def FitsFile.unit (f : FitsFile α) (n : Nat) : Option (Hdu α) := if n = 0 then none else f.hdus[n - 1]?

/-- `fits_movabs_hdu`: the type of the unit, if it was set. -/
def fitsMove (w : Disk α) (f : FitsFile α) (n : Nat) (st : Bool) : Disk α × Bool × Option Bool :=
  if st then (w, true, none)
  else if w.fails then (w.next, true, none)
  else match f.unit n with
    | none => (w.next, true, none)
    | some h => (w.next, false, some h.image)

/-- `fits_get_img_dim`. -/
def fitsDim (w : Disk α) (f : FitsFile α) (n : Nat) (st : Bool) : Disk α × Bool × Option Int :=
  if st then (w, true, none)
  else if w.fails then (w.next, true, none)
  else match f.unit n with
    | none => (w.next, true, none)
    | some h => (w.next, false, some h.naxis)

/-- `fits_read_keys_lng` for NAXIS1 and NAXIS2: keywords that are not there are no error. -/
def fitsKeys (w : Disk α) (f : FitsFile α) (st : Bool) : Disk α × Bool × List Int :=
  if st then (w, true, [])
  else if w.fails then (w.next, true, [])
  else match f.unit f.current with
    | none => (w.next, true, [])
    | some h => (w.next, false, h.keys.take 2)

/-- `fits_read_pix` of the first `n` pixels. -/
def fitsPix (w : Disk α) (f : FitsFile α) (n : Int) (st : Bool) : Disk α × Bool × List α :=
  if st then (w, true, [])
  else if w.fails then (w.next, true, [])
  else match f.unit f.current with
    | none => (w.next, true, [])
    | some h => if n < 0 ∨ (h.pixels.length : Int) < n then (w.next, true, []) else (w.next, false, h.pixels.take n.toNat)

/-- `fits_close_file`. -/
def fitsClose (w : Disk α) (st : Bool) : Disk α × Bool :=
  ({ w.next with opened := w.opened - 1 }, st || w.fails)

/-- A variable that may not have been set. -/
def given {β : Type} : Option β → Res β
  | none => .error .uninit
  | some v => .ok v

/-- `CheckHDUForImage`, `core/image_io.cpp:119-131`. -/
def checkHdu (w : Disk α) (f : FitsFile α) (n : Nat) (st : Bool) : Res (Disk α × Bool × Bool) := do
  let m := fitsMove w f n st
  let ty ← given m.2.2
  if ty then do
    let d := fitsDim m.1 f n m.2.1
    let naxis ← given d.2.2
    .ok (d.1, d.2.1, naxis == 2)
  else .ok (m.1, m.2.1, false)

/-- `CheckForImage`, `core/image_io.cpp:145-172`: `true` for the result 1. -/
def checkForImage (w : Disk α) (name : Str) : Res (Disk α × Bool) :=
  match fitsOpen w name false with
  | (w1, st, some f) => do
    let c ← checkHdu w1 f f.current st
    .ok ((fitsClose c.1 c.2.1).1, c.2.2)
  | (w1, _, none) => .ok (w1, false)

/-- Conversion of `long` to `int`. -/
def toInt32 (n : Int) : Int := (n + 2147483648) % 4294967296 - 2147483648

/-- `GetImageSize`, `core/image_io.cpp:180-229`: columns, rows, `true` for status 0. -/
def getImageSize (w : Disk α) (name : Str) : Res (Disk α × Int × Int × Bool) :=
  match fitsOpen w name false with
  | (w1, st, some f) => do
    let c ← checkHdu w1 f f.current st
    if c.2.2 then
      let k := fitsKeys c.1 f c.2.1
      if k.2.1 then .ok (k.1, 0, 0, false)
      else
        let cl := fitsClose k.1 k.2.1
        if cl.2 then .ok (cl.1, 0, 0, false)
        else do
          let a ← given k.2.2[0]?
          let b ← given k.2.2[1]?
          .ok (cl.1, toInt32 a, toInt32 b, true)
    else .ok (c.1, 0, 0, false)
  | (w1, _, none) => .ok (w1, 0, 0, false)

/-- The rest of `ReadImageAsVector` once the file is open again, `core/image_io.cpp:264-304`. -/
def readOpened (w : Disk α) (f : FitsFile α) (st : Bool) : Res (Disk α × Option (List α × Int × Int)) :=
  let k := fitsKeys w f st
  if k.2.1 then .ok (k.1, none)
  else do
    let a ← given k.2.2[0]?
    let b ← given k.2.2[1]?
    let p := fitsPix k.1 f (toInt32 a * toInt32 b) k.2.1
    if p.2.1 then .ok (p.1, none)
    else
      let cl := fitsClose p.1 p.2.1
      if cl.2 then .ok (cl.1, none) else .ok (cl.1, some (p.2.2, toInt32 a, toInt32 b))

/-- `ReadImageAsVector`, `core/image_io.cpp:241-305`: the pixels, columns and rows; `none` for the null pointer. The result of the second
`fits_open_file` is not looked at: the next call inherits its status. -/
def readImage (w : Disk α) (name : Str) : Res (Disk α × Option (List α × Int × Int)) := do
  let c ← checkForImage w name
  if c.2 then
    match fitsOpen c.1 name false with
    | (w1, st, some f) => readOpened w1 f st
    | (w1, _, none) => .ok (w1, none)
  else .ok (c.1, none)

/-! ## Writing -/

/-- Change of the unit written to. -/
def Disk.put (w : Disk α) (name : Str) (f : FitsFile α) : Disk α := { w with files := fun s => if s = name then some f else w.files s }

/-- `fits_create_file` with a leading `!`: an existing file is replaced by an empty one. -/
def fitsCreate (w : Disk α) (name : Str) (st : Bool) : Disk α × Bool :=
  if st then (w, true)
  else if w.fails then (w.next, true)
  else ({ w.next.put name ⟨[], 1⟩ with opened := w.opened + 1 }, false)

/-- A routine that changes the unit. -/
def fitsEdit (w : Disk α) (name : Str) (st : Bool) (e : FitsFile α → FitsFile α) : Disk α × Bool :=
  if st then (w, true)
  else if w.fails then (w.next, true)
  else match w.files name with
    | none => (w.next, true)
    | some f => (w.next.put name (e f), false)

/-- `fits_create_img`. -/
def newImage (c r : Int) (f : FitsFile α) : FitsFile α := { f with hdus := [⟨true, 2, [c, r], [], []⟩] }

/-- `fits_write_comment`. -/
def addComment (s : Str) (f : FitsFile α) : FitsFile α := { f with hdus := f.hdus.map fun h => { h with comments := h.comments ++ [s] } }

/-- `fits_write_pix`. -/
def setPixels (vs : List α) (f : FitsFile α) : FitsFile α := { f with hdus := f.hdus.map fun h => { h with pixels := vs } }

/-- The comments, `core/image_io.cpp:345-348`. -/
def writeComments (name : Str) : List Str → Disk α → Bool → Disk α × Bool
  | [], w, st => (w, st)
  | s :: ss, w, st =>
    let r := fitsEdit w name st (addComment s)
    writeComments name ss r.1 r.2

/-- `SaveVectorAsImage`, `core/image_io.cpp:314-372`; `fits_write_date` changes nothing that is modelled. `flt` is rounding to single precision. -/
def saveImage (flt : α → α) (w : Disk α) (pixels : Option (List α)) (name : Str) (c r : Int) (comments : List Str) : Res (Disk α × Int) :=
  match pixels with
  | none => .ok (w, -2)
  | some ps =>
    let a := fitsCreate w name false
    let b := fitsEdit a.1 name a.2 (newImage c r)
    let d := writeComments name comments b.1 b.2
    let e := fitsEdit d.1 name d.2 id
    if e.2 = false ∧ (ps.length : Int) < c * r then .error .oob
    else
      let p := fitsEdit e.1 name e.2 (setPixels ((ps.take (c * r).toNat).map flt))
      if p.2 then .ok (p.1, -1)
      else
        let cl := fitsClose p.1 p.2
        if cl.2 then .ok (cl.1, -1) else .ok (cl.1, 0)

/-! ## Images used together -/

/-- `GetAndCheckImage`, `core/getimages.cpp:34-59`. -/
def getAndCheck (w : Disk α) (name : Str) (refC refR : Int) : Res (Disk α × Option (List α) × Int) := do
  let r ← readImage w name
  match r.2 with
  | none => .ok (r.1, none, -1)
  | some (ps, c, rows) => if (refC > 0 ∧ refR > 0) ∧ (c ≠ refC ∨ rows ≠ refR) then .ok (r.1, none, -2) else .ok (r.1, some ps, 0)

/-- One of the two images of `GetMaskAndErrorImages`, if its name is not empty. -/
def getOptional (w : Disk α) (name : Str) (c r : Int) : Res (Disk α × Option (List α) × Int) :=
  if name.length > 0 then getAndCheck w name c r else .ok (w, none, 0)

/-- `GetMaskAndErrorImages`, `core/getimages.cpp:74-110`: mask, errors, status. -/
def getMaskError (w : Disk α) (c r : Int) (mask err : Str) : Res (Disk α × Option (List α) × Option (List α) × Int) := do
  let m ← getOptional w mask c r
  if m.2.2 < 0 then .ok (m.1, m.2.1, none, -1)
  else do
    let e ← getOptional m.1 err c r
    if e.2.2 < 0 then .ok (e.1, m.2.1, e.2.1, -1)
    else .ok (e.1, m.2.1, e.2.1, (if mask.length > 0 then 1 else 0) + (if err.length > 0 then 2 else 0))

/-- `GetPsfImage`, `core/getimages.cpp:119-135`: pixels, columns, rows, status. -/
def getPsf (w : Disk α) (name : Str) : Res (Disk α × Option (List α) × Int × Int × Int) := do
  let p ← getAndCheck w name 0 0
  if p.2.2 < 0 then .ok (p.1, p.2.1, 0, 0, -1)
  else do
    let s ← getImageSize p.1 name
    .ok (s.1, p.2.1, s.2.1, s.2.2.1, 0)

end Imfit
