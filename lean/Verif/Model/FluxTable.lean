import Verif.Model.Flux
import Verif.Model.Makeimage
import Verif.Model.Profile

/-!
# The table of fluxes of `makeimage`

Source: `DetermineFluxes`, `core/makeimage_main.cpp:726-818`. The layout of a line (widths, number of digits) and the lines above the table are left out: a line is a `FluxRow`.
-/

namespace Imfit

open FP

variable {α : Type}

/-- A line of the table. No magnitude is printed as `---`. -/
structure FluxRow (α : Type) where
  name : Str
  flux : α
  magnitude : Option α
  fraction : α
  label : Option Str

/-- The magnitude of a flux. `core/makeimage_main.cpp:769-774`; `NO_MAGNITUDES` is −10000 (`core/definitions.h:30`). -/
def fluxMagnitude [FP α] (zp flux : α) : Option α :=
  if !feq zp (lit (-10000)) && flt 0 flux then some (zp - lit (25 / 10) * flog10 flux) else none

/-- One turn of the loop for a component. `core/makeimage_main.cpp:753-784`. -/
def fluxRow [FP α] (zp total : α) (fluxes : List α) (names labels : List Str) (n : Nat) : Res (FluxRow α) := do
  let f ← rd fluxes n
  let name ← rd names n
  let label ← rd labels n
  .ok ⟨name, f, fluxMagnitude zp f, f / total, if label.isEmpty then none else some label⟩

/-- The lines. `core/makeimage_main.cpp:751-787`. -/
def fluxTable [FP α] (zp : α) (names labels : List Str) (r : α × List α) : Res (List (FluxRow α)) := do
  let rows ← loopMap r.2.length (fluxRow zp r.1 r.2 names labels)
  .ok (rows ++ [⟨"Total".toList, r.1, fluxMagnitude zp r.1, 1, none⟩])

/-- `DetermineFluxes`: the lines that are printed and those that are put into the file. `writable`: the file can be opened. `core/makeimage_main.cpp:726-818`. The result of `fopen` is not
looked at. -/
def determineFluxes [FP α] (o : MakeOpts α) (writable : Str → Bool) (fns : List (FluxFn α)) (starts : List Bool) (params : List α) (parts : List (List Nat)) (names labels : List Str) :
    Res (Option (List (FluxRow α)) × Option (Str × List (FluxRow α))) := do
  let r ← findTotalFluxes fns starts params o.estimationSize.toNat o.estimationSize.toNat parts
  let rows ← fluxTable o.zeroPoint names labels r
  let file ← (match o.saveFluxes with
    | none => .ok none
    | some f => if writable f then .ok (some (f, rows)) else .error .null : Res (Option (Str × List (FluxRow α))))
  .ok (if o.printFluxes then some rows else none, file)

end Imfit
