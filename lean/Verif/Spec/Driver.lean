import Verif.Model.Driver
import Verif.Spec.Layout

/-!
# What a configuration file asks for

A model as the user writes it: function sets with their centre, functions with the values written below them.
-/

namespace Imfit.Spec

variable {α : Type}

/-- A parameter line: the value and what is said about limits. -/
structure Entry (α : Type) where
  value : α
  lim : ParInfo α

/-- A function and what is written below it. -/
structure FnWritten (α : Type) where
  name : Str
  label : Str
  extra : List (Str × Str)
  entries : List (Entry α)

/-- A function set. -/
structure SetWritten (α : Type) where
  x0 : Entry α
  y0 : Entry α
  fns : List (FnWritten α)

/-- The parameter lines, in order. -/
def lines (plan : List (SetWritten α)) : List (Entry α) := plan.flatMap fun s => s.x0 :: s.y0 :: s.fns.flatMap FnWritten.entries

/-- All functions, in order. -/
def functions (plan : List (SetWritten α)) : List (FnWritten α) := plan.flatMap SetWritten.fns

/-- The parsed file has the contents described by the plan. -/
structure Says (c : Config α) (plan : List (SetWritten α)) : Prop where
  names : c.names = (functions plan).map FnWritten.name
  labels : c.labels = (functions plan).map FnWritten.label
  opts : c.opts = (functions plan).map FnWritten.extra
  vals : c.vals = (lines plan).map Entry.value
  lims : c.lims = (lines plan).map Entry.lim
  starts : c.starts = startIndices 0 (plan.map SetWritten.fns)

/-- A coordinate and its limits in the image section that starts `d` pixels later. -/
def Entry.moved [FP α] (d : Int) (e : Entry α) : Entry α :=
  ⟨e.value - FP.lit (d : ℚ), { e.lim with lo := e.lim.lo - FP.lit (d : ℚ), hi := e.lim.hi - FP.lit (d : ℚ) }⟩

/-- The plan in the coordinates of the image section: centres are moved, everything else stays. -/
def SetWritten.moved [FP α] (ox oy : Int) (s : SetWritten α) : SetWritten α := { s with x0 := s.x0.moved ox, y0 := s.y0.moved oy }

/-- There is a set, and each set has a function. -/
def Filled (plan : List (SetWritten α)) : Prop := plan ≠ [] ∧ ∀ s ∈ plan, s.fns ≠ []

/-- A function that can be used: its class exists, its optional parameters are accepted, and it can be added to the model; no parameter of it is
called X0 or Y0. -/
structure Usable (cat : Catalogue) (f : FnWritten α) (ps : List Str) : Prop where
  known : cat.params f.name = some ps
  extra : f.extra = [] ∨ 0 ≤ cat.setExtra f.name f.extra
  accepts : cat.accepts f.name = true
  noX : ['X', '0'] ∉ ps
  noY : ['Y', '0'] ∉ ps

/-- The values that a plan gives to its functions, for the function descriptions `d`. -/
def setVals (d : Str → FnDesc α) (plan : List (SetWritten α)) : List (SetVals α) :=
  plan.map fun s => ⟨s.x0.value, s.y0.value, s.fns.map fun f => (d f.name, f.entries.map Entry.value)⟩

/-! ## Several images -/

/-- A coordinate in the image section that starts `d` pixels later; limits are moved where there are any. -/
def Entry.movedLimited [FP α] (d : Int) (e : Entry α) : Entry α where
  value := e.value - FP.lit (d : ℚ)
  lim := ⟨e.lim.fixed, e.lim.lim0, e.lim.lim1, bif e.lim.lim0 then e.lim.lo - FP.lit (d : ℚ) else e.lim.lo,
    bif e.lim.lim1 then e.lim.hi - FP.lit (d : ℚ) else e.lim.hi⟩

/-- The plan in the coordinates of a section of the reference image. -/
def SetWritten.movedLimited [FP α] (o : Int × Int) (s : SetWritten α) : SetWritten α :=
  { s with x0 := s.x0.movedLimited o.1, y0 := s.y0.movedLimited o.2 }

/-- The five parameters that describe an image, its position in the coordinates of a section. -/
def describedIn [FP α] (im : ImgInfo α) (o : Int × Int) : List (Entry α) :=
  [⟨im.pixelScale, im.pixelScaleLim⟩, ⟨im.rotation, im.rotationLim⟩, ⟨im.intensityScale, im.intensityScaleLim⟩,
    Entry.movedLimited o.1 ⟨im.x0, im.x0Lim⟩, Entry.movedLimited o.2 ⟨im.y0, im.y0Lim⟩]

end Imfit.Spec
