import Verif.Spec.Makeimage
import Verif.Spec.Driver
import Verif.Model.Makemulti

/-!
# Specification of `makemultimages`
-/

namespace Imfit.Spec

variable {α : Type}

/-- The flags and options of `makemultimages`. -/
def multiMakeDecls : List Decl :=
  [⟨true, false, ["help".toList, "h".toList]⟩, ⟨true, false, ["version".toList, "v".toList]⟩] ++
  ["list-functions", "list-parameters", "sample-config", "save-expanded", "nosubsampling", "nosave"].map flagDecl ++
  [optDecl "image-info", ⟨false, false, ["output".toList, "o".toList]⟩] ++ ["estimation-size", "output-functions", "timing", "max-threads", "debug"].map optDecl

/-- The values are numbers where numbers are wanted. -/
structure MultiMakeWellFormed (g : CmdGiven) : Prop where
  estimation : ∀ t ∈ g.first "estimation-size", IsWhole 2147483647 t
  timing : ∀ t ∈ g.first "timing", IsWhole 2147483647 t
  threads : ∀ t ∈ g.first "max-threads", IsWhole 2147483647 t
  debug : ∀ t ∈ g.first "debug", IsInteger 2147483647 t

/-- The settings are those that were asked for, and the defaults elsewhere. -/
structure ObeysMultiMake (g : CmdGiven) (o : MultiMakeOpts) : Prop where
  config : o.config = g.args.head?.getD []
  imageInfo : o.imageInfo = g.first "image-info"
  saveExpanded : o.saveExpanded = g.has "save-expanded"
  subsampling : o.subsampling = !g.has "nosubsampling"
  saveImage : o.saveImage = !(g.has "nosave" || (g.first "timing").isSome)
  root : o.root = (g.first "output").getD "modelimage_multi".toList
  estimation : o.estimationSize = ((g.first "estimation-size").map wholeVal).getD 5000
  functionRoot : o.functionRoot = g.first "output-functions"
  timing : o.timing = ((g.first "timing").map wholeVal).getD 0
  maxThreads : o.maxThreads = (g.first "max-threads").map wholeVal
  debug : o.debug = ((g.first "debug").map integerVal).getD 0

/-- The size of an image: the one described, if it is, else that of the data image (`dataSize`). -/
def SizeIs (dataSize : Str → Option (Int × Int)) (i : ImgInfo α) (s : Int × Int) : Prop :=
  if 0 < i.nColumns ∧ 0 < i.nRows then s = (i.nColumns, i.nRows) else 1 ≤ s.1 ∧ 1 ≤ s.2 ∧ ∃ f, i.data = some f ∧ dataSize f = some s

/-- A set at another place. -/
def SetWritten.put (s : SetWritten α) (p : α × α) : SetWritten α := { s with x0 := { s.x0 with value := p.1 }, y0 := { s.y0 with value := p.2 } }

/-- The sets as an image sees them: the first where the description of the image says, the others where `place` puts them, given the first and the other set of the first image. -/
def seenBy (place : α × α → α × α → α × α) (p : α × α) : List (SetWritten α) → List (SetWritten α)
  | [] => []
  | s :: rest => s.put p :: rest.map fun t => t.put (place (s.x0.value, s.y0.value) (t.x0.value, t.y0.value))

/-- The parameters written down for a list of sets. -/
def writtenValues (plan : List (SetWritten α)) : List α := (lines plan).map Entry.value

/-- A function as it is used: without its optional parameters. -/
def plainFunction (cat : Catalogue) (f : FnWritten α) : FnBuilt := ⟨f.name, f.label, [], (cat.params f.name).getD []⟩

/-- Name of the file with image `k`. -/
def numbered (root : Str) (k : Nat) : Str := root ++ ('_' :: (Nat.repr k).toList) ++ ".fits".toList

end Imfit.Spec
