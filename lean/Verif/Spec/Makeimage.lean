import Verif.Spec.Options
import Verif.Model.Makeimage

/-!
# Specification of `makeimage`
-/

namespace Imfit.Spec

variable {α : Type}

/-- The flags and options of `makeimage`. -/
def makeDecls : List Decl :=
  [⟨true, false, ["help".toList, "h".toList]⟩, ⟨true, false, ["version".toList, "v".toList]⟩] ++
  ["list-functions", "list-parameters", "sample-config", "printimage", "save-expanded", "no-normalize", "no-subsampling", "print-fluxes", "nosave"].map flagDecl ++
  [⟨false, false, ["output".toList, "o".toList]⟩] ++ ["ncols", "nrows", "refimage", "psf"].map optDecl ++ ["overpsf", "overpsf_scale", "overpsf_region"].map listDecl ++
  ["zero-point", "estimation-size", "save-fluxes", "output-functions", "timing", "max-threads", "debug"].map optDecl

/-- A whole number of at most `m`, with or without a minus sign. -/
def IsInteger (m : Nat) (t : Str) : Prop := ∃ n : Nat, n ≤ m ∧ (t = (Nat.repr n).toList ∨ t = '-' :: (Nat.repr n).toList)

/-- Its value. -/
def integerVal : Str → Int
  | '-' :: t => -wholeVal t
  | t => wholeVal t

/-- The values are numbers where numbers are wanted. -/
structure MakeWellFormed (g : CmdGiven) : Prop where
  ncols : ∀ t ∈ g.first "ncols", IsWhole 2147483647 t
  nrows : ∀ t ∈ g.first "nrows", IsWhole 2147483647 t
  zeroPoint : ∀ t ∈ g.first "zero-point", IsReal t
  estimation : ∀ t ∈ g.first "estimation-size", IsWhole 2147483647 t
  timing : ∀ t ∈ g.first "timing", IsWhole 2147483647 t
  threads : ∀ t ∈ g.first "max-threads", IsWhole 2147483647 t
  debug : ∀ t ∈ g.first "debug", IsInteger 2147483647 t
  scales : ∀ t ∈ g.every "overpsf_scale", IsWhole 2147483647 t

/-- The settings are those that were asked for, and the defaults elsewhere. Printing fluxes and timing turn saving off. -/
structure ObeysMake [FP α] (num : Str → α) (cores : Int) (g : CmdGiven) (o : MakeOpts α) : Prop where
  config : o.config = g.args.head?.getD []
  printImages : o.printImages = g.has "printimage"
  saveExpanded : o.saveExpanded = g.has "save-expanded"
  normalizePSF : o.normalizePSF = !g.has "no-normalize"
  subsampling : o.subsampling = !g.has "no-subsampling"
  saveImage : o.saveImage = !(g.has "nosave" || g.has "print-fluxes" || (g.first "timing").isSome)
  printFluxes : o.printFluxes = g.has "print-fluxes"
  output : o.output = (g.first "output").getD "modelimage.fits".toList
  refImage : o.refImage = g.first "refimage"
  psf : o.psf = g.first "psf"
  overPsfs : o.overPsfs = if g.every "overpsf" = [] then none else some (g.every "overpsf")
  overScales : o.overScales = (g.every "overpsf_scale").map wholeVal
  overRegions : o.overRegions = g.every "overpsf_region"
  nColumns : o.nColumns = ((g.first "ncols").map wholeVal).getD 0 ∧ o.nColumnsSet = (g.first "ncols").isSome
  nRows : o.nRows = ((g.first "nrows").map wholeVal).getD 0 ∧ o.nRowsSet = (g.first "nrows").isSome
  noDims : o.noDims = !((g.first "ncols").isSome && (g.first "nrows").isSome)
  zeroPoint : o.zeroPoint = ((g.first "zero-point").map num).getD (lit (-10000))
  estimation : o.estimationSize = ((g.first "estimation-size").map wholeVal).getD 5000
  saveFluxes : o.saveFluxes = g.first "save-fluxes"
  functionRoot : o.functionRoot = g.first "output-functions"
  timing : o.timing = ((g.first "timing").map wholeVal).getD 0
  maxThreads : o.maxThreads = ((g.first "max-threads").map wholeVal).getD cores
  debug : o.debug = ((g.first "debug").map integerVal).getD 0

/-- The size of an image: the numbers of columns and rows that are given, both from the command line if possible, else from the configuration file; if one of them is missing, the size
of the reference image. -/
def sizeFor (cmdCols cmdRows fileCols fileRows : Option Int) (ref : Option (Int × Int)) : Option (Int × Int) :=
  match cmdCols.or fileCols, cmdRows.or fileRows with
  | some c, some r => some (c, r)
  | _, _ => ref

end Imfit.Spec
