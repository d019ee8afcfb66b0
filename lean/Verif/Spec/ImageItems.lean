import Verif.Spec.ImageInfo

/-!
# What an image-information file says besides the five parameters

For each piece of information: the key words that tell it, and how the words of the line are read.
-/

namespace Imfit.Spec

/-- Pieces of information of which the last line counts. -/
inductive ImgItem where
  | gain | readNoise | sky | expTime | weight | nCombined | nColumns | nRows | data | mask | err | psf | maskGood | errType
  deriving DecidableEq

/-- What kind of thing it is. -/
inductive ItemVal (α : Type) where
  | num (a : α)
  | int (z : Int)
  | name (s : Option Str)
  | flag (b : Bool)
  | kind (n : Nat)

/-- How the words of a line are read. -/
abbrev Reader (α : Type) := List Str → Option (ItemVal α)

variable {α : Type} [FP α]

def readNum (nl : NumLib α) : Reader α := fun ws => ws[1]?.map fun t => .num (nl.d.val t)
def readInt (nl : NumLib α) : Reader α := fun ws => ws[1]?.map fun t => .int (nl.toInt t)
def readName : Reader α := fun ws => ws[1]?.map fun t => .name (some t)
/-- One of the numbers separated by commas. -/
def readPart (nl : NumLib α) (j : Nat) : Reader α := fun ws => ws[1]?.bind fun t => (tokens (· == ',') t)[j]?.map fun p => .int (nl.toInt p)

/-- Key words and readers. -/
def ImgItem.readers (nl : NumLib α) : ImgItem → List (Str × Reader α)
  | .gain => [(['G', 'A', 'I', 'N'], readNum nl)]
  | .readNoise => [(['R', 'E', 'A', 'D', 'N', 'O', 'I', 'S', 'E'], readNum nl)]
  | .sky => [(['O', 'R', 'I', 'G', 'I', 'N', 'A', 'L', '_', 'S', 'K', 'Y'], readNum nl)]
  | .expTime => [(['E', 'X', 'P', 'T', 'I', 'M', 'E'], readNum nl)]
  | .weight => [(['W', 'E', 'I', 'G', 'H', 'T'], readNum nl)]
  | .nCombined => [(['N', 'C', 'O', 'M', 'B', 'I', 'N', 'E', 'D'], readInt nl)]
  | .nColumns => [(['N', 'C', 'O', 'L', 'S'], readInt nl),
      (['N', 'C', 'O', 'L', 'S', ',', 'N', 'R', 'O', 'W', 'S'], readPart nl 0),
      (['N', 'R', 'O', 'W', 'S', ',', 'N', 'C', 'O', 'L', 'S'], readPart nl 1)]
  | .nRows => [(['N', 'R', 'O', 'W', 'S'], readInt nl),
      (['N', 'C', 'O', 'L', 'S', ',', 'N', 'R', 'O', 'W', 'S'], readPart nl 1),
      (['N', 'R', 'O', 'W', 'S', ',', 'N', 'C', 'O', 'L', 'S'], readPart nl 0)]
  | .data => [(['D', 'A', 'T', 'A'], readName)]
  | .mask => [(['M', 'A', 'S', 'K'], readName)]
  | .err => [(['E', 'R', 'R', 'O', 'R'], readName)]
  | .psf => [(['P', 'S', 'F'], readName)]
  | .maskGood => [(['M', 'A', 'S', 'K', '_', 'Z', 'E', 'R', 'O', '_', 'I', 'S', '_', 'G', 'O', 'O', 'D'], fun _ => some (.flag true)),
      (['M', 'A', 'S', 'K', '_', 'Z', 'E', 'R', 'O', '_', 'I', 'S', '_', 'B', 'A', 'D'], fun _ => some (.flag false))]
  | .errType => [(['E', 'R', 'R', 'O', 'R', 'S', '_', 'A', 'R', 'E', '_', 'S', 'I', 'G', 'M', 'A', 'S'], fun _ => some (.kind 0)),
      (['E', 'R', 'R', 'O', 'R', 'S', '_', 'A', 'R', 'E', '_', 'V', 'A', 'R', 'I', 'A', 'N', 'C', 'E', 'S'], fun _ => some (.kind 1)),
      (['E', 'R', 'R', 'O', 'R', 'S', '_', 'A', 'R', 'E', '_', 'W', 'E', 'I', 'G', 'H', 'T', 'S'], fun _ => some (.kind 2))]

/-- Value stored. -/
def ImgItem.val (i : ImgInfo α) : ImgItem → ItemVal α
  | .gain => .num i.gain
  | .readNoise => .num i.readNoise
  | .sky => .num i.originalSky
  | .expTime => .num i.expTime
  | .weight => .num i.weight
  | .nCombined => .int i.nCombined
  | .nColumns => .int i.nColumns
  | .nRows => .int i.nRows
  | .data => .name i.data
  | .mask => .name i.mask
  | .err => .name i.err
  | .psf => .name i.psf
  | .maskGood => .flag i.maskGood
  | .errType => .kind i.errType

/-- Value if nothing is said. -/
def ImgItem.default : ImgItem → ItemVal α
  | .gain | .expTime | .weight => .num 1
  | .readNoise | .sky => .num 0
  | .nCombined => .int 1
  | .nColumns | .nRows => .int 0
  | .data | .mask | .err | .psf => .name none
  | .maskGood => .flag true
  | .errType => .kind 0

/-- The reader a line calls for. -/
def ImgItem.reader (nl : NumLib α) (q : ImgItem) (l : Str) : Option (Reader α) := (words l).head?.bind fun w => (q.readers nl).lookup w

/-- What the last line about it says. -/
def ImgItem.said (nl : NumLib α) (q : ImgItem) (b : List Str) : Option (Option (ItemVal α)) :=
  (descLines b).reverse.findSome? fun l => (q.reader nl l).map fun f => f (words l)

/-- Oversampled regions, of which there may be several: the file names, scales and regions told by the lines, in order. -/
def overNamesSaid (b : List Str) : List Str := (descLines b).flatMap fun l =>
  if (words l).head? = some ['O', 'V', 'E', 'R', 'S', 'A', 'M', 'P', 'L', 'E', 'D', '_', 'P', 'S', 'F'] then (words l)[1]?.toList else []
def overScalesSaid (nl : NumLib α) (b : List Str) : List Int := (descLines b).flatMap fun l =>
  if (words l).head? = some ['O', 'V', 'E', 'R', 'S', 'A', 'M', 'P', 'L', 'E', '_', 'S', 'C', 'A', 'L', 'E'] then ((words l)[1]?.map nl.toInt).toList else []
def overRegionsSaid (b : List Str) : List Str := (descLines b).flatMap fun l =>
  if (words l).head? = some ['O', 'V', 'E', 'R', 'S', 'A', 'M', 'P', 'L', 'E', 'D', '_', 'R', 'E', 'G', 'I', 'O', 'N'] then (words l)[1]?.toList else []

end Imfit.Spec
