import Verif.Spec.Config
import Verif.Model.ImageInfo

/-!
# What an image-information file says

Stated with words of lines only.
-/

namespace Imfit.Spec

/-- The five image-description parameters, in the documented order. -/
inductive ImgPar where
  | pixelScale
  | rotation
  | intensityScale
  | x0
  | y0
  deriving DecidableEq

/-- The documented order. -/
def ImgPar.all : List ImgPar := [.pixelScale, .rotation, .intensityScale, .x0, .y0]

/-- The key word. -/
def ImgPar.word : ImgPar → Str
  | .pixelScale => ['P', 'I', 'X', 'E', 'L', '_', 'S', 'C', 'A', 'L', 'E']
  | .rotation => ['I', 'M', 'A', 'G', 'E', '_', 'P', 'A']
  | .intensityScale => ['F', 'L', 'U', 'X', '_', 'S', 'C', 'A', 'L', 'E']
  | .x0 => ['X', '0']
  | .y0 => ['Y', '0']

/-- Is the parameter held fixed when nothing is said? -/
def ImgPar.strict : ImgPar → Bool
  | .pixelScale => true
  | .rotation => true
  | _ => false

/-- The value when nothing is said. -/
def ImgPar.default {α : Type} [FP α] : ImgPar → α
  | .pixelScale => 1
  | .intensityScale => 1
  | _ => 0

/-- The value stored. -/
def ImgPar.val {α : Type} (i : ImgInfo α) : ImgPar → α
  | .pixelScale => i.pixelScale
  | .rotation => i.rotation
  | .intensityScale => i.intensityScale
  | .x0 => i.x0
  | .y0 => i.y0

/-- The limits stored. -/
def ImgPar.lim {α : Type} (i : ImgInfo α) : ImgPar → ParInfo α
  | .pixelScale => i.pixelScaleLim
  | .rotation => i.rotationLim
  | .intensityScale => i.intensityScaleLim
  | .x0 => i.x0Lim
  | .y0 => i.y0Lim

/-- Words of a line. -/
def words (l : Str) : List Str := tokens isBlank l

def functionsStart : Str := ['F', 'U', 'N', 'C', 'T', 'I', 'O', 'N', 'S', '_', 'S', 'T', 'A', 'R', 'T']
def imageStart : Str := ['I', 'M', 'A', 'G', 'E', '_', 'S', 'T', 'A', 'R', 'T']

instance decidableHas (k l : Str) : Decidable (Has k l) := inferInstanceAs (Decidable (k <:+: l))

/-- The lines of an image before its own functions. -/
def descLines (b : List Str) : List Str := b.takeWhile fun l => decide (¬ Has functionsStart l)

/-- The last line about `w`. -/
def lineFor (w : Str) (b : List Str) : Option Str := (descLines b).reverse.find? fun l => (words l).head? == some w

/-- What the third word of a line says. -/
inductive Given (α : Type) where
  | nothing
  | fixed
  | limits (lo hi : α)
  /-- a comma, but not two values -/
  | malformed

/-- What the line says about limits. -/
def given {α : Type} (val : Str → α) (l : Str) : Given α :=
  match (words l)[2]? with
  | none => .nothing
  | some t =>
    if t = ['f', 'i', 'x', 'e', 'd'] then .fixed
    else if ',' ∈ t then
      match tokens (· == ',') t with
      | a :: b :: _ => .limits (val a) (val b)
      | _ => .malformed
    else .nothing

/-- Sensible limits. -/
def Proper {α : Type} [FP α] (v lo hi : α) : Prop := FP.fle hi lo = false ∧ FP.flt v lo = false ∧ FP.flt hi v = false

/-- The blocks of lines of the images: each begins with an `IMAGE_START` line and has no other. -/
def IsBlocks (bs : List (List Str)) : Prop := ∀ b ∈ bs, ∃ l r, b = l :: r ∧ Has imageStart l ∧ ∀ x ∈ r, ¬ Has imageStart x

end Imfit.Spec
