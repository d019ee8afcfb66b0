import Verif.Model.Print
import Verif.Spec.Driver

/-!
# What is promised about a fit that is continued from its result
-/

namespace Imfit.Spec

variable {α : Type}

/-- What a fit does not change: sets, functions, labels, optional parameters, numbers of parameters. -/
def shape (plan : List (SetWritten α)) : List (List (Str × Str × List (Str × Str) × Nat)) :=
  plan.map fun s => s.fns.map fun f => (f.name, f.label, f.extra, f.entries.length)

/-- The number that a printed text stands for: blanks in front are passed over. -/
def numberIn (nl : Strtod α) (t : Str) : α := nl.val (t.dropWhile (· == ' '))

/-- A set of the result (in coordinates of the section) as it is found in the file: centres with four decimals, in coordinates of the whole image; other values with six
digits; no limits, nothing fixed. -/
def reread [FP α] (nl : Strtod α) (pr : NumFmt α) (ox oy : Int) (s : SetWritten α) : SetWritten α where
  x0 := ⟨numberIn nl (pr.f4 (s.x0.value + FP.lit (ox : ℚ))), ParInfo.zero⟩
  y0 := ⟨numberIn nl (pr.f4 (s.y0.value + FP.lit (oy : ℚ))), ParInfo.zero⟩
  fns := s.fns.map fun f => { f with entries := f.entries.map fun e => ⟨numberIn nl (pr.g7 e.value), ParInfo.zero⟩ }

end Imfit.Spec
