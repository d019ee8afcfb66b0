import Verif.Model.Text

/-!
# Specification of the text helpers
-/

namespace Imfit.Spec

/-- The maximal delimiter-free pieces, in order (empty pieces between adjacent delimiters are not pieces). -/
def tokens (d : Char → Bool) (s : Str) : List Str := (s.splitOnP d).filter (· ≠ [])

/-- Everything before the first `c`. -/
def before (c : Char) (s : Str) : Str := s.takeWhile (· != c)

/-- Without leading and trailing blanks. -/
def trim (s : Str) : Str := ((s.dropWhile isBlank).reverse.dropWhile isBlank).reverse

end Imfit.Spec
