import Verif.Spec.Text

/-! # What the lines of a configuration file are -/

namespace Imfit.Spec

/-- The line without leading and trailing blanks; a line of one character counts as empty (see C30). -/
def stripped (l : Str) : Str := if (trim l).length = 1 then [] else trim l

/-- Neither empty nor a comment. -/
def meaningful (l : Str) : Bool := match l with
  | [] => false
  | c :: _ => c != '#'

/-- The lines of a file that count. -/
def usable (file : Str) : List Str := ((file.splitOnP (· == '\n')).map stripped).filter meaningful

/-- Does the line contain the word? -/
def Has (k : Str) (l : Str) : Prop := k <:+: l

end Imfit.Spec
