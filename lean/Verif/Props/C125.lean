import Verif.Lemmas.DreamToy
import Verif.Spec.Config
import Verif.Spec.Driver
import Verif.Model.Registry
import Verif.Model.MakeRun

/-!
# C125 — The sample configuration files can be used

The texts written for `--sample-config` name the parameters of their function in the order in which `Setup` reads them, are read without complaint, and start a fit. Numbers are read in
tenths here, so that integers suffice for all of them and for the comparisons of limits.
-/

namespace Imfit

open Spec

/-- `strtod` in tenths: digits, and a point with one digit if there is one. -/
def tenthsStrtod : Strtod Int := ⟨fun s =>
  let whole := s.takeWhile Char.isDigit
  let v := (whole.foldl (fun n c => n * 10 + (c.toNat - 48)) 0)
  match s.drop whole.length with
  | '.' :: d :: _ => if d.isDigit then ((v * 10 + (d.toNat - 48) : Nat), whole.length + 2) else ((v * 10 : Nat), whole.length + 1)
  | _ => ((v * 10 : Nat), whole.length)⟩

/-- The first words of the lines that are not empty or comments. -/
def firstWords (file : Str) : List Str := (usable file).map fun l => l.takeWhile (! isBlank ·)

/-- The characters of the text. -/
def sampleImfitChars : Str :=
  ['#', ' ', 'T', 'h', 'i', 's', ' ', 'i', 's', ' ', 'a', ' ', 's', 'a', 'm', 'p', 'l', 'e', ' ', 'c', 'o', 'n', 'f', 'i', 'g', 'u', 'r', 'a', 't', 'i', 'o', 'n', ' ', 'f', 'i', 'l', 'e', ' ', 'f', 'o', 'r', ' ', 'i', 'm', 'f', 'i', 't', ' ', '(', 'i', 't', ' ', 'w', 'i', 'l', 'l', ' ', 'a', 'l', 's', 'o', ' ', 'w', 'o', 'r', 'k', ' ', 'w', 'i', 't', 'h', ' ', 'm', 'a', 'k', 'e', 'i', 'm', 'a', 'g', 'e', ')', '.', '\n'] ++
  ['#', ' ', 'C', 'o', 'm', 'm', 'e', 'n', 't', 's', ' ', 'a', 'r', 'e', ' ', 'i', 'n', 't', 'r', 'o', 'd', 'u', 'c', 'e', 'd', ' ', 'w', 'i', 't', 'h', ' ', 't', 'h', 'e', ' ', '"', '#', '"', ' ', 'c', 'h', 'a', 'r', 'a', 'c', 't', 'e', 'r', ';', ' ', 'a', 'n', 'y', 't', 'h', 'i', 'n', 'g', ' ', 'f', 'o', 'l', 'l', 'o', 'w', 'i', 'n', 'g', ' ', 't', 'h', 'i', 's', ' ', 'c', 'h', 'a', 'r', 'a', 'c', 't', 'e', 'r', '\n'] ++
  ['#', ' ', 'o', 'n', ' ', 't', 'h', 'e', ' ', 's', 'a', 'm', 'e', ' ', 'l', 'i', 'n', 'e', ' ', 'i', 's', ' ', 'i', 'g', 'n', 'o', 'r', 'e', 'd', ' ', 'b', 'y', ' ', 'i', 'm', 'f', 'i', 't', '.', ' ', 'B', 'l', 'a', 'n', 'k', ' ', 'l', 'i', 'n', 'e', 's', ' ', 'a', 'r', 'e', ' ', 'a', 'l', 's', 'o', ' ', 'i', 'g', 'n', 'o', 'r', 'e', 'd', '.', '\n'] ++
  ['#', ' ', 'N', 'o', 't', 'e', ' ', 't', 'h', 'a', 't', ' ', 't', 'o', ' ', 'u', 's', 'e', ' ', 't', 'h', 'i', 's', ' ', 'f', 'i', 'l', 'e', ' ', 'w', 'i', 't', 'h', ' ', 'm', 'a', 'k', 'e', 'i', 'm', 'a', 'g', 'e', ',', ' ', 't', 'h', 'e', ' ', 'd', 'e', 's', 'i', 'r', 'e', 'd', ' ', 'd', 'i', 'm', 'e', 'n', 's', 'i', 'o', 'n', 's', ' ', 'o', 'f', ' ', 't', 'h', 'e', ' ', 'o', 'u', 't', 'p', 'u', 't', '\n'] ++
  ['#', ' ', 'm', 'o', 'd', 'e', 'l', ' ', 'i', 'm', 'a', 'g', 'e', ' ', 'w', 'i', 'l', 'l', ' ', 'a', 'l', 's', 'o', ' ', 'n', 'e', 'e', 'd', ' ', 't', 'o', ' ', 'b', 'e', ' ', 's', 'u', 'p', 'p', 'l', 'i', 'e', 'd', '.', '\n', '\n'] ++
  ['#', ' ', 'O', 'p', 't', 'i', 'o', 'n', 'a', 'l', ' ', 'i', 'm', 'a', 'g', 'e', '-', 'd', 'e', 's', 'c', 'r', 'i', 'p', 't', 'i', 'o', 'n', ' ', 'p', 'a', 'r', 'a', 'm', 'e', 't', 'e', 'r', 's', ' ', 'f', 'o', 'r', ' ', 'i', 'm', 'f', 'i', 't', ' ', 'a', 'n', 'd', ' ', 't', 'h', 'e', 'i', 'r', ' ', 'd', 'e', 'f', 'a', 'u', 'l', 't', ' ', 'v', 'a', 'l', 'u', 'e', 's', ';', '\n'] ++
  ['#', ' ', 'u', 'n', 'c', 'o', 'm', 'm', 'e', 'n', 't', ' ', 'a', 'n', 'd', ' ', 'e', 'd', 'i', 't', ' ', 'i', 'f', ' ', 'n', 'e', 'e', 'd', 'e', 'd', '\n'] ++
  ['#', ' ', 'G', 'A', 'I', 'N', ' ', ' ', ' ', ' ', ' ', ' ', ' ', ' ', ' ', ' ', ' ', ' ', '1', '.', '0', ' ', ' ', ' ', '#', ' ', 'A', '/', 'D', ' ', 'g', 'a', 'i', 'n', ' ', 'i', 'n', ' ', 'e', '-', '/', 'A', 'D', 'U', '\n'] ++
  ['#', ' ', 'R', 'E', 'A', 'D', 'N', 'O', 'I', 'S', 'E', ' ', ' ', ' ', ' ', ' ', ' ', ' ', '0', '.', '0', ' ', ' ', ' ', '#', ' ', 'r', 'e', 'a', 'd', ' ', 'n', 'o', 'i', 's', 'e', ' ', 'i', 'n', ' ', 'e', 'l', 'e', 'c', 't', 'r', 'o', 'n', 's', '\n'] ++
  ['#', ' ', 'O', 'R', 'I', 'G', 'I', 'N', 'A', 'L', '_', 'S', 'K', 'Y', ' ', ' ', ' ', ' ', '0', '.', '0', ' ', ' ', ' ', '#', ' ', 'o', 'r', 'i', 'g', 'i', 'n', 'a', 'l', ' ', 'b', 'a', 'c', 'k', 'g', 'r', 'o', 'u', 'n', 'd', ' ', 'v', 'a', 'l', 'u', 'e', ' ', '(', 'A', 'D', 'U', '/', 'p', 'i', 'x', 'e', 'l', ')', ' ', 'p', 'r', 'e', 'v', 'i', 'o', 'u', 's', 'l', 'y', ' ', 's', 'u', 'b', 't', 'r', 'a', 'c', 't', 'e', 'd', '\n'] ++
  ['#', ' ', 'E', 'X', 'P', 'T', 'I', 'M', 'E', ' ', ' ', ' ', ' ', ' ', ' ', ' ', ' ', ' ', '1', '.', '0', ' ', ' ', ' ', '#', ' ', 'o', 'n', 'l', 'y', ' ', 'n', 'e', 'e', 'd', 'e', 'd', ' ', 'i', 'f', ' ', 'i', 'm', 'a', 'g', 'e', ' ', 'h', 'a', 's', ' ', 'A', 'D', 'U', '/', 's', 'e', 'c', '/', 'p', 'i', 'x', 'e', 'l', ' ', 'i', 'n', 's', 't', 'e', 'a', 'd', ' ', 'o', 'f', ' ', 'A', 'D', 'U', '/', 'p', 'i', 'x', 'e', 'l', '\n'] ++
  ['#', ' ', 'N', 'C', 'O', 'M', 'B', 'I', 'N', 'E', 'D', ' ', ' ', ' ', ' ', ' ', ' ', ' ', '1', ' ', ' ', ' ', ' ', ' ', '#', ' ', 'o', 'n', 'l', 'y', ' ', 'n', 'e', 'e', 'd', 'e', 'd', ' ', 'i', 'f', ' ', 'i', 'm', 'a', 'g', 'e', ' ', 'i', 's', ' ', 'a', 'v', 'e', 'r', 'a', 'g', 'e', ' ', 'o', 'f', ' ', 'm', 'u', 'l', 't', 'i', 'p', 'l', 'e', ' ', 'i', 'm', 'a', 'g', 'e', 's', '\n', '\n', '\n'] ++
  ['#', ' ', 'A', ' ', 's', 'i', 'n', 'g', 'l', 'e', ' ', 'f', 'u', 'n', 'c', 't', 'i', 'o', 'n', ' ', 's', 'e', 't', ',', ' ', 'c', 'o', 'n', 't', 'a', 'i', 'n', 'i', 'n', 'g', ' ', 'a', ' ', 's', 'i', 'n', 'g', 'l', 'e', ' ', 'i', 'm', 'a', 'g', 'e', ' ', 'f', 'u', 'n', 'c', 't', 'i', 'o', 'n', ';', '\n'] ++
  ['#', ' ', 'e', 'x', 'a', 'm', 'p', 'l', 'e', 's', ' ', 'o', 'f', ' ', 'o', 'p', 't', 'i', 'o', 'n', 'a', 'l', ' ', 'l', 'o', 'w', 'e', 'r', ' ', 'a', 'n', 'd', ' ', 'u', 'p', 'p', 'e', 'r', ' ', 'l', 'i', 'm', 'i', 't', 's', ' ', 'f', 'o', 'r', ' ', 'e', 'a', 'c', 'h', ' ', 'p', 'a', 'r', 'a', 'm', 'e', 't', 'e', 'r', ' ', 'v', 'a', 'l', 'u', 'e', ' ', 'a', 'r', 'e', ' ', 'i', 'n', ' ', 't', 'h', 'e', ' ', '3', 'r', 'd', ' ', 'c', 'o', 'l', 'u', 'm', 'n', '\n'] ++
  ['X', '0', ' ', ' ', ' ', '1', '2', '9', '.', '0', ' ', ' ', ' ', ' ', '1', '2', '5', ',', '1', '3', '5', ' ', ' ', ' ', ' ', ' ', '#', ' ', 'p', 'i', 'x', 'e', 'l', ' ', 'x', '-', 'c', 'o', 'o', 'r', 'd', 'i', 'n', 'a', 't', 'e', ' ', 'o', 'f', ' ', 'f', 'u', 'n', 'c', 't', 'i', 'o', 'n', ' ', 'c', 'e', 'n', 't', 'e', 'r', '\n'] ++
  ['Y', '0', ' ', ' ', ' ', '1', '2', '9', '.', '0', ' ', ' ', ' ', ' ', '1', '2', '5', ',', '1', '3', '5', ' ', ' ', ' ', ' ', ' ', '#', ' ', 'p', 'i', 'x', 'e', 'l', ' ', 'y', '-', 'c', 'o', 'o', 'r', 'd', 'i', 'n', 'a', 't', 'e', ' ', 'o', 'f', ' ', 'f', 'u', 'n', 'c', 't', 'i', 'o', 'n', ' ', 'c', 'e', 'n', 't', 'e', 'r', '\n'] ++
  ['F', 'U', 'N', 'C', 'T', 'I', 'O', 'N', ' ', 'S', 'e', 'r', 's', 'i', 'c', '\n'] ++
  ['P', 'A', ' ', ' ', ' ', ' ', '1', '8', '.', '0', ' ', ' ', ' ', ' ', '0', ',', '9', '0', ' ', ' ', ' ', ' ', ' ', ' ', ' ', ' ', '#', ' ', 'p', 'o', 's', 'i', 't', 'i', 'o', 'n', ' ', 'a', 'n', 'g', 'l', 'e', ' ', 'i', 'n', ' ', 'd', 'e', 'g', 'r', 'e', 'e', 's', ' ', '(', 'C', 'C', 'W', ' ', 'f', 'r', 'o', 'm', ' ', '+', 'y', ' ', 'a', 'x', 'i', 's', ' ', 'o', 'f', ' ', 'i', 'm', 'a', 'g', 'e', ')', '\n'] ++
  ['e', 'l', 'l', ' ', ' ', ' ', ' ', '0', '.', '2', ' ', ' ', ' ', ' ', '0', ',', '1', ' ', ' ', ' ', ' ', ' ', ' ', ' ', ' ', ' ', '#', ' ', 'e', 'l', 'l', 'i', 'p', 't', 'i', 'c', 'i', 't', 'y', ' ', 'o', 'f', ' ', 'i', 's', 'o', 'p', 'h', 'o', 't', 'e', 's', '\n'] ++
  ['n', ' ', ' ', ' ', ' ', ' ', ' ', '1', '.', '5', ' ', ' ', ' ', ' ', '0', ',', '5', ' ', ' ', ' ', ' ', ' ', ' ', ' ', ' ', ' ', '#', ' ', 'S', 'e', 'r', 's', 'i', 'c', ' ', 'i', 'n', 'd', 'e', 'x', '\n'] ++
  ['I', '_', 'e', ' ', ' ', ' ', ' ', '1', '5', ' ', ' ', ' ', ' ', ' ', '0', ',', '5', '0', '0', ' ', ' ', ' ', ' ', ' ', ' ', ' ', '#', ' ', 'i', 'n', 't', 'e', 'n', 's', 'i', 't', 'y', ' ', '(', 'A', 'D', 'U', '/', 'p', 'i', 'x', 'e', 'l', ')', ' ', 'a', 't', ' ', 'r', '_', 'e', '\n'] ++
  ['r', '_', 'e', ' ', ' ', ' ', ' ', '2', '5', ' ', ' ', ' ', ' ', ' ', '0', ',', '1', '0', '0', ' ', ' ', ' ', ' ', ' ', ' ', ' ', '#', ' ', 'h', 'a', 'l', 'f', '-', 'l', 'i', 'g', 'h', 't', ' ', 'r', 'a', 'd', 'i', 'u', 's', ' ', '(', 'p', 'i', 'x', 'e', 'l', 's', ')', '\n']

/-- The same text, one character after the other; evaluation starts from here. -/
theorem sampleImfit_chars : sampleImfit = sampleImfitChars := congrArg₂ (· ++ ·) (congrArg₂ (· ++ ·) (congrArg₂ (· ++ ·) (congrArg₂ (· ++ ·) (congrArg₂ (· ++ ·) (congrArg₂ (· ++ ·) (congrArg₂ (· ++ ·) (congrArg₂ (· ++ ·) (congrArg₂ (· ++ ·) (congrArg₂ (· ++ ·) (congrArg₂ (· ++ ·) (congrArg₂ (· ++ ·) (congrArg₂ (· ++ ·) (congrArg₂ (· ++ ·) (congrArg₂ (· ++ ·) (congrArg₂ (· ++ ·) (congrArg₂ (· ++ ·) (congrArg₂ (· ++ ·) (congrArg₂ (· ++ ·) (congrArg₂ (· ++ ·) (congrArg₂ (· ++ ·) ((String.toList_ofList)) String.toList_ofList) String.toList_ofList) String.toList_ofList) String.toList_ofList) String.toList_ofList) String.toList_ofList) String.toList_ofList) String.toList_ofList) String.toList_ofList) String.toList_ofList) String.toList_ofList) String.toList_ofList) String.toList_ofList) String.toList_ofList) String.toList_ofList) String.toList_ofList) String.toList_ofList) String.toList_ofList) String.toList_ofList) String.toList_ofList) String.toList_ofList

/-- The characters of the text. -/
def sampleMakeimageChars : Str :=
  ['#', ' ', 'T', 'h', 'i', 's', ' ', 'i', 's', ' ', 'a', ' ', 's', 'a', 'm', 'p', 'l', 'e', ' ', 'c', 'o', 'n', 'f', 'i', 'g', 'u', 'r', 'a', 't', 'i', 'o', 'n', ' ', 'f', 'i', 'l', 'e', ' ', 'f', 'o', 'r', ' ', 'm', 'a', 'k', 'e', 'i', 'm', 'a', 'g', 'e', '.', '\n'] ++
  ['#', ' ', 'C', 'o', 'm', 'm', 'e', 'n', 't', 's', ' ', 'a', 'r', 'e', ' ', 'i', 'n', 't', 'r', 'o', 'd', 'u', 'c', 'e', 'd', ' ', 'w', 'i', 't', 'h', ' ', 't', 'h', 'e', ' ', '"', '#', '"', ' ', 'c', 'h', 'a', 'r', 'a', 'c', 't', 'e', 'r', ';', ' ', 'a', 'n', 'y', 't', 'h', 'i', 'n', 'g', ' ', 'f', 'o', 'l', 'l', 'o', 'w', 'i', 'n', 'g', ' ', 't', 'h', 'i', 's', ' ', 'c', 'h', 'a', 'r', 'a', 'c', 't', 'e', 'r', '\n'] ++
  ['#', ' ', 'o', 'n', ' ', 't', 'h', 'e', ' ', 's', 'a', 'm', 'e', ' ', 'l', 'i', 'n', 'e', ' ', 'i', 's', ' ', 'i', 'g', 'n', 'o', 'r', 'e', 'd', ' ', 'b', 'y', ' ', 'm', 'a', 'k', 'e', 'i', 'm', 'a', 'g', 'e', '.', ' ', 'B', 'l', 'a', 'n', 'k', ' ', 'l', 'i', 'n', 'e', 's', ' ', 'a', 'r', 'e', ' ', 'a', 'l', 's', 'o', ' ', 'i', 'g', 'n', 'o', 'r', 'e', 'd', '.', '\n'] ++
  ['#', ' ', '(', 'N', 'o', 't', 'e', ' ', 't', 'h', 'a', 't', ' ', 't', 'h', 'i', 's', ' ', 'f', 'i', 'l', 'e', ' ', 'c', 'a', 'n', ' ', 'a', 'l', 's', 'o', ' ', 'b', 'e', ' ', 'u', 's', 'e', 'd', ' ', 'w', 'i', 't', 'h', ' ', 'i', 'm', 'f', 'i', 't', '.', ')', '\n', '\n'] ++
  ['#', ' ', 'I', 'm', 'a', 'g', 'e', '-', 'd', 'e', 's', 'c', 'r', 'i', 'p', 't', 'i', 'o', 'n', ' ', 'p', 'a', 'r', 'a', 'm', 'e', 't', 'e', 'r', 's', ' ', 'f', 'o', 'r', ' ', 'm', 'a', 'k', 'e', 'i', 'm', 'a', 'g', 'e', ' ', '(', 'i', 'm', 'a', 'g', 'e', ' ', 'd', 'i', 'm', 'e', 'n', 's', 'i', 'o', 'n', 's', ')', '\n'] ++
  ['N', 'C', 'O', 'L', 'S', ' ', ' ', ' ', '2', '0', '0', ' ', ' ', ' ', ' ', ' ', ' ', '#', ' ', 'n', 'u', 'm', 'b', 'e', 'r', ' ', 'o', 'f', ' ', 'c', 'o', 'l', 'u', 'm', 'n', 's', ' ', '(', 'w', 'i', 'd', 't', 'h', ')', ' ', 'i', 'n', ' ', 'o', 'u', 't', 'p', 'u', 't', ' ', 'i', 'm', 'a', 'g', 'e', '\n'] ++
  ['N', 'R', 'O', 'W', 'S', ' ', ' ', ' ', '2', '0', '0', ' ', ' ', ' ', ' ', ' ', ' ', '#', ' ', 'n', 'u', 'm', 'b', 'e', 'r', ' ', 'o', 'f', ' ', 'r', 'o', 'w', 's', ' ', '(', 'h', 'e', 'i', 'g', 'h', 't', ')', ' ', 'i', 'n', ' ', 'o', 'u', 't', 'p', 'u', 't', ' ', 'i', 'm', 'a', 'g', 'e', '\n', '\n', '\n'] ++
  ['#', ' ', 'A', ' ', 's', 'i', 'n', 'g', 'l', 'e', ' ', 'f', 'u', 'n', 'c', 't', 'i', 'o', 'n', ' ', 's', 'e', 't', ',', ' ', 'c', 'o', 'n', 't', 'a', 'i', 'n', 'i', 'n', 'g', ' ', 'a', ' ', 's', 'i', 'n', 'g', 'l', 'e', ' ', 'i', 'm', 'a', 'g', 'e', ' ', 'f', 'u', 'n', 'c', 't', 'i', 'o', 'n', '\n'] ++
  ['X', '0', ' ', ' ', ' ', '1', '2', '9', '.', '0', ' ', ' ', ' ', ' ', ' ', ' ', ' ', '#', ' ', 'p', 'i', 'x', 'e', 'l', ' ', 'x', '-', 'c', 'o', 'o', 'r', 'd', 'i', 'n', 'a', 't', 'e', ' ', 'o', 'f', ' ', 'f', 'u', 'n', 'c', 't', 'i', 'o', 'n', ' ', 'c', 'e', 'n', 't', 'e', 'r', '\n'] ++
  ['Y', '0', ' ', ' ', ' ', '1', '2', '9', '.', '0', ' ', ' ', ' ', ' ', ' ', ' ', ' ', '#', ' ', 'p', 'i', 'x', 'e', 'l', ' ', 'y', '-', 'c', 'o', 'o', 'r', 'd', 'i', 'n', 'a', 't', 'e', ' ', 'o', 'f', ' ', 'f', 'u', 'n', 'c', 't', 'i', 'o', 'n', ' ', 'c', 'e', 'n', 't', 'e', 'r', '\n'] ++
  ['F', 'U', 'N', 'C', 'T', 'I', 'O', 'N', ' ', 'S', 'e', 'r', 's', 'i', 'c', '\n'] ++
  ['P', 'A', ' ', ' ', ' ', ' ', '1', '8', '.', '0', ' ', ' ', ' ', ' ', ' ', ' ', ' ', '#', ' ', 'p', 'o', 's', 'i', 't', 'i', 'o', 'n', ' ', 'a', 'n', 'g', 'l', 'e', ' ', 'i', 'n', ' ', 'd', 'e', 'g', 'r', 'e', 'e', 's', ' ', '(', 'C', 'C', 'W', ' ', 'f', 'r', 'o', 'm', ' ', '+', 'y', ' ', 'a', 'x', 'i', 's', ' ', 'o', 'f', ' ', 'i', 'm', 'a', 'g', 'e', ')', '\n'] ++
  ['e', 'l', 'l', ' ', ' ', ' ', ' ', '0', '.', '2', ' ', ' ', ' ', ' ', ' ', ' ', ' ', '#', ' ', 'e', 'l', 'l', 'i', 'p', 't', 'i', 'c', 'i', 't', 'y', ' ', 'o', 'f', ' ', 'i', 's', 'o', 'p', 'h', 'o', 't', 'e', 's', '\n'] ++
  ['n', ' ', ' ', ' ', ' ', ' ', ' ', '1', '.', '5', ' ', ' ', ' ', ' ', ' ', ' ', ' ', '#', ' ', 'S', 'e', 'r', 's', 'i', 'c', ' ', 'i', 'n', 'd', 'e', 'x', '\n'] ++
  ['I', '_', 'e', ' ', ' ', ' ', ' ', '1', '5', ' ', ' ', ' ', ' ', ' ', ' ', ' ', ' ', '#', ' ', 'i', 'n', 't', 'e', 'n', 's', 'i', 't', 'y', ' ', '(', 'A', 'D', 'U', '/', 'p', 'i', 'x', 'e', 'l', ')', ' ', 'a', 't', ' ', 'r', '_', 'e', '\n'] ++
  ['r', '_', 'e', ' ', ' ', ' ', ' ', '2', '5', ' ', ' ', ' ', ' ', ' ', ' ', ' ', ' ', '#', ' ', 'h', 'a', 'l', 'f', '-', 'l', 'i', 'g', 'h', 't', ' ', 'r', 'a', 'd', 'i', 'u', 's', ' ', '(', 'p', 'i', 'x', 'e', 'l', 's', ')', '\n']

/-- The same text, one character after the other; evaluation starts from here. -/
theorem sampleMakeimage_chars : sampleMakeimage = sampleMakeimageChars := congrArg₂ (· ++ ·) (congrArg₂ (· ++ ·) (congrArg₂ (· ++ ·) (congrArg₂ (· ++ ·) (congrArg₂ (· ++ ·) (congrArg₂ (· ++ ·) (congrArg₂ (· ++ ·) (congrArg₂ (· ++ ·) (congrArg₂ (· ++ ·) (congrArg₂ (· ++ ·) (congrArg₂ (· ++ ·) (congrArg₂ (· ++ ·) (congrArg₂ (· ++ ·) (congrArg₂ (· ++ ·) (congrArg₂ (· ++ ·) ((String.toList_ofList)) String.toList_ofList) String.toList_ofList) String.toList_ofList) String.toList_ofList) String.toList_ofList) String.toList_ofList) String.toList_ofList) String.toList_ofList) String.toList_ofList) String.toList_ofList) String.toList_ofList) String.toList_ofList) String.toList_ofList) String.toList_ofList) String.toList_ofList

/-- C125, names: below the line FUNCTION come the names of the parameters of that function, in order. -/
theorem C125_names :
    (standardCatalogue false).params "Sersic".toList = some ((firstWords sampleImfit).drop 3) ∧ (firstWords sampleImfit).take 3 = ["X0".toList, "Y0".toList, "FUNCTION".toList] ∧
    (standardCatalogue false).params "Sersic".toList = some ((firstWords sampleMakeimage).drop 5) ∧
    (firstWords sampleMakeimage).take 5 = ["NCOLS".toList, "NROWS".toList, "X0".toList, "Y0".toList, "FUNCTION".toList] := by
  rw [sampleImfit_chars, sampleMakeimage_chars]
  refine ⟨by decide +kernel, by decide +kernel, by decide +kernel, by decide +kernel⟩

/-- C125, imfit: the file is read, and the fit starts with the values and within the limits that are written. -/
theorem C125_imfit : ∃ (c : Config Int) (st : FitStart Int),
    @readConfig Int toyFP tenthsStrtod true true [] sampleImfit = .ok (some c) ∧ @startFit Int toyFP (standardCatalogue false) c 0 0 = .ok (some st) ∧
    c.options = [] ∧ st.built.fns.map FnBuilt.name = ["Sersic".toList] ∧
    st.built.labels.zip (st.values.zip (st.recs.map fun (r : ParRec Int) => (r.info.lim0 && r.info.lim1, r.info.lo, r.info.hi))) =
      [("X0".toList, 1290, true, 1250, 1350), ("Y0".toList, 1290, true, 1250, 1350), ("PA".toList, 180, true, 0, 900), ("ell".toList, 2, true, 0, 10),
        ("n".toList, 15, true, 0, 50), ("I_e".toList, 150, true, 0, 5000), ("r_e".toList, 250, true, 0, 1000)] ∧
    (∀ q ∈ st.values.zip (st.recs.map fun (r : ParRec Int) => (r.info.lo, r.info.hi)), q.2.1 ≤ q.1 ∧ q.1 ≤ q.2.2) ∧ st.nFree = 7 := by
  rw [sampleImfit_chars]
  have h : (match @readConfig Int toyFP tenthsStrtod true true [] sampleImfitChars with
    | .ok (some c) => (match @startFit Int toyFP (standardCatalogue false) c 0 0 with
      | .ok (some st) => decide (c.options = [] ∧ st.built.fns.map FnBuilt.name = ["Sersic".toList] ∧
    st.built.labels.zip (st.values.zip (st.recs.map fun (r : ParRec Int) => (r.info.lim0 && r.info.lim1, r.info.lo, r.info.hi))) =
      [("X0".toList, 1290, true, 1250, 1350), ("Y0".toList, 1290, true, 1250, 1350), ("PA".toList, 180, true, 0, 900), ("ell".toList, 2, true, 0, 10),
        ("n".toList, 15, true, 0, 50), ("I_e".toList, 150, true, 0, 5000), ("r_e".toList, 250, true, 0, 1000)] ∧
    (∀ q ∈ st.values.zip (st.recs.map fun (r : ParRec Int) => (r.info.lo, r.info.hi)), q.2.1 ≤ q.1 ∧ q.1 ≤ q.2.2) ∧ st.nFree = 7)
      | _ => false)
    | _ => false) = true := by decide +kernel
  split at h
  · rename_i c hc
    split at h
    · rename_i st hst
      exact ⟨c, st, hc, hst, of_decide_eq_true h⟩
    · cases h
  · cases h

/-- C125, makeimage: the file is read; it gives the size of the picture and the values of the model. -/
theorem C125_makeimage : ∃ (c : Config Int) (b : Built) (vals : List Int),
    @readConfig Int toyFP tenthsStrtod true false [] sampleMakeimage = .ok (some c) ∧ makeStart (standardCatalogue false) c = .ok (some (b, vals)) ∧
    c.options = [("NCOLS".toList, "200".toList), ("NROWS".toList, "200".toList)] ∧ b.fns.map FnBuilt.name = ["Sersic".toList] ∧
    b.labels.zip vals = [("X0".toList, 1290), ("Y0".toList, 1290), ("PA".toList, 180), ("ell".toList, 2), ("n".toList, 15), ("I_e".toList, 150), ("r_e".toList, 250)] := by
  rw [sampleMakeimage_chars]
  have h : (match @readConfig Int toyFP tenthsStrtod true false [] sampleMakeimageChars with
    | .ok (some c) => (match makeStart (standardCatalogue false) c with
      | .ok (some (b, vals)) => decide (c.options = [("NCOLS".toList, "200".toList), ("NROWS".toList, "200".toList)] ∧ b.fns.map FnBuilt.name = ["Sersic".toList] ∧
    b.labels.zip vals = [("X0".toList, 1290), ("Y0".toList, 1290), ("PA".toList, 180), ("ell".toList, 2), ("n".toList, 15), ("I_e".toList, 150), ("r_e".toList, 250)])
      | _ => false)
    | _ => false) = true := by decide +kernel
  split at h
  · rename_i c hc
    split at h
    · rename_i b vals hst
      exact ⟨c, b, vals, hc, hst, of_decide_eq_true h⟩
    · cases h
  · cases h

/-- What is read in tenths. -/
example : tenthsStrtod.run "129.0".toList = (1290, 5) ∧ tenthsStrtod.run "15".toList = (150, 2) ∧ tenthsStrtod.run "0.2".toList = (2, 3) := by decide +kernel

end Imfit
