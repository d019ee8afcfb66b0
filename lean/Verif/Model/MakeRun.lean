import Verif.Model.Driver

/-!
# What makeimage does with a configuration file

Source: `core/makeimage_main.cpp:153-165, 240-268`, between reading the file and `CreateModelImage`. Messages are not modelled. The size of the image and the options are in `Model/Makeimage.lean`.
-/

namespace Imfit

variable {α : Type}

/-- The model object with its functions, and `paramsVect`. `none`: the program ends with an error. There is no image section: nothing is subtracted from the centres.
`core/makeimage_main.cpp:240-268`. -/
def makeStart (cat : Catalogue) (c : Config α) : Res (Option (Built × List α)) := do
  match ← addFunctions cat cat.accepts 0 [] c.names c.labels c.starts c.opts [] with
  | none => .ok none
  | some b =>
    if b.total ≠ c.vals.length then .ok none
    else do
      let vals ← loopMap b.total fun i => rd c.vals i
      .ok (some (b, vals))

/-- From the text of the configuration file: `ReadConfigFile` without limits, then the model object. `core/makeimage_main.cpp:153-165, 240-268`. -/
def makeFromFile [FP α] (nl : Strtod α) (cat : Catalogue) (file : Str) : Res (Option (Built × List α)) := do
  match ← readConfig nl true false [] file with
  | none => .ok none
  | some c => makeStart cat c

end Imfit
