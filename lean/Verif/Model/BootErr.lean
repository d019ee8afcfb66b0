import Verif.Model.Stats
import Verif.Model.Layout

/-!
# Bootstrap error estimation

Source: `core/bootstrap_errors.cpp`. The fit of each resampling is an arbitrary oracle: status and final parameter vector of the `k`-th
iteration (the resampling itself is in `Model/Bootstrap.lean`). Printed text is represented by the numbers printed.
-/

namespace Imfit

variable {α : Type}

/-- `MIN_ITERATIONS_FOR_STATISTICS`, `core/bootstrap_errors.cpp:57`. -/
def MIN_ITERATIONS : Nat := 3

/-- Result of one fit. -/
structure FitOut (α : Type) where
  status : Int
  params : List α

/-- Store one successful result in column `k` of the per-parameter arrays. `core/bootstrap_errors.cpp:222-224`. -/
def storeRow [FP α] (arr : List (List α)) (params offsets : List α) (nParams k : Nat) : Res (List (List α)) :=
  forN nParams arr fun i a => do
    let p ← rd params i
    let o ← rd offsets i
    let row ← rd a i
    let row1 ← wr row k (p + o)
    wr a i row1

/-- One iteration. `core/bootstrap_errors.cpp:196-231`. -/
def bootIter [FP α] (r : FitOut α) (offsets : List α) (nParams : Nat) (st : List (List α) × Nat) : Res (List (List α) × Nat) :=
  if r.status > 0 then do
    let a ← storeRow st.1 r.params offsets nParams st.2
    pure (a, st.2 + 1)
  else .ok st

/-- `BootstrapErrorsBase`, `core/bootstrap_errors.cpp:159-250`: fills the arrays, returns the number of successful fits. (`offsets` is what
`GetImageOffsets` puts into `paramOffsets`.) -/
def bootstrapBase [FP α] (fit : Nat → FitOut α) (offsets : List α) (nParams nIter : Nat) : Res (List (List α) × Nat) :=
  forN nIter (List.replicate nParams (List.replicate nIter 0), 0) fun k st => bootIter (fit k) offsets nParams st

/-- One line of the summary. -/
inductive SumLine (α : Type) where
  | fixed (best : α)
  | free (best plus minus lower upper halfwidth mean sigma : α)

/-- One turn of the printing loop. `core/bootstrap_errors.cpp:355-370`. -/
def summaryLine [FP α] (best : α) (vals : List α) (isFixed : Bool) (sigma : α) (n : Nat) : Res (SumLine α) :=
  if isFixed then .ok (.fixed best)
  else do
    let c ← confInterval vals n
    let m ← meanOf c.1 n
    pure (.free best (c.2.2 - best) (best - c.2.1) c.2.1 c.2.2 ((c.2.2 - c.2.1) / lit 2) m sigma)

/-- `PrintBootstrapSummary`, `core/bootstrap_errors.cpp:339-373`. -/
def bootSummary [FP α] (best : List α) (arr : List (List α)) (fixed : List Bool) (nParams n : Nat) : Res (List (SumLine α)) := do
  let sig ← loopMap nParams fun i => do
    let v ← rd arr i
    stdDev v n
  loopMap nParams fun i => do
    let b ← rd best i
    let v ← rd arr i
    let f ← rd fixed i
    let s ← rd sig i
    summaryLine b v f s n

/-- `BootstrapErrors`, `core/bootstrap_errors.cpp:86-149`: the summary (if enough fits succeeded) and the number of successful fits. The summary is
given the number of iterations *requested*, as in the source (lines 137-138). -/
def bootstrapErrors [FP α] (fit : Nat → FitOut α) (best offsets : List α) (fixed : List Bool) (nParams nIter : Nat) :
    Res (Option (List (SumLine α)) × Nat) := do
  let r ← bootstrapBase fit offsets nParams nIter
  if r.2 < MIN_ITERATIONS then pure (none, r.2)
  else do
    let s ← bootSummary best r.1 fixed nParams nIter
    pure (some s, r.2)

/-- The 1-D result array of `BootstrapErrorsArrayOnly`. `core/bootstrap_errors.cpp:312-317`. -/
def storeFlat [FP α] (arr : List α) (params offsets : List α) (nParams k : Nat) : Res (List α) :=
  forN nParams arr fun j a => do
    let p ← rd params j
    let o ← rd offsets j
    wr a (k * nParams + j) (p + o)

/-- One iteration of `BootstrapErrorsArrayOnly`. -/
def flatIter [FP α] (r : FitOut α) (offsets : List α) (nParams : Nat) (st : List α × Nat) : Res (List α × Nat) :=
  if r.status > 0 then do
    let a ← storeFlat st.1 r.params offsets nParams st.2
    pure (a, st.2 + 1)
  else .ok st

/-- `BootstrapErrorsArrayOnly`, `core/bootstrap_errors.cpp:259-336`, into the caller's array. -/
def bootstrapFlat [FP α] (fit : Nat → FitOut α) (offsets : List α) (nParams nIter : Nat) (out : List α) : Res (List α × Nat) :=
  forN nIter (out, 0) fun k st => flatIter (fit k) offsets nParams st

/-! ## The multi-image summary -/

/-- What a line is labelled with: an entry of `imageParamLabels`, or the name of a parameter. -/
inductive LineLabel where
  | image (label : String)
  | param (i : Int)
  deriving DecidableEq, Repr

/-- `imageParamLabels`. `core/bootstrap_errors.cpp:60-61`. -/
def imageParamLabels : List String := ["PIXEL_SCALE", "ROTATION", "FLUX_SCALE", "X0", "Y0"]

/-- One line about parameter `i` (the index is a C `int`). The array sorted in place by `ConfidenceInterval` is not threaded through: only one entry
is ever visited twice, and a second sort changes nothing. -/
def multiLine [FP α] (best : List α) (arr : List (List α)) (fixed : List Bool) (sig : List α) (n : Nat) (i : Int) (lab : LineLabel) :
    Res (LineLabel × SumLine α) := do
  let f ← rdI fixed i
  let b ← rdI best i
  let v ← rdI arr i
  let s ← rdI sig i
  let l ← summaryLine b v f s n
  pure (lab, l)

/-- Lines of the image-description parameters. `core/bootstrap_errors.cpp:394-414`: label and parameter are looked up with the same running index. -/
def multiImageLines [FP α] (best : List α) (arr : List (List α)) (fixed : List Bool) (sig : List α) (nImages n : Nat) :
    Res (List (LineLabel × SumLine α)) :=
  loopMap (5 * (nImages - 1)) fun i => do
    let lab ← rd imageParamLabels i
    multiLine best arr fixed sig n i (.image lab)

/-- First index of the model-parameter loop: `i = i_last`, the *last* index used before. `core/bootstrap_errors.cpp:417-419`. -/
def multiModelStart (nImages : Nat) : Int := 5 * ((nImages - 1 : Nat) : Int) - 1

/-- `PrintBootstrapSummaryMultimfit`, `core/bootstrap_errors.cpp:375-434`. -/
def multiSummary [FP α] (best : List α) (arr : List (List α)) (fixed : List Bool) (nImages nParams n : Nat) :
    Res (List (LineLabel × SumLine α)) := do
  let sig ← loopMap nParams fun i => do
    let v ← rd arr i
    stdDev v n
  let a ← multiImageLines best arr fixed sig nImages n
  let b ← loopMap ((nParams : Int) - multiModelStart nImages).toNat fun k =>
    multiLine best arr fixed sig n (multiModelStart nImages + k) (.param (multiModelStart nImages + k))
  pure (a ++ b)

end Imfit
