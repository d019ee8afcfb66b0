import Verif.Model.XR
import Verif.Model.Loop

/-!
# `ModelObject`: data, mask, weights and fit statistics

Source: `core/model_object.cpp`, `core/setup_model_object.cpp`, `core/mp_enorm.cpp`.

Pointers are `Option (List α)`; `none` is the null pointer. A caller-supplied pixel pointer is a list that must
have (at least) the advertised number of entries; shorter lists fault with `oob` when read.
`nValid = none` is the uninitialised value left by the constructor (`model_object.cpp:112-179` does not set
`nValidDataVals`). Memory allocation is assumed to succeed. Console output is dropped.
-/

namespace Imfit

variable {α : Type}

/-- `core/definitions.h`: `MASK_ZERO_IS_GOOD`. -/
def MASK_ZERO_IS_GOOD : Int := 10
/-- `core/definitions.h`: `MASK_ZERO_IS_BAD`. -/
def MASK_ZERO_IS_BAD : Int := 20
/-- `core/definitions.h`: `WEIGHTS_ARE_SIGMAS`. -/
def WEIGHTS_ARE_SIGMAS : Int := 100
/-- `core/definitions.h`: `WEIGHTS_ARE_VARIANCES`. -/
def WEIGHTS_ARE_VARIANCES : Int := 110
/-- `core/definitions.h`: `WEIGHTS_ARE_WEIGHTS`. -/
def WEIGHTS_ARE_WEIGHTS : Int := 120

/-- The data members of `ModelObject` that take part in fit setup and fit statistics
(`core/model_object.h:276-347`). -/
structure MO (α : Type) where
  nDataCols : Nat
  nDataRows : Nat
  nDataVals : Nat
  nValid : Option Int
  nModelCols : Nat
  nModelRows : Nat
  nModelVals : Nat
  nPSFCols : Nat
  nPSFRows : Nat
  doConvolution : Bool
  dataVec : Option (List α)
  weightVec : Option (List α)
  maskVec : Option (List α)
  extraVec : Option (List α)
  modelVec : Option (List α)
  bootIdx : Option (List Nat)
  dataValsSet : Bool
  weightValsSet : Bool
  weightAllocated : Bool
  maskExists : Bool
  modelImageComputed : Bool
  modelErrors : Bool
  dataErrors : Bool
  externalError : Bool
  useCash : Bool
  poissonMLR : Bool
  doBootstrap : Bool
  effGain : α
  nCombined : α
  readNoiseAduSq : α
  sky : α

/-- Dereference a pointer. -/
def deref {β : Type} : Option (List β) → Res (List β)
  | some l => .ok l
  | none => .error .null

/-- Read element `z` through a pointer. -/
def rdp {β : Type} (p : Option (List β)) (z : Nat) : Res β := do
  let l ← deref p
  rd l z

/-- Default state. `ModelObject::ModelObject`, `core/model_object.cpp:112-179`. -/
def moInit [FP α] : MO α where
  nDataCols := 0
  nDataRows := 0
  nDataVals := 0
  nValid := none
  nModelCols := 0
  nModelRows := 0
  nModelVals := 0
  nPSFCols := 0
  nPSFRows := 0
  doConvolution := false
  dataVec := none
  weightVec := none
  maskVec := none
  extraVec := none
  modelVec := none
  bootIdx := none
  dataValsSet := false
  weightValsSet := false
  weightAllocated := false
  maskExists := false
  modelImageComputed := false
  modelErrors := false
  dataErrors := true
  externalError := false
  useCash := false
  poissonMLR := false
  doBootstrap := false
  effGain := 1
  nCombined := 1
  readNoiseAduSq := 0
  sky := 0

/-- The part of `AddPSFVector` that concerns image geometry. `core/model_object.cpp:827-876`
(the PSF pixels and the `Convolver` are modelled in `Model/Convolve.lean`). -/
def addPSFDims (s : MO α) (nColsPsf nRowsPsf : Nat) : MO α :=
  { s with nPSFCols := nColsPsf, nPSFRows := nRowsPsf, doConvolution := true }

/-- `ModelObject::SetupModelImage`, `core/model_object.cpp:488-527`. The assertion on the
dimensions is a fault; allocation gives a zero-filled model image. -/
def setupModelImage [FP α] (s : MO α) (nCols nRows : Nat) : Res (MO α) :=
  if nCols < 1 ∨ nRows < 1 then .error .assert
  else
    let s1 := { s with nDataCols := nCols, nDataRows := nRows, nDataVals := nCols * nRows }
    let s2 :=
      if s1.doConvolution then
        { s1 with
          nModelCols := nCols + 2 * s1.nPSFCols
          nModelRows := nRows + 2 * s1.nPSFRows
          nModelVals := (nCols + 2 * s1.nPSFCols) * (nRows + 2 * s1.nPSFRows) }
      else
        { s1 with nModelCols := nCols, nModelRows := nRows, nModelVals := s1.nDataVals }
    .ok { s2 with modelVec := some (List.replicate s2.nModelVals 0) }

/-- `ModelObject::AddImageDataVector`, `core/model_object.cpp:462-477`. -/
def addImageData [FP α] (s : MO α) (pix : List α) (nCols nRows : Nat) : Res (MO α) :=
  setupModelImage
    { s with nDataVals := nCols * nRows, nValid := some ((nCols * nRows : Nat) : Int),
             dataVec := some pix, dataValsSet := true } nCols nRows

/-- `ModelObject::AddImageCharacteristics`, `core/model_object.cpp:532-547`. -/
def addImageChars [FP α] (s : MO α) (gain readNoise expTime : α) (nComb : Nat) (sky : α) :
    Res (MO α) :=
  if flt 0 gain && fle 0 readNoise && flt 0 expTime && decide (1 ≤ nComb) && fle 0 sky then
    let eg := gain * expTime * lit (nComb : ℚ)
    .ok { s with effGain := eg, nCombined := lit (nComb : ℚ), sky := sky,
                 readNoiseAduSq := readNoise * readNoise / (eg * eg) }
  else .error .assert

/-- A mask value that marks a bad pixel when zero is good. `core/model_object.cpp:747`. -/
def badZeroIsGood [FP α] (m : α) : Bool := !(isfin m) || flt 0 m

/-- A mask value that marks a bad pixel when zero is bad. `core/model_object.cpp:766`. -/
def badZeroIsBad [FP α] (m : α) : Bool := !(isfin m) || flt m 1

/-- The conversion loop of `AddMaskVector` (`core/model_object.cpp:745-756`, `764-775`): each pixel
becomes 0 (bad) or 1 (good), and good pixels are counted. In place, one pixel per turn. -/
def maskLoop [FP α] (n : Nat) (pix : List α) (bad : α → Bool) : Res (List α × Int) :=
  loopAcc n (0 : Int) fun z cnt => do
    let m ← rd pix z
    if bad m then pure ((0 : α), cnt) else pure ((1 : α), cnt + 1)

/-- `ModelObject::AddMaskVector`, `core/model_object.cpp:721-787`. Returns the new state and the status. -/
def addMask [FP α] (s : MO α) (pix : List α) (nVals nCols nRows : Nat) (code : Int) :
    Res (MO α × Int) :=
  if ¬ (nVals = s.nDataVals ∧ nCols = s.nDataCols ∧ nRows = s.nDataRows) then .error .assert
  else if code = MASK_ZERO_IS_GOOD then do
    let r ← maskLoop s.nDataVals pix badZeroIsGood
    pure ({ s with maskVec := some r.1, nValid := some r.2, maskExists := true }, 0)
  else if code = MASK_ZERO_IS_BAD then do
    let r ← maskLoop s.nDataVals pix badZeroIsBad
    pure ({ s with maskVec := some r.1, nValid := some r.2, maskExists := true }, 0)
  else
    pure ({ s with maskVec := some pix, nValid := some 0, maskExists := false }, -1)

/-- `ModelObject::AddErrorVector`, `core/model_object.cpp:573-619`. The method returns `void`:
an unknown type code only clears `weightValsSet`. -/
def addError [FP α] (s : MO α) (pix : List α) (nVals nCols nRows : Nat) (code : Int) :
    Res (MO α) :=
  if ¬ (nVals = s.nDataVals ∧ nCols = s.nDataCols ∧ nRows = s.nDataRows) then .error .assert
  else
    let s1 := { s with weightAllocated := false, weightVec := some pix,
                       weightValsSet := true, externalError := true }
    if code = WEIGHTS_ARE_SIGMAS then do
      let w ← loopMap s.nDataVals fun z => do let v ← rd pix z; pure (1 / v)
      pure { s1 with weightVec := some w }
    else if code = WEIGHTS_ARE_VARIANCES then do
      let w ← loopMap s.nDataVals fun z => do let v ← rd pix z; pure (1 / fsqrt v)
      pure { s1 with weightVec := some w }
    else if code = WEIGHTS_ARE_WEIGHTS then do
      let w ← loopMap s.nDataVals fun z => do let v ← rd pix z; pure (fsqrt v)
      pure { s1 with weightVec := some w }
    else
      pure { s1 with weightValsSet := false }

/-- The weight vector set to all ones (allocated first if needed).
`core/model_object.cpp:1518-1536` and `1553-1578`. -/
def onesWeights [FP α] (s : MO α) : MO α :=
  { s with weightAllocated := true, weightVec := some (List.replicate s.nDataVals 1),
           weightValsSet := true }

/-- `ModelObject::UseModelErrors`, `core/model_object.cpp:1501-1537`. -/
def useModelErrors [FP α] (s : MO α) : MO α :=
  onesWeights { s with modelErrors := true, dataErrors := false }

/-- `ModelObject::UseCashStatistic`, `core/model_object.cpp:1541-1579`. The extra-terms vector is zero-filled
when first allocated and left alone otherwise. -/
def useCashStatistic [FP α] (s : MO α) : MO α :=
  onesWeights
    { s with useCash := true,
             extraVec := match s.extraVec with
               | some l => some l
               | none => some (List.replicate s.nDataVals 0) }

/-- `ModelObject::UsePoissonMLR`, `core/model_object.cpp:1583-1587`. -/
def usePoissonMLR [FP α] (s : MO α) : MO α :=
  useCashStatistic { s with poissonMLR := true }

/-- The data-based weight of one pixel: `1/sqrt(noise^2)`. `core/model_object.cpp:660-668`. -/
def dataWeight [FP α] (effGain nComb rnSq sky d : α) : α :=
  let flux0 := d + sky
  let flux := if flt flux0 0 then 0 else flux0
  1 / fsqrt (flux / effGain + nComb * rnSq)

/-- `ModelObject::GenerateErrorVector`, `core/model_object.cpp:642-673`. -/
def generateErrors [FP α] (s : MO α) : Res (MO α) := do
  let w ← loopMap s.nDataVals fun z => do
    let d ← rdp s.dataVec z
    pure (dataWeight s.effGain s.nCombined s.readNoiseAduSq s.sky d)
  pure { s with weightVec := some w, weightAllocated := true, weightValsSet := true }

/-- One extra term of the Poisson-MLR statistic. `core/model_object.cpp:700-706`. -/
def extraCashTerm [FP α] (effGain sky d : α) : α :=
  let dv := effGain * (d + sky)
  if fle dv 0 then 0 else dv * flog dv - dv

/-- `ModelObject::GenerateExtraCashTerms`, `core/model_object.cpp:695-709`. -/
def generateExtraTerms [FP α] (s : MO α) : Res (MO α) := do
  let _ ← deref s.extraVec
  let e ← loopMap s.nDataVals fun z => do
    let d ← rdp s.dataVec z
    pure (extraCashTerm s.effGain s.sky d)
  pure { s with extraVec := some e }

/-- Decrement the count of valid pixels (indeterminate stays indeterminate). -/
def decValid : Option Int → Option Int
  | some n => some (n - 1)
  | none => none

/-- Default mask. `core/model_object.cpp:976-990`. -/
def finalDefaultMask [FP α] (s : MO α) : MO α :=
  if s.maskExists then s
  else { s with maskVec := some (List.replicate s.nDataVals 1), maskExists := true }

/-- Mask unmasked pixels with non-finite data. `core/model_object.cpp:994-1000`. -/
def finalMaskBadData [FP α] (s : MO α) : Res (MO α) := do
  let r ← loopAcc s.nDataVals s.nValid fun z nv => do
    let m ← rdp s.maskVec z
    let d ← rdp s.dataVec z
    if flt 0 m && !(isfin d) then pure ((0 : α), decValid nv) else pure (m, nv)
  pure { s with maskVec := some r.1, nValid := r.2 }

/-- Generate data-based weights when needed. `core/model_object.cpp:1010-1014`. -/
def finalGenErrors [FP α] (s : MO α) : Res (MO α) :=
  if !s.useCash && s.dataErrors && !s.externalError then generateErrors s else pure s

/-- Generate the extra Poisson-MLR terms when needed. `core/model_object.cpp:1017-1018`. -/
def finalGenExtra [FP α] (s : MO α) : Res (MO α) :=
  if s.useCash && s.poissonMLR then generateExtraTerms s else pure s

/-- Mask unmasked pixels whose user-supplied weight is not finite, and zero that weight.
`core/model_object.cpp:1028-1037`. -/
def finalMaskBadWeights [FP α] (s : MO α) : Res (MO α) :=
  if s.externalError then do
    let r ← loopAcc s.nDataVals s.nValid fun z nv => do
      let m ← rdp s.maskVec z
      let w ← rdp s.weightVec z
      if flt 0 m && !(isfin w) then pure (((0 : α), (0 : α)), decValid nv)
      else pure ((m, w), nv)
    pure { s with maskVec := some (r.1.map Prod.fst), weightVec := some (r.1.map Prod.snd),
                  nValid := r.2 }
  else pure s

/-- Masked weight of one pixel. `core/model_object.cpp:800-805`; the test `maskVector[z] == 0.0` is written
with the two comparisons (equal for every double). -/
def maskedWeight [FP α] (m w : α) : α :=
  let v := m * w
  if !(isfin v) && (fle m 0 && fle 0 m) then 0 else v

/-- `ModelObject::ApplyMask`, `core/model_object.cpp:794-816`. -/
def applyMask [FP α] (s : MO α) : Res (MO α) :=
  if s.weightValsSet && s.maskExists then do
    let w ← loopMap s.nDataVals fun z => do
      let m ← rdp s.maskVec z
      let w ← rdp s.weightVec z
      pure (maskedWeight m w)
    pure { s with weightVec := some w }
  else pure s

/-- `ModelObject::CheckWeightVector`, `core/model_object.cpp:2525-2566`: true iff no unmasked weight is
non-finite or negative (no sign check when there is no mask). -/
def checkWeights [FP α] (s : MO α) : Res Bool :=
  forN s.nDataVals true fun z ok => do
    if s.maskExists then
      let m ← rdp s.maskVec z
      if flt 0 m then
        let w ← rdp s.weightVec z
        pure (if !(isfin w) then false else if flt w 0 then false else ok)
      else pure ok
    else
      let w ← rdp s.weightVec z
      pure (if !(isfin w) then false else ok)

/-- `ModelObject::VetDataVector`, `core/model_object.cpp:2501-2520`: non-finite masked data are set to 0;
the result is false if an unmasked value is not finite. -/
def vetData [FP α] (s : MO α) : Res (MO α × Bool) := do
  let r ← loopAcc s.nDataVals true fun z ok => do
    let d ← rdp s.dataVec z
    if !(isfin d) then
      let m ← rdp s.maskVec z
      if flt 0 m then pure (d, false) else pure ((0 : α), ok)
    else pure (d, ok)
  pure ({ s with dataVec := some r.1 }, r.2)

/-- `nValidDataVals < 1`; an indeterminate count is treated as not triggering the test. -/
def tooFewValid : Option Int → Bool
  | some n => decide (n < 1)
  | none => false

/-- `ModelObject::FinalSetupForFitting`, `core/model_object.cpp:967-1079`. Returns the new state and the
status (0 success, -1 bad weights, -2 bad data, -3 no valid pixel; the last problem found wins). -/
def finalSetup [FP α] (s : MO α) : Res (MO α × Int) := do
  let s := finalDefaultMask s
  let s ← finalMaskBadData s
  let s ← finalGenErrors s
  let s ← finalGenExtra s
  let s ← finalMaskBadWeights s
  let s ← applyMask s
  let wok ← checkWeights s
  let st1 : Int := if wok then 0 else -1
  let p ← if s.dataValsSet then vetData s else pure (s, true)
  let s := p.1
  let st2 : Int := if p.2 then st1 else -2
  let st3 : Int := if tooFewValid s.nValid then -3 else st2
  pure (s, st3)

/-- Index of the model pixel compared with data pixel `z`. `core/model_object.cpp:1439-1441` and the
identical lines elsewhere; without convolution the index is `z` itself. -/
def modelIndex (s : MO α) (z : Nat) : Nat :=
  if s.doConvolution then
    let iRow := z / s.nDataCols
    let iCol := z - iRow * s.nDataCols
    s.nModelCols * (s.nPSFRows + iRow) + s.nPSFCols + iCol
  else z

/-- Weight from the model flux of one pixel. `core/model_object.cpp:1360-1363`. -/
def modelWeight [FP α] (effGain nComb rnSq sky m : α) : α :=
  1 / fsqrt ((m + sky) / effGain + nComb * rnSq)

/-- `ModelObject::UpdateWeightVector`, `core/model_object.cpp:1345-1381`. -/
def updateWeights [FP α] (s : MO α) : Res (MO α) := do
  let w ← loopMap s.nDataVals fun z => do
    let upd ← (if s.maskExists then do
      let m ← rdp s.maskVec z
      pure (flt 0 m) else pure true : Res Bool)
    if upd then
      let f ← rdp s.modelVec (modelIndex s z)
      pure (modelWeight s.effGain s.nCombined s.readNoiseAduSq s.sky f)
    else rdp s.weightVec z
  pure { s with weightVec := some w }

/-- Weight update when model-based errors are used. `core/model_object.cpp:1426-1427`, `1645-1646`. -/
def maybeUpdateWeights [FP α] (s : MO α) : Res (MO α) :=
  if s.modelErrors then updateWeights s else .ok s

/-- Logarithm of the model value, replaced by `LOG_SMALL_VALUE` when the value is not positive.
`core/model_object.cpp:1392-1395`. -/
def logModel [FP α] (mv : α) : α := if fle mv 0 then lit (1 / 10 ^ 25) else flog mv

/-- `modVal - dataVal*logModel + extraTerms` for one pixel. `core/model_object.cpp:1390-1399`, `1734-1741`. -/
def cashTerm [FP α] (effGain sky d m e : α) : α :=
  let mv := effGain * (m + sky)
  let dv := effGain * (d + sky)
  mv - dv * logModel mv + e

/-- `ModelObject::ComputePoissonMLRDeviate`, `core/model_object.cpp:1386-1401`. -/
def mlrDeviate [FP α] (s : MO α) (i iModel : Nat) : Res α := do
  let m ← rdp s.modelVec iModel
  let d ← rdp s.dataVec i
  let e ← rdp s.extraVec i
  let w ← rdp s.weightVec i
  pure (fsqrt (lit 2 * w * fabs (cashTerm s.effGain s.sky d m e)))

/-- `weight * (data - model)` for data pixel `i`. `core/model_object.cpp:1443` etc. -/
def chiDeviate [FP α] (s : MO α) (i iModel : Nat) : Res α := do
  let w ← rdp s.weightVec i
  let d ← rdp s.dataVec i
  let m ← rdp s.modelVec iModel
  pure (w * (d - m))

/-- The number of terms in a statistic: `nDataVals`, or `nValidDataVals` in bootstrap mode. -/
def nTerms (s : MO α) : Nat :=
  if s.doBootstrap then (match s.nValid with | some n => n.toNat | none => 0) else s.nDataVals

/-- The data pixel used for term `z`: `z`, or `bootstrapIndices[z]` in bootstrap mode. -/
def termPixel (s : MO α) (z : Nat) : Res Nat :=
  if s.doBootstrap then rdp s.bootIdx z else pure z

/-- `ModelObject::ComputeDeviates`, `core/model_object.cpp:1413-1496`, after the model image has been
computed (`modelVec`). -/
def computeDeviates [FP α] (s0 : MO α) : Res (MO α × List α) := do
  let s ← maybeUpdateWeights s0
  let y ← loopMap (nTerms s) fun z => do
    let b ← termPixel s z
    if s.poissonMLR then mlrDeviate s b (modelIndex s b) else chiDeviate s b (modelIndex s b)
  pure (s, y)

/-- State of the accumulation in `mp_enorm`. -/
structure EnormState (α : Type) where
  s1 : α
  s2 : α
  s3 : α
  x1max : α
  x3max : α

/-- `RDWARF`, `core/mp_enorm.cpp:50`. -/
def RDWARF : ℚ := 3834 / 10 ^ 23
/-- `RGIANT`, `core/mp_enorm.cpp:51`. -/
def RGIANT : ℚ := 1304 * 10 ^ 16

/-- `a != b` for doubles. -/
def fne [FP α] (a b : α) : Bool := !(fle a b && fle b a)

/-- One turn of the loop in `mp_enorm`, `core/mp_enorm.cpp:68-101`. -/
def enormStep [FP α] (agiant : α) (st : EnormState α) (x : α) : EnormState α :=
  let xabs := fabs x
  if flt (lit RDWARF) xabs && flt xabs agiant then { st with s2 := st.s2 + xabs * xabs }
  else if flt (lit RDWARF) xabs then
    if flt st.x1max xabs then
      let t := st.x1max / xabs
      { st with s1 := 1 + st.s1 * t * t, x1max := xabs }
    else
      let t := xabs / st.x1max
      { st with s1 := st.s1 + t * t }
  else if flt st.x3max xabs then
    let t := st.x3max / xabs
    { st with s3 := 1 + st.s3 * t * t, x3max := xabs }
  else if fne xabs 0 then
    let t := xabs / st.x3max
    { st with s3 := st.s3 + t * t }
  else st

/-- Final part of `mp_enorm`, `core/mp_enorm.cpp:103-121`. -/
def enormFinish [FP α] (st : EnormState α) : α :=
  if fne st.s1 0 then st.x1max * fsqrt (st.s1 + (st.s2 / st.x1max) / st.x1max)
  else if fne st.s2 0 then
    if fle st.x3max st.s2 then
      fsqrt (st.s2 * (1 + (st.x3max / st.s2) * (st.x3max * st.s3)))
    else fsqrt (st.x3max * ((st.s2 / st.x3max) + (st.x3max * st.s3)))
  else st.x3max * fsqrt st.s3

/-- `mp_enorm`, `core/mp_enorm.cpp:54-122` (the `int` argument `n` is the list length). -/
def mpEnorm [FP α] (x : List α) : α :=
  let agiant := lit RGIANT / lit (x.length : ℚ)
  enormFinish (x.foldl (enormStep agiant) ⟨0, 0, 0, 0, 0⟩)

/-- `ModelObject::ChiSquared`, `core/model_object.cpp:1633-1689`, after the model image has been computed. -/
def chiSquared [FP α] (s0 : MO α) : Res (MO α × α) := do
  let s ← maybeUpdateWeights s0
  let y ← loopMap (nTerms s) fun z => do
    let b ← termPixel s z
    chiDeviate s b (modelIndex s b)
  let chi := mpEnorm y
  pure (s, chi * chi)

/-- `ModelObject::CashStatistic`, `core/model_object.cpp:1703-1775`, after the model image has been computed. -/
def cashStatistic [FP α] (s : MO α) : Res α := do
  let t ← forN (nTerms s) (0 : α) fun z acc => do
    let b ← termPixel s z
    let m ← rdp s.modelVec (modelIndex s b)
    let d ← rdp s.dataVec b
    let e ← rdp s.extraVec b
    let w ← rdp s.weightVec b
    pure (acc + w * cashTerm s.effGain s.sky d m e)
  pure (lit 2 * t)

/-- `ModelObject::GetFitStatistic`, `core/model_object.cpp:1620-1626`. -/
def getFitStatistic [FP α] (s : MO α) : Res (MO α × α) :=
  if s.useCash then do let v ← cashStatistic s; pure (s, v) else chiSquared s

/-- Codes returned by `WhichFitStatistic`, `core/definitions.h`. -/
def FITSTAT_CHISQUARE : Int := 1
/-- see `FITSTAT_CHISQUARE` -/
def FITSTAT_CASH : Int := 2
/-- see `FITSTAT_CHISQUARE` -/
def FITSTAT_POISSON_MLR : Int := 3
/-- see `FITSTAT_CHISQUARE` -/
def FITSTAT_CHISQUARE_DATA : Int := 10
/-- see `FITSTAT_CHISQUARE` -/
def FITSTAT_CHISQUARE_MODEL : Int := 11
/-- see `FITSTAT_CHISQUARE` -/
def FITSTAT_CHISQUARE_USER : Int := 12

/-- `ModelObject::WhichFitStatistic`, `core/model_object.cpp:1592-1613`. -/
def whichFitStatistic (s : MO α) (verbose : Bool) : Int :=
  if s.useCash then (if s.poissonMLR then FITSTAT_POISSON_MLR else FITSTAT_CASH)
  else if verbose then
    (if s.modelErrors then FITSTAT_CHISQUARE_MODEL
     else if s.externalError then FITSTAT_CHISQUARE_USER
     else FITSTAT_CHISQUARE_DATA)
  else FITSTAT_CHISQUARE

/-- Options that decide the fit statistic (`core/setup_model_object.cpp:126-157`). -/
inductive StatChoice where
  | cash
  | poissonMLR
  | chi2User (code : Int)
  | chi2Model
  | chi2Data
  deriving DecidableEq

/-- Input to `SetupModelObject` in fitting mode. -/
structure FitInput (α : Type) where
  nCols : Nat
  nRows : Nat
  data : List α
  /-- PSF dimensions (columns, rows), if a PSF image is used -/
  psf : Option (Nat × Nat)
  /-- mask image and mask-format code -/
  mask : Option (List α × Int)
  /-- error image (used with `chi2User`) -/
  errors : List α
  stat : StatChoice
  gain : α
  readNoise : α
  expTime : α
  nCombined : Nat
  sky : α

/-- First part of `SetupModelObject`: PSF, data image, image characteristics.
`core/setup_model_object.cpp:56-95`. -/
def setupBase [FP α] (i : FitInput α) : Res (MO α) := do
  let s0 : MO α := match i.psf with
    | some (c, r) => addPSFDims moInit c r
    | none => moInit
  let s1 ← addImageData s0 i.data i.nCols i.nRows
  addImageChars s1 i.gain i.readNoise i.expTime i.nCombined i.sky

/-- Mask step of `SetupModelObject`; a bad mask code ends the program (`exit`).
`core/setup_model_object.cpp:109-117`. -/
def setupMask [FP α] (i : FitInput α) (s : MO α) : Res (MO α) :=
  match i.mask with
  | some (pix, code) => do
      let r ← addMask s pix (i.nCols * i.nRows) i.nCols i.nRows code
      if r.2 < 0 then .error .exit else .ok r.1
  | none => .ok s

/-- Choice of fit statistic in `SetupModelObject`. `core/setup_model_object.cpp:120-157`. -/
def setupStat [FP α] (i : FitInput α) (s : MO α) : Res (MO α) :=
  match i.stat with
  | .cash => .ok (useCashStatistic s)
  | .poissonMLR => .ok (usePoissonMLR s)
  | .chi2User code => addError s i.errors (i.nCols * i.nRows) i.nCols i.nRows code
  | .chi2Model => .ok (useModelErrors s)
  | .chi2Data => .ok s

/-- `SetupModelObject` in fitting mode, `core/setup_model_object.cpp:36-160`, without the oversampled-PSF step. -/
def setupFit [FP α] (i : FitInput α) : Res (MO α) := do
  let s ← setupBase i
  let s ← setupMask i s
  setupStat i s

/-- Setup as done by the `imfit` program: `SetupModelObject`, then `FinalSetupForFitting`.
`core/imfit_main.cpp:248-284`. -/
def runSetup [FP α] (i : FitInput α) : Res (MO α × Int) := do
  let s ← setupFit i
  finalSetup s

/-- The state after `CreateModelImage` has produced the (padded) model image `img`; the computation of the image
itself is modelled in `Model/Image.lean`. -/
def withModel (s : MO α) (img : List α) : MO α := { s with modelVec := some img, modelImageComputed := true }

end Imfit
