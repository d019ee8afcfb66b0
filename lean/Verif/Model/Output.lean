import Verif.Model.Image

/-!
# Output images of `ModelObject`

Source: `core/model_object.cpp:2257-2393`. The methods return pointers to buffers owned by the object; the buffers
`outputModelVector` and `residualVector` are allocated once and overwritten by later calls, a weight image is a fresh allocation
at each call. A returned pointer is a `Buf`; `Out.read` is what the caller sees through it.
-/

namespace Imfit

variable {α : Type}

/-- The object with its output buffers. -/
structure Out (α : Type) where
  mo : MO α
  outModel : Option (List α)
  resid : Option (List α)
  weights : List (List α)

/-- Pointers handed out. -/
inductive Buf where
  | model
  | outModel
  | resid
  | weight (k : Nat)
  | data
  deriving DecidableEq

/-- Memory seen through a pointer. -/
def Out.read (o : Out α) : Buf → Option (List α)
  | .model => o.mo.modelVec
  | .outModel => o.outModel
  | .resid => o.resid
  | .weight k => o.weights[k]?
  | .data => o.mo.dataVec

/-- Buffer allocated on first use (zero-filled). -/
def allocOnce [FP α] (n : Nat) : Option (List α) → List α
  | some l => l
  | none => List.replicate n 0

/-- `for (z = 0; z < n; z++) buf[z] = f(z);` into an existing buffer. -/
def overwrite (n : Nat) (buf : List α) (f : Nat → Res α) : Res (List α) :=
  forN n buf fun z b => do
    let v ← f z
    wr b z v

/-- `ModelObject::GetModelImageVector`, `core/model_object.cpp:2257-2289`. -/
def getModelImage [FP α] (o : Out α) : Res (Out α × Option Buf) :=
  if o.mo.modelImageComputed then
    if o.mo.doConvolution then do
      let b ← overwrite o.mo.nDataVals (allocOnce o.mo.nDataVals o.outModel) fun z =>
        rdp o.mo.modelVec (modelIndex o.mo z)
      pure ({ o with outModel := some b }, some .outModel)
    else .ok (o, some .model)
  else .ok (o, none)

/-- `ModelObject::GetExpandedModelImageVector`, `core/model_object.cpp:2298-2306`. -/
def getExpandedModelImage (o : Out α) : Res (Out α × Option Buf) :=
  if o.mo.modelImageComputed then .ok (o, some .model) else .ok (o, none)

/-- `ModelObject::GetResidualImageVector`, `core/model_object.cpp:2312-2353`. -/
def getResidualImage [FP α] (o : Out α) : Res (Out α × Option Buf) :=
  if o.mo.modelImageComputed then do
    let b ← overwrite o.mo.nDataVals (allocOnce o.mo.nDataVals o.resid) fun z => do
      let d ← rdp o.mo.dataVec z
      let m ← rdp o.mo.modelVec (modelIndex o.mo z)
      pure (d - m)
    pure ({ o with resid := some b }, some .resid)
  else .ok (o, none)

/-- `ModelObject::GetWeightImageVector`, `core/model_object.cpp:2359-2380`. -/
def getWeightImage [FP α] (o : Out α) : Res (Out α × Option Buf) :=
  if o.mo.weightValsSet then do
    let b ← overwrite o.mo.nDataVals (List.replicate o.mo.nDataVals 0) fun z => do
      let w ← rdp o.mo.weightVec z
      pure (w * w)
    pure ({ o with weights := o.weights ++ [b] }, some (.weight o.weights.length))
  else .ok (o, none)

/-- `ModelObject::GetDataVector`, `core/model_object.cpp:2384-2393`. -/
def getDataImage (o : Out α) : Res (Out α × Option Buf) :=
  if o.mo.dataValsSet then .ok (o, some .data) else .ok (o, none)

/-- Output requests. -/
inductive Req where
  | model
  | expanded
  | residual
  | weight
  | data
  deriving DecidableEq

/-- Serve one request. -/
def serve [FP α] (o : Out α) : Req → Res (Out α × Option Buf)
  | .model => getModelImage o
  | .expanded => getExpandedModelImage o
  | .residual => getResidualImage o
  | .weight => getWeightImage o
  | .data => getDataImage o

/-- Serve a sequence of requests; the answers are kept. -/
def serveAll [FP α] : List Req → Out α → Res (Out α × List (Req × Option Buf))
  | [], o => .ok (o, [])
  | r :: rest, o => do
    let p ← serve o r
    let q ← serveAll rest p.1
    pure (q.1, (r, p.2) :: q.2)

end Imfit
