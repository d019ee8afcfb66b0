import Verif.Model.Func

/-!
# Total fluxes

Source: `TotalFlux` of `function_objects/func_exp.cpp`, `func_gaussian.cpp`, `func_sersic.cpp`, `ModelObject::FindTotalFluxes` (`core/model_object.cpp:2410-2476`)
and the numbers printed by `DetermineFluxes` (`core/makeimage_main.cpp:726-818`). The function `gsl_sf_gamma` is the parameter `gam`. The sum over the pixels is done
by several threads, each adding up its own rows; the parts are then added in any order (OpenMP `reduction`).
-/

namespace Imfit

variable {α : Type}

/-- `PI`, `function_objects/func_exp.cpp:61`. -/
def PI_FUNC : ℚ := 314159265358979 / 10 ^ 14

/-- `Exponential::TotalFlux`, `Gaussian::TotalFlux`, `Sersic::TotalFlux` after `Setup`; `none` if `CanCalculateTotalFlux` is false.
`function_objects/func_exp.cpp:202-213`, `func_gaussian.cpp:208-219`, `func_sersic.cpp:238-251`. -/
def EFun.totalFlux [FP α] [FM α] (gam : α → α) (d : ImgDesc α) (params : List α) (offset : Nat) : EFun → Option (Res α)
  | .exponential => some do
    let ell ← rd params (offset + 1)
    let i0 ← rd params (offset + 2)
    let h ← rd params (offset + 3)
    let i' := i0 * d.intensityScale
    let h' := h * d.pixelScaling
    pure ((1 - ell) * lit 2 * lit PI_FUNC * i' * h' * h')
  | .gaussian => some do
    let ell ← rd params (offset + 1)
    let i0 ← rd params (offset + 2)
    let s ← rd params (offset + 3)
    let i' := i0 * d.intensityScale
    let s' := s * d.pixelScaling
    pure ((1 - ell) * lit 2 * lit PI_FUNC * i' * s' * s')
  | .sersic => some do
    let ell ← rd params (offset + 1)
    let n ← rd params (offset + 2)
    let ie ← rd params (offset + 3)
    let re ← rd params (offset + 4)
    let i' := ie * d.intensityScale
    let re' := re * d.pixelScaling
    let bn := calculateBn n
    let bn2n := fpow bn (lit 2 * n)
    let L := lit 2 * lit PI_FUNC * n * fexp bn * i' * (re' * re')
    pure ((1 - ell) * L * gam (lit 2 * n) / bn2n)
  | .moffat => none

/-- What `FindTotalFluxes` uses of a function object: `IsBackground`, the number of parameters, and what there is after `Setup`. -/
structure FluxFn (α : Type) where
  nParams : Nat
  background : Bool
  setup : List α → Nat → α → α → Res (Option α × (α → α → Res α))

/-- The rows added up by one thread, in order. `core/model_object.cpp:2456-2463`. -/
def rowsFlux [FP α] (xSize : Nat) (v : α → α → Res α) (rows : List Nat) : Res α :=
  rows.foldlM (fun s i => (List.range xSize).foldlM (fun s j => do
    let w ← v (lit ((j + 1 : Nat) : ℚ)) (lit ((i + 1 : Nat) : ℚ))
    pure (s + w)) s) 0

/-- The sum over the image: `parts` are the rows of each thread. `core/model_object.cpp:2453-2465`. -/
def pixelFlux [FP α] (xSize : Nat) (v : α → α → Res α) (parts : List (List Nat)) : Res α :=
  parts.foldlM (fun s rows => do
    let w ← rowsFlux xSize v rows
    pure (s + w)) 0

/-- The loop that calls `Setup`. `core/model_object.cpp:2429-2436`. -/
def fluxSetup [FP α] (params : List α) (x0 y0 : α) : List (FluxFn α) → List Bool → Nat → Res (List (Bool × Option α × (α → α → Res α)))
  | f :: fs, b :: bs, off => do
    let o := if b then off + 2 else off
    let p ← f.setup params o x0 y0
    let l ← fluxSetup params x0 y0 fs bs (o + f.nParams)
    pure ((f.background, p) :: l)
  | _ :: _, [], _ => .error .oob
  | [], _, _ => pure []

/-- The loop over the functions. A background component leaves its entry of `individualFluxes` (zero from `calloc`). `core/model_object.cpp:2446-2472`. -/
def fluxLoop [FP α] (xSize : Nat) (parts : List (List Nat)) : List (Bool × Option α × (α → α → Res α)) → α → Res (α × List α)
  | (true, _) :: l, tot => do
    let (t, fs) ← fluxLoop xSize parts l tot
    pure (t, 0 :: fs)
  | (false, some f, _) :: l, tot => do
    let (t, fs) ← fluxLoop xSize parts l (tot + f)
    pure (t, f :: fs)
  | (false, none, v) :: l, tot => do
    let f ← pixelFlux xSize v parts
    let (t, fs) ← fluxLoop xSize parts l (tot + f)
    pure (t, f :: fs)
  | [], tot => pure (tot, [])

/-- `FindTotalFluxes`, `core/model_object.cpp:2415-2476`. -/
def findTotalFluxes [FP α] (fns : List (FluxFn α)) (starts : List Bool) (params : List α) (xSize ySize : Nat) (parts : List (List Nat)) : Res (α × List α) :=
  if 1 ≤ xSize ∧ 1 ≤ ySize then do
    let l ← fluxSetup params (lit (1 / 2) * lit (xSize : ℚ)) (lit (1 / 2) * lit (ySize : ℚ)) fns starts 0
    fluxLoop xSize parts l 0
  else .error .assert

/-- The fractions printed. `core/makeimage_main.cpp:753-767`. -/
def fluxFractions [FP α] (r : α × List α) : List α := r.2.map (· / r.1) ++ [1]

/-- The function object of an elliptical function. -/
def EFun.fluxFn [FP α] [FM α] [FI α] (gam : α → α) (doSub : Bool) (d : ImgDesc α) (F : EFun) : FluxFn α where
  nParams := match F with
    | .exponential => 4
    | .gaussian => 4
    | .sersic => 5
    | .moffat => 5
  background := false
  setup params off x0 y0 := do
    let f ← F.setup doSub d params off x0 y0
    let t ← (match F.totalFlux gam d params off with
      | some r => r >>= fun t => pure (some t)
      | none => pure none : Res (Option α))
    pure (t, ellValue f)

/-- `FlatSky`: the only background component modelled. `function_objects/func_flatsky.cpp:85-108`. -/
def flatSkyFluxFn [FP α] (d : ImgDesc α) : FluxFn α where
  nParams := 1
  background := true
  setup params off x0 y0 := do
    let _ ← rd params off
    pure (none, fun x y => flatSkyValue d params off x0 y0 x y)

end Imfit
