import Verif.Model.Loop
import Verif.Model.Math
import Verif.Model.Options

/-!
# `Spline1D`

Source: `function_objects_1d/func1d_spline.cpp`, `func1d_spline.h`.

`gsl_spline_alloc`, `gsl_spline_init` and `gsl_spline_eval` are functions of the GNU Scientific Library: what is modelled is their documented effect for `gsl_interp_cspline` (the
second derivative is zero at both ends) with three or four points, the only numbers of points that reach them, in the order of operations of the library. Its default error handler calls
`abort`, which is the fault `assert` here; `profilefit` does not replace the handler. The accelerator is not in the model: it only changes how the interval is found, not which.
-/

namespace Imfit

variable {α : Type}

/-- `MAX_SPLINE_POINTS`, `func1d_spline.h:34`. -/
def maxSplinePoints : Int := 4

/-- The members that `SetExtraParams` changes: `maxInterpPoints` and `nParams`. -/
structure SplineSize where
  maxPoints : Int
  nParams : Int
deriving DecidableEq

/-- The constructor. `func1d_spline.cpp:51-54`. -/
def newSpline : SplineSize := ⟨maxSplinePoints, 2 * maxSplinePoints - 1⟩

/-- `Spline1D::SetExtraParams` for an optional-parameter map in key order: return value and the members afterwards. `func1d_spline.cpp:139-165`. -/
def splineExtra (s : SplineSize) : List (Str × Str) → Res (Int × SplineSize)
  | [] => .ok (-1, s)
  | m => go s m
where
  go (s : SplineSize) : List (Str × Str) → Res (Int × SplineSize)
    | [] => .ok (0, s)
    | (k, v) :: m =>
      if k = "N".toList then
        if notANumber .posInt v then .ok (-3, s)
        else do
          let n ← atol v
          let s := { s with maxPoints := longToInt n }
          if maxSplinePoints < s.maxPoints then .ok (-3, s)
          else .ok (1, { s with nParams := 2 * s.maxPoints - 1 })
      else go s m

/-- The points found so far, for the indices `i` to `maxInterpPoints - 1`, of which there are `k`. `xInterp` and `yInterp` have room for `MAX_SPLINE_POINTS` values.
`func1d_spline.cpp:101-112`. -/
def splinePoints [FP α] (params : List α) (o : Nat) : Nat → Nat → List (α × α) → Res (List (α × α))
  | _, 0, ps => .ok ps
  | i, k + 1, ps => do
    let r ← rd params (2 * i - 1 + o)
    if flt r 0 then .ok ps
    else do
      if maxSplinePoints ≤ i then .error .oob
      else do
        let y ← rd params (2 * i - 1 + o + 1)
        splinePoints params o (i + 1) k (ps ++ [(r, y)])

/-- `gsl_interp_init` asks for strictly increasing points. -/
def increasing [FP α] : List (α × α) → Bool
  | p :: q :: ps => if flt p.1 q.1 then increasing (q :: ps) else false
  | _ => true

/-- `cspline_init`: half of the second derivative at each point. -/
def splineCoeffs [FP α] : List (α × α) → Res (List α)
  | [p0, p1, p2] =>
    let h0 := p1.1 - p0.1
    let h1 := p2.1 - p1.1
    let g0 := lit 3 * ((p2.2 - p1.2) * (1 / h1) - (p1.2 - p0.2) * (1 / h0))
    .ok [0, g0 / (lit 2 * (h1 + h0)), 0]
  | [p0, p1, p2, p3] =>
    let h0 := p1.1 - p0.1
    let h1 := p2.1 - p1.1
    let h2 := p3.1 - p2.1
    let g0 := lit 3 * ((p2.2 - p1.2) * (1 / h1) - (p1.2 - p0.2) * (1 / h0))
    let g1 := lit 3 * ((p3.2 - p2.2) * (1 / h2) - (p2.2 - p1.2) * (1 / h1))
    let a0 := lit 2 * (h1 + h0)
    let γ := h1 / a0
    let a1 := lit 2 * (h2 + h1) - h1 * γ
    let z1 := g1 - γ * g0
    let c2 := z1 / a1
    .ok [0, g0 / a0 - γ * c2, c2, 0]
  | _ => .error .assert

/-- A spline that has been set up. -/
structure GslSpline (α : Type) where
  points : List (α × α)
  coeffs : List α

/-- `gsl_spline_alloc` and `gsl_spline_init`. `func1d_spline.cpp:114-125`. -/
def gslSpline [FP α] (ps : List (α × α)) : Res (GslSpline α) :=
  if increasing ps then do
    let c ← splineCoeffs ps
    .ok ⟨ps, c⟩
  else .error .assert

/-- The interval: the last point, except for the last of all, that is not beyond `r`. -/
def splineIndex [FP α] (r : α) : Nat → List (α × α) → Nat
  | i, p :: q :: ps => if flt r p.1 then i - 1 else splineIndex r (i + 1) (q :: ps)
  | i, _ => i - 1

/-- `gsl_spline_eval`: beyond the points the library reports an error. -/
def gslEval [FP α] (s : GslSpline α) (r : α) : Res α := do
  let first ← rd s.points 0
  let last ← rd s.points (s.points.length - 1)
  if flt r first.1 || flt last.1 r then .error .assert
  else do
    let i := splineIndex r 0 s.points
    let lo ← rd s.points i
    let hi ← rd s.points (i + 1)
    let c ← rd s.coeffs i
    let c' ← rd s.coeffs (i + 1)
    let dx := hi.1 - lo.1
    let dy := hi.2 - lo.2
    let t := r - lo.1
    let b := dy / dx - dx * (c' + lit 2 * c) / lit 3
    let d := (c' - c) / (lit 3 * dx)
    .ok (lo.2 + t * (b + t * (c + t * d)))

/-- `Setup`: the parameters are read from `offsetIndex` on, three of them whatever their number. `func1d_spline.cpp:86-126`. -/
def splineSetup [FP α] (s : SplineSize) (params : List α) (o : Nat) : Res (GslSpline α) := do
  let i0 ← rd params o
  let r1 ← rd params (1 + o)
  let i1 ← rd params (2 + o)
  let ps ← splinePoints params o 2 (s.maxPoints - 2).toNat [(0, i0), (r1, i1)]
  gslSpline (ps.take s.maxPoints.toNat)

/-- `Setup` and `GetValue`. `func1d_spline.cpp:170-174`. -/
def splineValue [FP α] (s : SplineSize) (params : List α) (o : Nat) (x0 x : α) : Res α := do
  let g ← splineSetup s params o
  gslEval g (fabs (x - x0))

end Imfit
