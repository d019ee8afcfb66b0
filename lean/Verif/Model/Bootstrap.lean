import Verif.Model.Fit

/-!
# Bootstrap resampling of pixel indices

Source: `core/model_object.cpp:2042-2087`. The generator `genrand_real2` is an arbitrary stream `rng` of 32-bit
integers divided by 2^32 (`core/mersenne_twister.cpp:166-170`); the generator itself is in `Model/Twister.lean`.
The rejection loop takes fuel; running out of fuel is `Fault.diverge`.
-/

namespace Imfit

variable {α : Type}

/-- `(long)floor(genrand_real2()*nDataVals)` for the draw `k`. `core/model_object.cpp:2080`.
Exact arithmetic (with doubles the product is below `nDataVals` for every `nDataVals < 2^31`). -/
def drawIndex (nData k : Nat) : Nat := k * nData / 2 ^ 32

/-- The `do ... while (badIndex)` loop. `core/model_object.cpp:2078-2083`. Returns the accepted index and the position in the
stream after it. -/
def pickIndex [FP α] (s : MO α) (rng : Nat → Nat) : Nat → Nat → Res (Nat × Nat)
  | 0, _ => .error .diverge
  | fuel + 1, p =>
    match rdp s.weightVec (drawIndex s.nDataVals (rng p)) with
    | .ok w => if flt 0 w then .ok (drawIndex s.nDataVals (rng p), p + 1) else pickIndex s rng fuel (p + 1)
    | .error e => .error e

/-- Number of valid pixels as a loop bound (an indeterminate count gives no turn). -/
def nValidNat (s : MO α) : Nat := match s.nValid with | some n => n.toNat | none => 0

/-- The index vector, allocated on the first call only. `core/model_object.cpp:2067-2075`. -/
def bootBuffer (s : MO α) : List Nat :=
  match s.bootIdx with
  | some l => l
  | none => List.replicate (nValidNat s) 0

/-- `ModelObject::MakeBootstrapSample`, `core/model_object.cpp:2062-2087`. Returns the state and the stream position. -/
def makeBootstrapSample [FP α] (s : MO α) (rng : Nat → Nat) (fuel p : Nat) : Res (MO α × Nat) := do
  let r ← forN (nValidNat s) (bootBuffer s, p) fun k st => do
    let q ← pickIndex s rng fuel st.2
    let l ← wr st.1 k q.1
    pure (l, q.2)
  pure ({ s with bootIdx := some r.1 }, r.2)

/-- `ModelObject::UseBootstrap`, `core/model_object.cpp:2042-2054`. -/
def useBootstrap [FP α] (s : MO α) (rng : Nat → Nat) (fuel p : Nat) : Res (MO α × Nat) :=
  makeBootstrapSample { s with doBootstrap := true } rng fuel p

end Imfit
