import Verif.Model.XR
import Verif.Model.Loop

/-!
# Mersenne Twister

Model of `core/mersenne_twister.cpp`. `unsigned long` has 64 bits (as on the systems Imfit is built for). The static variables `mt` and `mti` are the state.
-/

namespace Imfit

abbrev W64 := BitVec 64

/-- `static unsigned long mt[N]; static int mti`, `core/mersenne_twister.cpp:54-55`. -/
structure MT where
  mt : List W64
  mti : Nat

/-- `mt` and `mti` when the program starts, `core/mersenne_twister.cpp:54-55`. -/
def MT.start : MT := ⟨List.replicate 624 0, 625⟩

/-- One turn of the loop of `init_genrand`, `core/mersenne_twister.cpp:61-69`. -/
def initStep (z : Nat) (mt : List W64) : Res (List W64) := do
  let p ← rd mt z
  wr mt (z + 1) ((1812433253#64 * (p ^^^ (p >>> 30)) + BitVec.ofNat 64 (z + 1)) &&& 0xffffffff#64)

/-- `init_genrand`, `core/mersenne_twister.cpp:58-70`. Afterwards `mti` is `N`. -/
def initGenrand (s : W64) (st : MT) : Res MT := do
  let mt ← wr st.mt 0 (s &&& 0xffffffff#64)
  let mt ← forN 623 mt initStep
  .ok ⟨mt, 624⟩

/-- `i++; if (i >= N) { mt[0] = mt[N-1]; i = 1; }`, `core/mersenne_twister.cpp:87-91, 98-102`. -/
def wrapI (mt : List W64) (i : Nat) : Res (List W64 × Nat) :=
  if i + 1 ≥ 624 then do
    let l ← rd mt 623
    let mt ← wr mt 0 l
    .ok (mt, 1)
  else .ok (mt, i + 1)

/-- One turn of the first loop of `init_by_array`, `core/mersenne_twister.cpp:83-94`. -/
def keyStep (key : List W64) (s : List W64 × Nat × Nat) : Res (List W64 × Nat × Nat) := do
  let a ← rd s.1 s.2.1
  let p ← rdI s.1 ((s.2.1 : Int) - 1)
  let k ← rd key s.2.2
  let mt ← wr s.1 s.2.1 (((a ^^^ ((p ^^^ (p >>> 30)) * 1664525#64)) + k + BitVec.ofNat 64 s.2.2) &&& 0xffffffff#64)
  let q ← wrapI mt s.2.1
  .ok (q.1, q.2, if s.2.2 + 1 ≥ key.length then 0 else s.2.2 + 1)

/-- One turn of the second loop of `init_by_array`, `core/mersenne_twister.cpp:95-103`. -/
def mixStep (s : List W64 × Nat) : Res (List W64 × Nat) := do
  let a ← rd s.1 s.2
  let p ← rdI s.1 ((s.2 : Int) - 1)
  let mt ← wr s.1 s.2 (((a ^^^ ((p ^^^ (p >>> 30)) * 1566083941#64)) - BitVec.ofNat 64 s.2) &&& 0xffffffff#64)
  wrapI mt s.2

/-- `init_by_array`, `core/mersenne_twister.cpp:76-106`; `key_length` is the length of the array. -/
def initByArray (key : List W64) (st : MT) : Res MT := do
  let st ← initGenrand 19650218#64 st
  let s ← forN (max 624 key.length) (st.mt, 1, 0) fun _ s => keyStep key s
  let t ← forN 623 (s.1, s.2.1) fun _ s => mixStep s
  let mt ← wr t.1 0 0x80000000#64
  .ok ⟨mt, st.mti⟩

/-- One assignment of the generation loops: from words `k`, `k + 1` (the next one) and `m`. `core/mersenne_twister.cpp:122-132`. -/
def twistStep (mt : List W64) (k next m : Nat) : Res (List W64) := do
  let a ← rd mt k
  let b ← rd mt next
  let y := (a &&& 0x80000000#64) ||| (b &&& 0x7fffffff#64)
  let c ← rd mt m
  let g ← rd [0x0#64, 0x9908b0df#64] (y &&& 1#64).toNat
  wr mt k (c ^^^ (y >>> 1) ^^^ g)

/-- The generation of 624 words at one time, `core/mersenne_twister.cpp:121-132`. -/
def regenerate (mt : List W64) : Res (List W64) := do
  let mt ← forN 227 mt fun k mt => twistStep mt k (k + 1) (k + 397)
  let mt ← forN 396 mt fun z mt => twistStep mt (227 + z) (227 + z + 1) z
  twistStep mt 623 0 396

/-- Tempering, `core/mersenne_twister.cpp:139-143`. -/
def tempering (y : W64) : W64 :=
  let y := y ^^^ (y >>> 11)
  let y := y ^^^ ((y <<< 7) &&& 0x9d2c5680#64)
  let y := y ^^^ ((y <<< 15) &&& 0xefc60000#64)
  y ^^^ (y >>> 18)

/-- The state at the point where a word is taken. `core/mersenne_twister.cpp:115-135`. -/
def refill (st : MT) : Res MT :=
  if st.mti ≥ 624 then
    if st.mti = 625 then do
      let st ← initGenrand 5489#64 st
      let mt ← regenerate st.mt
      .ok ⟨mt, 0⟩
    else do
      let mt ← regenerate st.mt
      .ok ⟨mt, 0⟩
  else .ok st

/-- `genrand_int32`, `core/mersenne_twister.cpp:110-146`. -/
def genrandInt32 (st : MT) : Res (W64 × MT) := do
  let st ← refill st
  let y ← rd st.mt st.mti
  .ok (tempering y, ⟨st.mt, st.mti + 1⟩)

/-- `genrand_int31`, `core/mersenne_twister.cpp:150-153`. -/
def genrandInt31 (st : MT) : Res (W64 × MT) := do
  let p ← genrandInt32 st
  .ok (p.1 >>> 1, p.2)

section
variable {α : Type} [FP α]

/-- Conversion of an integer to double. -/
def ofWord (w : W64) : α := FP.lit (w.toNat : ℚ)

/-- `genrand_real1`, `core/mersenne_twister.cpp:157-161`. -/
def genrandReal1 (st : MT) : Res (α × MT) := do
  let p ← genrandInt32 st
  .ok (ofWord p.1 * (1 / FP.lit 4294967295), p.2)

/-- `genrand_real2`, `core/mersenne_twister.cpp:165-169`. -/
def genrandReal2 (st : MT) : Res (α × MT) := do
  let p ← genrandInt32 st
  .ok (ofWord p.1 * (1 / FP.lit 4294967296), p.2)

/-- `genrand_real3`, `core/mersenne_twister.cpp:173-177`. -/
def genrandReal3 (st : MT) : Res (α × MT) := do
  let p ← genrandInt32 st
  .ok ((ofWord p.1 + FP.lit (1 / 2)) * (1 / FP.lit 4294967296), p.2)

/-- `genrand_res53`, `core/mersenne_twister.cpp:181-185`. -/
def genrandRes53 (st : MT) : Res (α × MT) := do
  let p ← genrandInt32 st
  let q ← genrandInt32 p.2
  .ok ((ofWord (p.1 >>> 5) * FP.lit 67108864 + ofWord (q.1 >>> 6)) * (1 / FP.lit 9007199254740992), q.2)

end

/-- `n` successive calls of a generator. -/
def draws {β : Type} (g : MT → Res (β × MT)) : Nat → MT → Res (List β × MT)
  | 0, st => .ok ([], st)
  | n + 1, st => do
    let p ← g st
    let q ← draws g n p.2
    .ok (p.1 :: q.1, q.2)

end Imfit
