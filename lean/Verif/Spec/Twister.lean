/-!
# MT19937, from its definition

M. Matsumoto and T. Nishimura, "Mersenne Twister", ACM TOMACS 8 (1998) 3-30, with the 2002 initialisation: w = 32, n = 624, m = 397, r = 31. All words have 32 bits.
-/

namespace Imfit.Spec

/-- `(x^u | y^l) A`: upper bit of `x`, lower 31 bits of `y`, times the matrix in companion form. -/
def mtTimesA (x y : BitVec 32) : BitVec 32 :=
  let z := (x &&& 0x80000000#32) ||| (y &&& 0x7fffffff#32)
  (z >>> 1) ^^^ (if z.getLsbD 0 then 0x9908b0df#32 else 0#32)

/-- The sequence of words that the initial words `x 0`, ..., `x 623` give rise to: `x (k + n) = x (k + m) xor (x k^u | x (k+1)^l) A`. -/
def mtExtend (x : Nat → BitVec 32) (k : Nat) : BitVec 32 :=
  if _ : k < 624 then x k
  else mtExtend x (k - 624 + 397) ^^^ mtTimesA (mtExtend x (k - 624)) (mtExtend x (k - 624 + 1))
  termination_by k

/-- The initial words for a seed. -/
def mtInit (seed : BitVec 32) : Nat → BitVec 32
  | 0 => seed
  | k + 1 => 1812433253#32 * (mtInit seed k ^^^ (mtInit seed k >>> 30)) + BitVec.ofNat 32 (k + 1)

/-- Tempering: u = 11, s = 7, b = 9D2C5680, t = 15, c = EFC60000, l = 18. -/
def mtTemper (x : BitVec 32) : BitVec 32 :=
  let y1 := x ^^^ (x >>> 11)
  let y2 := y1 ^^^ ((y1 <<< 7) &&& 0x9d2c5680#32)
  let y3 := y2 ^^^ ((y2 <<< 15) &&& 0xefc60000#32)
  y3 ^^^ (y3 >>> 18)

/-- Number `k` of the stream that starts from the initial words. -/
def mtStream (x : Nat → BitVec 32) (k : Nat) : BitVec 32 := mtTemper (mtExtend x (624 + k))

/-! ## Initialisation by an array (2002) -/

/-- Change one word. -/
def mtSet (x : Nat → BitVec 32) (i : Nat) (v : BitVec 32) : Nat → BitVec 32 := fun k => if k = i then v else x k

/-- The words, the place of the word to change, and the place in the key. -/
structure MtKeyState where
  x : Nat → BitVec 32
  i : Nat
  j : Nat

/-- Words 1 to 623 are changed in turn; after word 623, word 0 becomes a copy of it. -/
def mtPut (x : Nat → BitVec 32) (i : Nat) (v : BitVec 32) : (Nat → BitVec 32) × Nat :=
  if i = 623 then (mtSet (mtSet x i v) 0 v, 1) else (mtSet x i v, i + 1)

def mtKeyStep (key : List (BitVec 32)) (s : MtKeyState) : MtKeyState :=
  let q := s.x (s.i - 1)
  let r := mtPut s.x s.i ((s.x s.i ^^^ ((q ^^^ (q >>> 30)) * 1664525#32)) + key.getD s.j 0#32 + BitVec.ofNat 32 s.j)
  ⟨r.1, r.2, (s.j + 1) % key.length⟩

def mtMixStep (s : (Nat → BitVec 32) × Nat) : (Nat → BitVec 32) × Nat :=
  let q := s.1 (s.2 - 1)
  mtPut s.1 s.2 ((s.1 s.2 ^^^ ((q ^^^ (q >>> 30)) * 1566083941#32)) - BitVec.ofNat 32 s.2)

/-- A function applied `n` times. -/
def times {β : Type} (f : β → β) : Nat → β → β
  | 0, s => s
  | n + 1, s => f (times f n s)

/-- The initial words for a key. -/
def mtInitKey (key : List (BitVec 32)) : Nat → BitVec 32 :=
  let s := times (mtKeyStep key) (max 624 key.length) ⟨mtInit 19650218#32, 1, 0⟩
  let t := times mtMixStep 623 (s.x, s.i)
  mtSet t.1 0 0x80000000#32

end Imfit.Spec
