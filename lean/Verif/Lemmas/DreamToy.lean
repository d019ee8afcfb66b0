import Verif.Lemmas.Dream

/-!
# A computable arithmetic and generator for examples

`toyFP` calculates with integers, so that runs of the sampler can be evaluated. `toyRng` counts its draws.
-/

namespace Imfit

/-- Integers; `sqrt` is the identity, `log` is 0, literals are rounded down. -/
@[reducible] def toyFP : FP Int where
  fabs x := x.natAbs
  fsqrt x := x
  flog _ := 0
  flt a b := decide (a < b)
  fle a b := decide (a ≤ b)
  isfin _ := true
  lit q := q.num / (q.den : Int)

/-- `unif` is 0, `gauss` is 1, 0, -1, 1, ...; integers count up; items are not rearranged; all counts go to the last outcome. -/
def toyRng : Rng Nat Int where
  unif s := (0, s)
  uint n s := (s % n, s + 1)
  gauss _ s := (if s % 3 = 0 then 1 else if s % 3 = 1 then 0 else -1, s + 1)
  perm n s := (List.range n, s)
  multi K N _ s := (List.replicate (K - 1) 0 ++ (if K = 0 then [] else [N]), s)

/-- The mean is the first value; the variance is 0; the best is the first. -/
def toyGsl : Gsl Int where
  mean l := l.headD 0
  varM _ _ := 0
  sd _ := 1
  quantile l _ := l.headD 0
  maxIndex _ := 0
  sort l := l

theorem toyRng_good : @Spec.GoodRng Nat Int toyFP toyRng := by
  let _ := toyFP
  refine ⟨?_, ?_, ?_, ?_, ?_⟩
  · intro n s h
    exact Nat.mod_lt _ h
  · intro n s
    exact List.Perm.refl _
  · intro K N p s
    show (List.replicate (K - 1) 0 ++ (if K = 0 then [] else [N])).length = K
    by_cases h : K = 0
    · simp [h]
    · simp [h]
      omega
  · intro K N p s
    show (List.replicate (K - 1) 0 ++ (if K = 0 then [] else [N])).sum ≤ N
    by_cases h : K = 0
    · simp [h]
    · simp [h]
  · intro K N s h
    show (List.replicate (K - 1) 0 ++ (if K = 0 then [] else [N])).sum = N
    simp [Nat.pos_iff_ne_zero.1 h]

theorem toyGsl_good : Spec.GoodGsl toyGsl := by
  intro l h
  exact List.length_pos_iff.2 h

/-- Three chains, a free parameter between 0 and 9 and one that is fixed at 5. -/
def toyCfg : DreamCfg Int where
  maxEvals := 5
  numChains := 3
  nvar := 2
  nfree := 1
  lock := [false, true]
  lo := [0, 5]
  hi := [9, 5]
  append := false
  burnIn := 0
  recalc := false
  noise := 0
  bstar := 1
  collapse := true
  gelmanEvals := 100
  loopSteps := 10
  crit := 2
  deltaMax := 0
  pCRupdate := true
  nCR := 3
  reenter := 0

/-- Best at 4. -/
def toyLik (row : List Int) : Int := -(row.headD 0 - 4) * (row.headD 0 - 4)

theorem toyLaws : @CmpLaws Int toyFP := by
  let _ := toyFP
  refine ⟨?_, ?_, ?_, ?_⟩
  · show decide ((ninfty : Int) ≤ ninfty) = true
    simp
  · intro a
    show decide (a < a) = false
    simp
  · intro a b h
    have : decide (a ≤ a) = false := h
    simp at this
  · intro a b x h
    have : decide (a ≤ a) = false := h
    simp at this

theorem toyCfg_ok : @DreamOk Int toyFP toyCfg := by
  let _ := toyFP
  refine ⟨rfl, rfl, rfl, by decide, by decide, by decide, ?_⟩
  intro j a b ha hb
  match j with
  | 0 =>
    cases ha; cases hb; rfl
  | 1 =>
    cases ha; cases hb; rfl
  | j + 2 => simp [toyCfg] at ha

end Imfit
