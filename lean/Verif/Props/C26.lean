import Verif.Lemmas.DESafe

/-!
# C26: differential evolution stays inside its arrays

The random numbers come from the closed interval [0, 1], so `(int)RandomUniform(0.0, nPop)` is `nPop` for the one draw 2³² - 1: a member that does not exist
(and the same for the first parameter to change). `C26_false` shows the read outside the population. Without that draw every index exists
(`C26_solve_partial`), for every strategy and objective. The partners are pairwise distinct and different from the candidate for every stream.
-/

namespace Imfit

open XR

/-- The partners chosen for candidate `k` are pairwise distinct and none of them is the candidate, for every arithmetic, stream and strategy. -/
theorem C26_partners {α : Type} [FP α] (c : DECfg α) (rng : Nat → Nat) (fuel k p : Nat) (r : List Int × Nat)
    (h : selectSamples c rng fuel (nSamples c.base) [(k : Int)] p = .ok r) : ((k : Int) :: r.1).Nodup ∧ r.1.length = nSamples c.base := by
  obtain ⟨h1, h2, h3, _⟩ := selectSamples_ok h
  refine ⟨?_, h1⟩
  rw [List.nodup_cons]
  exact ⟨fun hm => h3 _ hm (by simp), h2⟩

/-- The index `(int)RandomUniform(0.0, m)`: it exists exactly if the draw is not 2³² - 1. -/
theorem C26_index (rng : Nat → Nat) (p m : Nat) (hr : rng p < 2 ^ 32) (h0 : 0 < m) (hm : m < 2 ^ 31) :
    ∃ i : Int, XR.toInt (randUniform (unif rng p) 0 (lit (m : ℚ))) = .ok i ∧ 0 ≤ i ∧ i ≤ m ∧ (i < m ↔ rng p ≠ 2 ^ 32 - 1) := by
  refine ⟨_, toInt_draw hr hm, by omega, ?_, ?_⟩
  · have h1 : rng p * m / 4294967295 ≤ 4294967295 * m / 4294967295 := Nat.div_le_div_right (Nat.mul_le_mul_right m (by omega))
    rw [Nat.mul_div_cancel_left m (by norm_num)] at h1
    omega
  · have h1 : rng p * m / 4294967295 < m ↔ rng p < 4294967295 := by
      rw [Nat.div_lt_iff_lt_mul (by norm_num), Nat.mul_comm m]
      exact Nat.mul_lt_mul_right h0
    constructor
    · intro h
      have := h1.1 (by exact_mod_cast h)
      omega
    · intro h
      have := h1.2 (by omega)
      exact_mod_cast this

/-- `Setup` and `Solve` never leave an array (the only fault left is drawing for ever), for every strategy, objective, stop signal, number of generations and
stream without the draw 2³² - 1. -/
theorem C26_solve_partial (c : DECfg XR) (ht : c.toInt = XR.toInt) (hc : SizesCfg c) (rng : Nat → Nat) (hr : ∀ p, rng p < 2 ^ 32 - 1)
    (lhs : Option (Nat → List Nat)) (hperm : ∀ perm, lhs = some perm → ∀ j, j < c.nDim → (perm j).length = c.nPop)
    (trial0 : List XR) (fuel maxGen : Nat) (energy : List XR → XR) (sig : Nat → Bool) :
    ∃ st, deSetup c lhs rng trial0 = .ok st ∧ ∀ f, solve c rng fuel energy sig maxGen st = .error f → f = .diverge := by
  obtain ⟨st, h1, h2⟩ := deSetup_total (rng := rng) (trial0 := trial0) hc hperm
  exact ⟨st, h1, generationsLoop_onlyDiverge hc (goodDraws_of ht hr) maxGen 0 _ _ ⟨h2.pop, h2.popE, h2.best⟩⟩

/-- If moreover every index comes up among any `w` draws in a row, `Solve` comes to an end. -/
theorem C26_runs_partial (c : DECfg XR) (ht : c.toInt = XR.toInt) (hc : SizesCfg c) (hn : nSamples c.base < c.nPop) (rng : Nat → Nat)
    (hr : ∀ p, rng p < 2 ^ 32 - 1) (w : Nat) (hw : ∀ p i, i < c.nPop → ∃ d, d < w ∧ rng (p + d) * c.nPop / 4294967295 = i)
    (lhs : Option (Nat → List Nat)) (hperm : ∀ perm, lhs = some perm → ∀ j, j < c.nDim → (perm j).length = c.nPop)
    (trial0 : List XR) (maxGen : Nat) (energy : List XR → XR) (sig : Nat → Bool) :
    ∃ st r, deSetup c lhs rng trial0 = .ok st ∧ solve c rng w energy sig maxGen st = .ok r := by
  obtain ⟨st, h1, h2⟩ := deSetup_total (rng := rng) (trial0 := trial0) hc hperm
  have hcov : Covers c rng w := by
    intro p i hi
    obtain ⟨d, hd, e⟩ := hw p i hi
    refine ⟨d, hd, ?_⟩
    rw [ht, toInt_draw (by have := hr (p + d); omega) hc.pop, e]
  obtain ⟨r, h3⟩ := generationsLoop_total (energy := energy) (sig := sig) hc (goodDraws_of ht hr) hcov hn maxGen 0
    ⟨lit 100, lit 100, lit 100, lit (10 ^ 20)⟩ { st with bestE := lit (10 ^ 20) } ⟨h2.pop, h2.popE, h2.best⟩
  exact ⟨st, r, h1, h3⟩

theorem forN_error {σ : Type} {n : Nat} {s : σ} {f : Nat → σ → Res σ} {e : Fault} (hn : 0 < n) (h : f 0 s = .error e) : forN n s f = .error e := by
  induction n with
  | zero => omega
  | succ n ih =>
    cases n with
    | zero => simp only [forN, ok_bind]; exact h
    | succ n => rw [forN, ih (by omega)]; rfl

/-- A stream with the draw 2³² - 1 when the first partner of the first candidate is chosen. -/
def badStream (p : Nat) : Nat := if p = 8 then 4294967295 else if p = 9 then 1073741824 else 0

/-- Fitting one parameter with limits 0 and 1: with the stream above the solver reads outside its population, whatever the objective. -/
theorem C26_false (energy : List XR → XR) (sig : Nat → Bool) :
    (∀ p, badStream p < 2 ^ 32) ∧
    diffEvolnFit XR.toInt [fin (1 / 2)] [⟨false, true, true, fin 0, fin 1⟩] (fin 0) badStream none 5 energy sig [fin 0] = .error .oob := by
  refine ⟨fun p => by unfold badStream; split <;> [norm_num; (split <;> norm_num)], ?_⟩
  have hb : deBounds ([fin (1 / 2)].zip [(⟨false, true, true, fin 0, fin 1⟩ : DELim XR)]) = some ([fin 0], [fin 1]) := rfl
  unfold diffEvolnFit
  rw [hb]
  simp only [List.filter, Bool.not_false, List.length_cons, List.length_nil]
  generalize hc : (⟨0 + 1, 8 * (0 + 1), DEBase.randToBest1, false, lit (7 / 10), 1, fin 0, [fin 0], [fin 1], XR.toInt⟩ : DECfg XR) = c
  have hsz : SizesCfg c := by subst hc; constructor <;> norm_num
  obtain ⟨st, h1, h2⟩ := deSetup_total (c := c) (lhs := none) (rng := badStream) (trial0 := [fin 0]) hsz (by simp)
  rw [h1]
  simp only [ok_bind]
  have hpos : st.pos = 8 := by
    unfold deSetup at h1
    obtain ⟨pop, _, h1⟩ := bind_ok h1
    cases h1
    subst hc
    rfl
  have hp : st.pop.length = 8 := by rw [h2.pop, ← hc]; rfl
  have hbl : st.best.length = 1 := by rw [h2.best, ← hc]
  have hcand : ∀ s, s.pop = st.pop → s.best = st.best → s.pos = 8 → oneCandidate c badStream 5 energy 0 s = .error .oob := by
    intro s e1 e2 e3
    have hsel : selectSamples c badStream 5 (nSamples c.base) [((0 : Nat) : Int)] s.pos = .ok ([8, 2], 10) := by
      subst hc
      rw [e3]
      have d8 : XR.toInt (randUniform (unif badStream 8) 0 (lit ((8 : Nat) : ℚ))) = .ok 8 := by
        rw [toInt_draw (by norm_num [badStream]) (by norm_num)]; rfl
      have d9 : XR.toInt (randUniform (unif badStream 9) 0 (lit ((8 : Nat) : ℚ))) = .ok 2 := by
        rw [toInt_draw (by norm_num [badStream]) (by norm_num)]; rfl
      have p1 : pickSample (⟨0 + 1, 8 * (0 + 1), DEBase.randToBest1, false, lit (7 / 10), 1, fin 0, [fin 0], [fin 1], XR.toInt⟩ : DECfg XR)
          badStream [((0 : Nat) : Int)] 5 8 = .ok (8, 9) := by
        unfold pickSample
        simp only [Nat.zero_add, Nat.mul_one, d8, ok_bind]
        decide
      have p2 : pickSample (⟨0 + 1, 8 * (0 + 1), DEBase.randToBest1, false, lit (7 / 10), 1, fin 0, [fin 0], [fin 1], XR.toInt⟩ : DECfg XR)
          badStream [8, ((0 : Nat) : Int)] 5 9 = .ok (2, 10) := by
        unfold pickSample
        simp only [Nat.zero_add, Nat.mul_one, d9, ok_bind]
        decide
      simp only [nSamples, selectSamples, p1, p2, ok_bind]
    have hn : c.toInt (randUniform (unif badStream 10) 0 (lit (c.nDim : ℚ))) = .ok 0 := by
      subst hc
      have d := toInt_draw (rng := badStream) (p := 10) (m := 1) (by norm_num [badStream]) (by norm_num)
      exact d
    obtain ⟨row, erow, lrow⟩ := rowOf_total (c := c) (pop := s.pop) (k := 0) (by rw [e1, h2.pop]) (by subst hc; norm_num)
    have hd1 : c.nDim = 1 := by subst hc; rfl
    have hcross : crossover c badStream [8, 2] 0 { s with trial := row, pos := 10 + 1 } = .error .oob := by
      have hbin : c.bin = false := by subst hc; rfl
      have hprob : c.prob = fin 1 := by subst hc; rfl
      have hbase : c.base = .randToBest1 := by subst hc; rfl
      unfold crossover
      rw [hbin, hd1]
      simp only [Bool.false_eq_true, if_false, expLoop]
      have hu : (unif badStream 11 : XR) = fin 0 := by
        simp [unif, badStream, fin_div_of_ne]
      rw [if_pos (by rw [hu, hprob]; simp [randUniform])]
      have hel : elem c s.pop 8 0 = .error .oob := by
        unfold elem rdI
        rw [hd1, if_neg (by norm_num)]
        exact rd_oob (by rw [e1, hp]; norm_num)
      have hm : newValue c { s with trial := row, pos := 11 + 1 } [8, 2] 0 = .error .oob := by
        unfold newValue
        rw [hbase]
        obtain ⟨t, et⟩ := rdI_total (l := row) (i := 0) (by norm_num) (by rw [lrow, hd1]; norm_num)
        obtain ⟨b, eb⟩ := rdI_total (l := s.best) (i := 0) (by norm_num) (by rw [e2, hbl]; norm_num)
        have r0 : rd [(8 : Int), 2] 0 = .ok 8 := rfl
        have r1 : rd [(8 : Int), 2] 1 = .ok 2 := rfl
        simp only [et, eb, r0, r1, ok_bind, hel]
        rfl
      unfold mutate
      simp only [hm]
      rfl
    unfold oneCandidate calcTrial
    rw [hsel]
    simp only [ok_bind, hn, erow, hcross]
    rfl
  have hgen : ∀ s, s.pop = st.pop → s.best = st.best → s.pos = 8 → oneGeneration c badStream 5 energy s = .error .oob := by
    intro s e1 e2 e3
    exact forN_error (by subst hc; norm_num) (hcand s e1 e2 e3)
  unfold solve generationsLoop
  rw [hgen { st with bestE := lit (10 ^ 20) } rfl rfl hpos]
  rfl

/-- Two parameters, 16 members, binomial crossover with five partners, and a stream that runs through the members in turn. -/
example : ∃ st r, deSetup ⟨2, 16, .rand2, true, fin (1 / 2), fin (1 / 2), fin 0, [fin 0, fin 1], [fin 1, fin 4], XR.toInt⟩ none
    (fun p => p % 16 * 268435456 + 1) [] = .ok st ∧
    solve ⟨2, 16, .rand2, true, fin (1 / 2), fin (1 / 2), fin 0, [fin 0, fin 1], [fin 1, fin 4], XR.toInt⟩ (fun p => p % 16 * 268435456 + 1) 16
      (fun v => v.headD nan) (fun _ => false) 100 st = .ok r :=
  C26_runs_partial _ rfl ⟨rfl, rfl, by norm_num, by norm_num, by norm_num⟩ (by decide) _ (fun p => by show p % 16 * 268435456 + 1 < 2 ^ 32 - 1; omega) 16 (by
    intro p i hi
    refine ⟨(i + 16 - p % 16) % 16, Nat.mod_lt _ (by norm_num), ?_⟩
    have hi' : i < 16 := hi
    have e : (p + (i + 16 - p % 16) % 16) % 16 = i := by omega
    simp only [e]
    omega) none (by simp) [] 100 _ _

end Imfit
