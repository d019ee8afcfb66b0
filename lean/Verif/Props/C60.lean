import Verif.Lemmas.DreamToy

/-!
# C60: the files written by imfit-mcmc hold the history of the chains

The lines written for a generation are the positions (plus the image offsets) and the likelihoods that the chains have in memory for that generation; generations
are written in order, without gaps or repetitions.

All generations are written if the run uses them all. The claim that the files hold the whole history is false of the code when the run ends because of
convergence: the last generation is complete in memory and is never written.
-/

namespace Imfit

section
variable {σ α : Type} [FP α]

/-- `out` holds the generations 0 ... `m - 1` of the history. -/
def Spec.Recorded (c : DreamCfg α) (F : List α → α) (off : List α) (m : Nat) (st : DreamSt σ α) : Prop :=
  st.out.length = m ∧ ∀ k, k < m → ∃ lines, st.out[k]? = some (k, lines) ∧ lines.length = c.numChains ∧
    ∀ i, i < c.numChains → ∃ row flag, st.state[k * c.numChains + i]? = some (some row) ∧ lines[i]? = some (List.zipWith (· + ·) row off, F row, flag)

theorem OutOk.recorded {c : DreamCfg α} {F : List α → α} {off : List α} {m : Nat} {st : DreamSt σ α} (h : OutOk c F off 0 m st) : Spec.Recorded c F off m st := by
  have hm : st.out.length = m := by have := h.1; omega
  refine ⟨hm, fun k hk => ?_⟩
  have hk' : k < st.out.length := by omega
  obtain ⟨e, he⟩ : ∃ e, st.out[k]? = some e := ⟨_, List.getElem?_eq_getElem hk'⟩
  obtain ⟨h1, h2, h3⟩ := h.2 k e he
  have h1' : e.1 = k := by omega
  refine ⟨e.2, by rw [he, ← h1'], h2, fun i hi => ?_⟩
  obtain ⟨x, hx⟩ : ∃ x, e.2[i]? = some x := ⟨_, List.getElem?_eq_getElem (by omega)⟩
  obtain ⟨row, hr, hx1, hx2⟩ := h3 i x hx
  refine ⟨row, x.2.2, by rw [← hr, Nat.zero_add], ?_⟩
  rw [hx, ← hx1, ← hx2]

/-- A run that uses all generations has written all of them. -/
theorem C60_all_written (hL : CmpLaws α) (c : DreamCfg α) (hc : DreamOk c) (h2 : 2 ≤ c.numChains) (hm : 0 < c.maxEvals) (ha : c.append = false) (R : Rng σ α)
    (hR : Spec.GoodRng R) (G : Gsl α) (hG : Spec.GoodGsl G) (F : List α → α) (off : List α) (files : List (Option (List (ChainLine α)))) (fuel : Nat) (s : σ)
    (st : DreamSt σ α) (h : dream c R G F off files fuel s = .ok (st, .maxIterations)) : Spec.Recorded c F off c.maxEvals st := by
  obtain ⟨m, -, -, -, h4⟩ := (dream_may (V := fun _ => True) hc h2 hR hG hL (by constructor <;> intros <;> trivial) hm ha files fuel s).get h
  rcases h4 with ⟨-, e, h4⟩ | h4
  · rw [← e]
    exact h4.recorded
  · cases h4.1

/-- A run that ends because of convergence has done some number `m` of generations and written the first `m - 1` of them. What is missing: generation `m - 1`. -/
theorem C60_written_partial (hL : CmpLaws α) (c : DreamCfg α) (hc : DreamOk c) (h2 : 2 ≤ c.numChains) (hm : 0 < c.maxEvals) (ha : c.append = false) (R : Rng σ α)
    (hR : Spec.GoodRng R) (G : Gsl α) (hG : Spec.GoodGsl G) (F : List α → α) (off : List α) (files : List (Option (List (ChainLine α)))) (fuel : Nat) (s : σ)
    (st : DreamSt σ α) (h : dream c R G F off files fuel s = .ok (st, .converged)) :
    ∃ m, 0 < m ∧ m ≤ c.maxEvals ∧ Spec.Recorded c F off (m - 1) st ∧
      ∀ i, i < c.numChains → ∃ row, st.state[(m - 1) * c.numChains + i]? = some (some row) ∧ st.lik[(m - 1) * c.numChains + i]? = some (some (F row)) := by
  obtain ⟨m, h0, h1, hi, h4⟩ := (dream_may (V := fun _ => True) hc h2 hR hG hL (by constructor <;> intros <;> trivial) hm ha files fuel s).get h
  rcases h4 with h4 | ⟨-, h4⟩
  · cases h4.1
  · refine ⟨m, h0, h1, h4.recorded, fun i hi' => ?_⟩
    obtain ⟨row, -, e1, e2⟩ := hi.hist _ (cellIdx_lt hi' (show m - 1 < m by omega))
    exact ⟨row, e1, e2⟩

/-- The integer version: five generations of three chains. -/
example : let _ := toyFP
    ((dream toyCfg toyRng toyGsl toyLik [100, 0] [] 3 0).toOption.map fun r => (r.1.out.map Prod.fst, (r.1.out.map Prod.snd).headD [])) =
      some ([0, 1, 2, 3, 4], [([100, 5], -16, false), ([103, 5], -1, false), ([106, 5], -4, false)]) := by
  decide +kernel

end

/-- The whole history is not written: a run that ends because of convergence after generations 0 and 1, both of which are in memory, while only generation 0 is in the
files. -/
theorem C60_last_false : let _ := toyFP
    ((dream { toyCfg with loopSteps := 1, gelmanEvals := 1 } toyRng toyGsl toyLik [0, 0] [] 3 0).toOption.map fun r =>
      (r.2, r.1.state.map Option.isSome, r.1.out.map Prod.fst)) =
      some (.converged, [true, true, true, true, true, true, false, false, false, false, false, false, false, false, false], [0]) := by
  decide +kernel

end Imfit
