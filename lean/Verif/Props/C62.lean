import Verif.Lemmas.DreamToy

/-!
# C62: the pairs of chains that make up a proposal

A proposal for chain `i` adds the difference of the positions of two other chains. Both chains exist and, with at least three chains, they differ from each other and
from `i`, whatever the generator draws.

Two things a Metropolis sampler needs are false of the code. With two chains the pair of the second chain is (0, 0): the difference is always zero, so this chain
moves by the tiny random term alone. And the pairs are not drawn symmetrically: for every number of chains from four on, chain 0 can draw the pair (n - 1, 1)
but never (1, n - 1), so a step is not as probable as the step back. With three chains the draw is symmetric.
-/

namespace Imfit

section
variable {σ α : Type} [FP α]

/-- With at least three chains: two different other chains. -/
theorem C62_pairs (c : DreamCfg α) (R : Rng σ α) (hR : Spec.GoodRng R) (hn : 2 < c.numChains) (i : Nat) (hi : i < c.numChains) (s : σ) :
    ∃ r1 r2 s', pickPair c R i s = .ok ((r1, r2), s') ∧ r1 < c.numChains ∧ r2 < c.numChains ∧ r1 ≠ i ∧ r2 ≠ i ∧ r1 ≠ r2 := by
  obtain ⟨r, e, h1, h2, h3, h4⟩ := pickPair_sat hR (by omega) hi s
  exact ⟨r.1.1, r.1.2, r.2, e, h1, h2, h3, (h4 hn).2, fun h => (h4 hn).1 h.symm⟩

end

example : let _ := toyFP
    ((pickPair toyCfg toyRng 1 1).toOption.map Prod.fst) = some (2, 0) := by
  decide +kernel

/-- The number of the equally probable draws `(u1, u2)` that give chain `i` the pair `(a, b)`. -/
def Spec.ways (n i : Nat) (a b : Nat) : Nat :=
  (((List.range (n - 1)).product (List.range (n - 1))).filter fun u => decide ((pairOf n i u.1 u.2).toOption = some (a, b))).length

/-- Three chains: each pair is drawn as often as the reversed pair. -/
theorem C62_three (i a b : Nat) (hi : i < 3) : Spec.ways 3 i a b = Spec.ways 3 i b a := by
  have hr : ∀ u1 < 2, ∀ u2 < 2, ∀ i < 3, ∃ p : Nat × Nat, p.1 < 3 ∧ p.2 < 3 ∧ (pairOf 3 i u1 u2).toOption = some p := by
    intro u1 h1 u2 h2 i hi
    obtain ⟨p, e, hp1, hp2, -⟩ := pairOf_sat (n := 3) (by omega) hi (show u1 < 3 - 1 by omega) (show u2 < 3 - 1 by omega)
    exact ⟨p, hp1, hp2, by rw [e]; rfl⟩
  by_cases hab : a < 3 ∧ b < 3
  · have : ∀ i < 3, ∀ a < 3, ∀ b < 3, Spec.ways 3 i a b = Spec.ways 3 i b a := by decide +kernel
    exact this i hi a hab.1 b hab.2
  · have z : ∀ a b, ¬(a < 3 ∧ b < 3) → Spec.ways 3 i a b = 0 := by
      intro a b hab
      unfold Spec.ways
      rw [List.length_eq_zero_iff, List.filter_eq_nil_iff]
      rintro ⟨u1, u2⟩ hu
      have h1 := (List.pair_mem_product.1 hu).1
      have h2 := (List.pair_mem_product.1 hu).2
      obtain ⟨p, hp1, hp2, e⟩ := hr u1 (by simpa using h1) u2 (by simpa using h2) i hi
      simp only [decide_eq_true_eq]
      intro h
      rw [e] at h
      cases h
      exact hab ⟨hp1, hp2⟩
    rw [z a b hab, z b a (fun h => hab ⟨h.2, h.1⟩)]

/-- Two chains: the second chain always gets the pair (0, 0), whose difference is zero. -/
theorem C62_two_false {σ α : Type} [FP α] (c : DreamCfg α) (R : Rng σ α) (hR : Spec.GoodRng R) (hn : c.numChains = 2) (state : List (Option (List α))) (t j : Nat)
    (s : σ) : ∃ s', pickPair c R 1 s = .ok ((0, 0), s') ∧ pairDiff c state t j [(0, 0)] = .ok 0 := by
  have hu : ∀ s, (R.uint 1 s).1 = 0 := fun s => by
    have := hR.uint 1 s (by omega)
    omega
  unfold pickPair drawInt
  rw [hn, if_neg (by omega), val_bind, if_neg (by omega), val_bind, show (2 : Nat) - 1 = 1 from rfl, hu, hu]
  exact ⟨_, rfl, rfl⟩

example : let _ := toyFP
    ((pickPair { toyCfg with numChains := 2 } toyRng 1 7).toOption.map Prod.fst) = some (0, 0) := by
  decide +kernel

/-- `advance` returns the first admissible chain; from a chain below `n - 1` that is admissible, the chain itself. -/
theorem advance_start {n i r1 f r2 : Nat} (h : ¬(r2 = r1 ∨ r2 = i)) : advance n i r1 (f + 1) r2 = .ok r2 := by
  unfold advance
  rw [if_neg h]

/-- From four chains on, chain 0 never draws the pair (1, n - 1), but it does draw (n - 1, 1). -/
theorem C62_symmetric_false (n : Nat) (hn : 4 ≤ n) : Spec.ways n 0 1 (n - 1) = 0 ∧ 0 < Spec.ways n 0 (n - 1) 1 := by
  constructor
  · unfold Spec.ways
    rw [List.length_eq_zero_iff, List.filter_eq_nil_iff]
    rintro ⟨u1, u2⟩ hu
    have h1 : u1 < n - 1 := by simpa using (List.pair_mem_product.1 hu).1
    have h2 : u2 < n - 1 := by simpa using (List.pair_mem_product.1 hu).2
    simp only [decide_eq_true_eq]
    intro h
    unfold pairOf at h
    rw [if_pos (Nat.zero_le _), if_pos (by omega)] at h
    by_cases hu1 : u1 = 0
    · subst hu1
      rcases Nat.lt_or_ge 1 u2 with h3 | h3
      · rw [show n + 1 = n + 1 from rfl, advance_start (by omega)] at h
        cases h
        omega
      · have ha : advance n 0 (0 + 1) (n + 1) u2 = .ok 2 := by
          obtain ⟨k, rfl⟩ : ∃ k, n = k + 4 := ⟨n - 4, by omega⟩
          have e1 : (1 + 1) % (k + 4) = 2 := Nat.mod_eq_of_lt (by omega)
          have e0 : (0 + 1) % (k + 4) = 1 := Nat.mod_eq_of_lt (by omega)
          have a2 : ∀ f, advance (k + 4) 0 1 (f + 1) 2 = .ok 2 := fun f => advance_start (by omega)
          have a1 : ∀ f, advance (k + 4) 0 1 (f + 2) 1 = .ok 2 := fun f => by
            unfold advance
            rw [if_pos (by omega), e1]
            exact a2 f
          obtain rfl | rfl : u2 = 0 ∨ u2 = 1 := by omega
          · show advance (k + 4) 0 1 ((k + 4) + 1) 0 = _
            unfold advance
            rw [if_pos (by omega), e0]
            exact a1 (k + 2)
          · exact a1 (k + 3)
        rw [ha] at h
        have h' : some (1, 2) = some (1, n - 1) := h
        simp only [Option.some.injEq, Prod.mk.injEq] at h'
        omega
    · cases hx : advance n 0 (u1 + 1) (n + 1) u2 with
      | error e =>
        rw [hx] at h
        cases h
      | ok r =>
        rw [hx] at h
        cases h
        omega
  · unfold Spec.ways
    rw [List.length_pos_iff]
    intro hnil
    rw [List.filter_eq_nil_iff] at hnil
    have := hnil (n - 2, 1) (List.pair_mem_product.2 ⟨by simp; omega, by simp; omega⟩)
    apply this
    simp only [decide_eq_true_eq]
    unfold pairOf
    rw [if_pos (Nat.zero_le _), if_pos (by omega), advance_start (by omega)]
    show some (n - 2 + 1, 1) = _
    rw [show n - 2 + 1 = n - 1 by omega]

example : Spec.ways 5 0 1 4 = 0 ∧ Spec.ways 5 0 4 1 = 2 := by decide +kernel

end Imfit
