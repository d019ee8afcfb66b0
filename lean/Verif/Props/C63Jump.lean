import Verif.Props.C63

/-!
# C63, the jump distances

The distance credited to a crossover number is the squared distance between the new and the old state of the chains that moved with that number, each parameter in
units of its scatter between the chains; locked parameters and parameters without scatter do not count.
-/

namespace Imfit.Spec

/-- Squared distance between `x` and `y` in units of `sd`. -/
noncomputable def jump2 (n : Nat) (lk : Nat → Bool) (sd x y : Nat → ℝ) : ℝ :=
  ((List.range n).map fun j => if lk j = false ∧ 0 < sd j then ((x j - y j) / sd j) ^ 2 else 0).sum

/-- Sum of the squared distances over the chains that moved with the crossover number `k`. -/
noncomputable def credited (n N : Nat) (lk : Nat → Bool) (sd : Nat → ℝ) (acc : Nat → Bool) (m : Nat → Nat) (x y : Nat → Nat → ℝ) (k : Nat) : ℝ :=
  ((List.range N).map fun i => if acc i = true ∧ m i = k then jump2 n lk sd (x i) (y i) else 0).sum

end Imfit.Spec

namespace Imfit

open XR

variable {σ : Type}

theorem normX_fin (c : DreamCfg XR) (lk : Nat → Bool) (sd : Nat → ℝ) (state : List (Option (List XR))) (t i : Nat) (x y : Nat → ℝ) (hl : c.lock = tab c.nvar lk)
    (hx : state[t * c.numChains + i]? = some (some (tab c.nvar fun j => fin (x j))))
    (hy : state[(t - 1) * c.numChains + i]? = some (some (tab c.nvar fun j => fin (y j)))) :
    normX c (tab c.nvar fun j => fin (sd j)) t i state = .ok (fin (Spec.jump2 c.nvar lk sd x y)) := by
  unfold normX
  rw [forN_ok c.nvar _ _ (fun z => fin (Spec.jump2 z lk sd x y))]
  · simp [Spec.jump2]
  · intro z hz
    have hs : Spec.jump2 (z + 1) lk sd x y = Spec.jump2 z lk sd x y + if lk z = false ∧ 0 < sd z then ((x z - y z) / sd z) ^ 2 else 0 := by
      simp [Spec.jump2, List.range_succ]
    rw [hl, rd_tab _ hz, val_bind, rd_tab _ hz, val_bind, hs, zero_def, flt_fin]
    by_cases hc : lk z = false ∧ 0 < sd z
    · rw [if_pos (by simpa using hc), if_pos hc]
      unfold getRow
      rw [rdU_sat hx, val_bind, rd_tab _ hz, val_bind, rdU_sat hy, val_bind, rd_tab _ hz, val_bind, fin_sub, fin_div_of_ne hc.2.ne', fin_mul, fin_add, sq]
    · rw [if_neg (by simpa using hc), if_neg hc, add_zero]

/-- C63: one generation of the burn-in phase adds to the total of each crossover number the squared normalised distances of the chains that moved with it. -/
theorem C63_jumps (c : DreamCfg XR) (G : Gsl XR) (st : DreamSt σ XR) (t : Nat) (lk acc : Nat → Bool) (m : Nat → Nat) (sd D : Nat → ℝ) (x y : Nat → Nat → ℝ)
    (hb : st.inBurn = true) (hu : c.pCRupdate = true) (hl : c.lock = tab c.nvar lk) (ha : st.accept = tab c.numChains acc)
    (hd : st.deltaTot = tab c.nCR fun k => fin (D k)) (hm : ∀ i, i < c.numChains → st.crm[i * c.loopSteps + st.gen]? = some (some (m i + 1)) ∧ m i < c.nCR)
    (hx : ∀ i, i < c.numChains → st.state[t * c.numChains + i]? = some (some (tab c.nvar fun j => fin (x i j))))
    (hy : ∀ i, i < c.numChains → st.state[(t - 1) * c.numChains + i]? = some (some (tab c.nvar fun j => fin (y i j))))
    (hsd : ∀ j, j < c.nvar → G.sd (tab c.numChains fun i => fin (x i j)) = fin (sd j)) :
    jumpStats c G t st = .ok { st with deltaTot := tab c.nCR fun k => fin (D k + Spec.credited c.nvar c.numChains lk sd acc m x y k) } := by
  unfold jumpStats
  rw [if_pos (by simp [hb, hu]), loopMap_ok c.nvar _ (fun j => fin (sd j)) ?_, val_bind]
  · rw [forN_ok c.numChains st _ (fun z => { st with deltaTot := tab c.nCR fun k => fin (D k + Spec.credited c.nvar z lk sd acc m x y k) })]
    · simp [Spec.credited, hd.symm]
    · intro z hz
      have hs : ∀ k, Spec.credited c.nvar (z + 1) lk sd acc m x y k = Spec.credited c.nvar z lk sd acc m x y k +
          if acc z = true ∧ m z = k then Spec.jump2 c.nvar lk sd (x z) (y z) else 0 := by
        intro k
        simp [Spec.credited, List.range_succ]
      unfold addDelta
      rw [ha, rd_tab _ hz, val_bind]
      cases hacc : acc z with
      | false =>
        rw [if_neg (by simp)]
        congr 3
        funext k
        rw [hs k, hacc, if_neg (by simp), add_zero]
      | true =>
        rw [if_pos rfl]
        have hN := normX_fin c lk sd st.state t z (x z) (y z) hl (hx z hz) (hy z hz)
        have hm1 : ((m z + 1 : Nat) : Int) - 1 = (m z : Int) := by omega
        show (normX c (tab c.nvar fun j => fin (sd j)) t z st.state >>= _) = _
        rw [hN, val_bind, rdU_sat (hm z hz).1, val_bind, hm1]
        unfold rdI wrI
        rw [if_neg (by omega), Int.toNat_natCast, rd_tab _ (hm z hz).2, val_bind, if_neg (by omega), wr_tab _ _ (hm z hz).2, val_bind]
        congr 3
        funext k
        rw [hs k, hacc]
        by_cases hk : k = m z
        · subst hk
          simp [fin_add, add_assoc]
        · rw [if_neg hk, if_neg (by rintro ⟨-, h⟩; exact hk h.symm), add_zero]
  · intro j hj
    unfold column
    rw [loopMap_ok c.numChains _ (fun i => fin (x i j)) (fun i hi => by unfold getRow; rw [rdU_sat (hx i hi), val_bind, rd_tab _ hj]), val_bind]
    exact congrArg Except.ok (hsd j hj)

/-- Two chains and two parameters with scatters 2 and 1: the first chain moved by (2, 3), the second did not move. -/
example : Spec.credited 2 2 (fun _ => false) (fun j => if j = 0 then 2 else 1) (fun i => i == 0) (fun _ => 0) (fun _ j => if j = 0 then 2 else 3) (fun _ _ => 0) 0 = 10 := by
  norm_num [Spec.credited, Spec.jump2, List.range_succ]

end Imfit
