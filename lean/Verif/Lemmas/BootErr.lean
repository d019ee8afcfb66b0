import Verif.Model.BootErr
import Verif.Lemmas.Stats

/-!
# Closed forms of the bootstrap loops
-/

namespace Imfit

variable {α : Type} [FP α]

theorem rd_tab {β : Type} {n z : Nat} (g : Nat → β) (h : z < n) : rd (tab n g) z = .ok (g z) := by
  rw [rd_ok (by rw [tab_length]; exact h)]; simp [tab]

theorem wr_tab {β : Type} {n z : Nat} (g : Nat → β) (x : β) (h : z < n) :
    wr (tab n g) z x = .ok (tab n fun i => if i = z then x else g i) := by
  rw [wr_ok (by rw [tab_length]; exact h)]
  congr 1
  apply List.ext_getElem
  · simp [tab]
  · intro i h1 h2
    rw [List.getElem_set]
    simp only [tab, List.getElem_map, List.getElem_range]
    by_cases hi : i = z
    · simp [hi]
    · have : ¬ z = i := fun h => hi h.symm
      simp [hi, this]

theorem getElem_tab {β : Type} {n z : Nat} (g : Nat → β) (h : z < (tab n g).length) : (tab n g)[z] = g z := by simp [tab]

/-- The iterations among the first `k` whose fit succeeded. -/
def okIters (st : Nat → Int) (k : Nat) : List Nat := (List.range k).filter fun j => decide (st j > 0)

theorem okIters_succ (st : Nat → Int) (k : Nat) :
    okIters st (k + 1) = okIters st k ++ (if st k > 0 then [k] else []) := by
  unfold okIters
  rw [List.range_succ, List.filter_append]
  congr 1
  by_cases h : st k > 0 <;> simp [h]

theorem okIters_length_le (st : Nat → Int) (k : Nat) : (okIters st k).length ≤ k := by
  unfold okIters
  exact (List.length_filter_le _ _).trans (by simp)

theorem okIters_all (st : Nat → Int) (k : Nat) (h : ∀ j, j < k → st j > 0) : okIters st k = List.range k := by
  unfold okIters
  rw [List.filter_eq_self]
  intro j hj
  simpa using h j (List.mem_range.1 hj)

/-- Row `i` after some iterations: the successful values in order, zeros behind. -/
def resRow (st : Nat → Int) (P : Nat → Nat → α) (O : Nat → α) (nIter k i : Nat) : List α :=
  (okIters st k).map (fun j => P j i + O i) ++ List.replicate (nIter - (okIters st k).length) 0

theorem rowOf_length (st : Nat → Int) (P : Nat → Nat → α) (O : Nat → α) (nIter k i : Nat) (hk : k ≤ nIter) :
    (resRow st P O nIter k i).length = nIter := by
  have := okIters_length_le st k
  simp [resRow]; omega

theorem rowOf_step (st : Nat → Int) (P : Nat → Nat → α) (O : Nat → α) (nIter k i : Nat) (hk : k < nIter) (h : st k > 0) :
    wr (resRow st P O nIter k i) (okIters st k).length (P k i + O i) = .ok (resRow st P O nIter (k + 1) i) := by
  have hl := okIters_length_le st k
  rw [wr_ok (by rw [rowOf_length _ _ _ _ _ _ hk.le]; omega)]
  congr 1
  unfold resRow
  rw [okIters_succ, if_pos h]
  have e : nIter - (okIters st k).length = (nIter - (okIters st k ++ [k]).length) + 1 := by simp; omega
  rw [List.set_append_right _ _ (by simp), e, List.replicate_succ]
  simp

theorem storeRow_ok (st : Nat → Int) (P : Nat → Nat → α) (O : Nat → α) (nParams nIter k : Nat) (hk : k < nIter) (h : st k > 0) :
    storeRow (tab nParams (resRow st P O nIter k)) (tab nParams (P k)) (tab nParams O) nParams (okIters st k).length =
      .ok (tab nParams (resRow st P O nIter (k + 1))) := by
  unfold storeRow
  rw [forN_ok nParams _ _ (fun m => tab nParams fun i => if i < m then resRow st P O nIter (k + 1) i else resRow st P O nIter k i)]
  · congr 1
    exact tab_congr fun z hz => by simp [hz]
  · simp
  · intro m hm
    rw [rd_tab _ hm, rd_tab _ hm, rd_tab _ hm]
    simp only [ok_bind, lt_irrefl, if_false, rowOf_step st P O nIter k m hk h]
    rw [wr_tab _ _ hm]
    congr 1
    apply tab_congr
    intro z hz
    by_cases h1 : z = m
    · subst h1; simp
    · simp only [h1, if_false]
      have : z < m + 1 ↔ z < m := by omega
      simp [this]

/-- The bootstrap loop: the rows hold the successful results in order, and the returned number is how many there are. -/
theorem bootstrapBase_ok (st : Nat → Int) (P : Nat → Nat → α) (O : Nat → α) (nParams nIter : Nat) :
    bootstrapBase (fun k => ⟨st k, tab nParams (P k)⟩) (tab nParams O) nParams nIter =
      .ok (tab nParams (resRow st P O nIter nIter), (okIters st nIter).length) := by
  unfold bootstrapBase
  rw [forN_ok nIter _ _ (fun k => (tab nParams (resRow st P O nIter k), (okIters st k).length))]
  · rw [replicate_eq_tab]
    simp only [Prod.mk.injEq]
    refine ⟨tab_congr fun z _ => ?_, by simp [okIters]⟩
    simp [resRow, okIters]
  · intro k hk
    unfold bootIter
    by_cases h : st k > 0
    · simp only [h, if_true, storeRow_ok st P O nParams nIter k hk h, ok_bind, okIters_succ]
      simp
    · simp only [h, if_false]
      have e : okIters st (k + 1) = okIters st k := by simp [okIters_succ, h]
      have e2 : resRow st P O nIter (k + 1) = resRow st P O nIter k := by funext i; simp [resRow, e]
      rw [e, e2]

/-- The flat version: entry `m * nParams + j` is parameter `j` of the `m`-th success; everything behind is left as it was. -/
def flatOf (st : Nat → Int) (P : Nat → Nat → α) (O : Nat → α) (nParams : Nat) (out : List α) (k : Nat) : List α :=
  (okIters st k).flatMap (fun j => tab nParams fun i => P j i + O i) ++ out.drop ((okIters st k).length * nParams)

theorem flatPart_length (P : Nat → Nat → α) (O : Nat → α) (nParams : Nat) (l : List Nat) :
    (l.flatMap (fun j => tab nParams fun i => P j i + O i)).length = l.length * nParams := by
  induction l with
  | nil => simp
  | cons a t ih => rw [List.flatMap_cons, List.length_append, ih, tab_length, List.length_cons]; ring

theorem storeFlat_ok (st : Nat → Int) (P : Nat → Nat → α) (O : Nat → α) (nParams nIter : Nat) (out : List α) (hout : nIter * nParams ≤ out.length)
    (k : Nat) (hk : k < nIter) (h : st k > 0) :
    storeFlat (flatOf st P O nParams out k) (tab nParams (P k)) (tab nParams O) nParams (okIters st k).length =
      .ok (flatOf st P O nParams out (k + 1)) := by
  unfold storeFlat
  set A := (okIters st k).flatMap (fun j => tab nParams fun i => P j i + O i) with hA
  set s := (okIters st k).length with hs
  have hAl : A.length = s * nParams := flatPart_length P O nParams _
  have hsk : s + 1 ≤ nIter := by have := okIters_length_le st k; omega
  have hroom : s * nParams + nParams ≤ out.length := by
    have : (s + 1) * nParams ≤ nIter * nParams := Nat.mul_le_mul_right _ hsk
    rw [Nat.add_mul, one_mul] at this
    omega
  rw [forN_ok nParams _ _ (fun m => A ++ tab m (fun i => P k i + O i) ++ out.drop (s * nParams + m))]
  · congr 1
    unfold flatOf
    rw [okIters_succ, if_pos h, List.flatMap_append, ← hA, List.length_append]
    simp only [List.flatMap_cons, List.flatMap_nil, List.append_nil, List.length_singleton, ← hs, Nat.add_mul, one_mul]
  · simp only [flatOf, ← hs, ← hA, Nat.add_zero]
    simp [tab]
  · intro m hm
    rw [rd_tab _ hm, rd_tab _ hm]
    simp only [ok_bind]
    have hlen : s * nParams + m < (A ++ tab m (fun i => P k i + O i) ++ out.drop (s * nParams + m)).length := by
      rw [List.length_append, List.length_append, hAl, tab_length, List.length_drop]; omega
    rw [wr_ok hlen]
    congr 1
    rw [List.set_append_right _ _ (by rw [List.length_append, hAl, tab_length])]
    have e0 : s * nParams + m - (A ++ tab m fun i => P k i + O i).length = 0 := by rw [List.length_append, hAl, tab_length]; omega
    rw [e0]
    have e1 : out.drop (s * nParams + m) = out[s * nParams + m]'(by omega) :: out.drop (s * nParams + (m + 1)) := by
      rw [← Nat.add_assoc]; exact List.drop_eq_getElem_cons (by omega)
    rw [e1, List.set_cons_zero]
    have e2 : (tab (m + 1) fun i => P k i + O i) = (tab m fun i => P k i + O i) ++ [P k m + O m] := by
      simp [tab, List.range_succ]
    rw [e2]
    simp

theorem bootstrapFlat_ok (st : Nat → Int) (P : Nat → Nat → α) (O : Nat → α) (nParams nIter : Nat) (out : List α)
    (hout : nIter * nParams ≤ out.length) :
    bootstrapFlat (fun k => ⟨st k, tab nParams (P k)⟩) (tab nParams O) nParams nIter out =
      .ok (flatOf st P O nParams out nIter, (okIters st nIter).length) := by
  unfold bootstrapFlat
  rw [forN_ok nIter _ _ (fun k => (flatOf st P O nParams out k, (okIters st k).length))]
  · simp [flatOf, okIters]
  · intro k hk
    unfold flatIter
    by_cases h : st k > 0
    · simp only [h, if_true, storeFlat_ok st P O nParams nIter out hout k hk h, ok_bind, okIters_succ]
      simp
    · simp only [h, if_false]
      simp [flatOf, okIters_succ, h]

end Imfit
