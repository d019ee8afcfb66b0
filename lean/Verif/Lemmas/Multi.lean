import Verif.Spec.Multi
import Verif.Props.C13

/-!
# Lemmas on multi-image parameter vectors
-/

namespace Imfit

open Spec

variable {α : Type}

theorem rd_append_add {β : Type} (A l : List β) (i : Nat) : rd (A ++ l) (A.length + i) = rd l i := by
  unfold rd
  rw [List.getElem?_append_right (by omega)]
  simp

/-- Element-by-element copy of one part of an array into a part of another one. -/
theorem copy_loop (A G B P X S : List α) (h : X.length = G.length) :
    forN G.length (P ++ X ++ S) (fun i o => do
      let v ← rd (A ++ G ++ B) (A.length + i)
      wr o (P.length + i) v) = .ok (P ++ G ++ S) := by
  rw [forN_ok _ _ _ (fun i => P ++ (G.take i ++ X.drop i) ++ S)]
  · simp [← h]
  · simp
  · intro z hz
    rw [rd_ok (by simp; omega)]
    simp only [ok_bind]
    rw [wr_ok (by simp; omega)]
    congr 1
    have hg : (A ++ G ++ B)[A.length + z]'(by simp; omega) = G[z] := by
      rw [List.getElem_append_left (by simp; omega), List.getElem_append_right (by omega)]
      congr 1
      omega
    rw [hg, List.append_assoc, List.append_assoc, List.append_assoc, List.set_append_right _ _ (by omega)]
    rw [show P.length + z - P.length = z by omega]
    congr 1
    rw [List.append_assoc, List.set_append_right _ _ (by simp)]
    have hl : (G.take z).length = z := by simp; omega
    rw [hl, Nat.sub_self, List.set_append_left _ _ (by simp; omega), List.take_add_one]
    rw [List.getElem?_eq_getElem hz]
    simp only [Option.toList_some, List.append_assoc]
    congr 1
    rw [← List.append_assoc]
    congr 1
    apply List.ext_getElem
    · simp; omega
    · intro i h1 h2
      simp only [List.length_set, List.length_drop] at h1
      rw [List.getElem_set]
      by_cases hi : 0 = i
      · subst hi; simp
      · rw [if_neg hi]
        simp only [List.singleton_append]
        rw [List.getElem_cons, dif_neg (by omega)]
        simp only [List.getElem_drop]
        congr 1
        omega

/-- `copy_loop` with offsets given as numbers. -/
theorem copy_loop' {params out : List α} (A G B P X S : List α) (n a b : Nat) (hp : params = A ++ G ++ B) (ho : out = P ++ X ++ S)
    (h : X.length = G.length) (hn : n = G.length) (ha : a = A.length) (hb : b = P.length) :
    forN n out (fun i o => do
      let v ← rd params (a + i)
      wr o (b + i) v) = .ok (P ++ G ++ S) := by
  subst hp ho hn ha hb; exact copy_loop A G B P X S h

theorem storeAt_eq (P X S piece : List α) (h : X.length = piece.length) :
    storeAt (P ++ X ++ S) P.length piece = .ok (P ++ piece ++ S) := by
  have := copy_loop [] piece [] P X S h
  simpa [storeAt] using this

/-- Functions that do not start a set only move the offset. -/
theorem placeSets_skip [FP α] [FM α] (h : PHolder) (params : List α) (im : ImgPar α) (xr yr : α) (ns : List Nat) (more : List (Nat × Bool))
    (off : Nat) (out : List α) :
    placeSets h params im xr yr (ns.map (·, false) ++ more) off out = placeSets h params im xr yr more (off + ns.sum) out := by
  induction ns generalizing off with
  | nil => rfl
  | cons n ns ih =>
    simp only [List.map_cons, List.cons_append, placeSets, placeSet, Bool.false_eq_true, if_false, ok_bind]
    rw [ih, List.sum_cons, Nat.add_assoc]

/-- Where a further set is placed. -/
def placeOf [FP α] [FM α] (im : ImgPar α) (xr yr : α) (s : SetVals α) : α × α :=
  let p := calculateOffset xr yr s.x0 s.y0 im.x0 im.y0 im.pixScale im.rotation
  (p.1, p.2.1)

theorem placeSets_eq [FP α] [FM α] (h : PHolder) (im : ImgPar α) (xr yr : α) (sets : List (SetVals α))
    (hs : ∀ s ∈ sets, s.fns ≠ [] ∧ ∀ f ∈ s.fns, f.2.length = f.1.nParams) (A Q B Q' C : List α) (hA : h.nImageParams = A.length)
    (hQ : Q'.length = Q.length) :
    placeSets h (A ++ (Q ++ paramVector sets) ++ B) im xr yr (flagged (sizesOf sets)) Q.length (Q' ++ paramVector sets ++ C) =
      .ok (Q' ++ paramVector (sets.map fun s => s.at (placeOf im xr yr s)) ++ C) := by
  induction sets generalizing Q Q' with
  | nil => rfl
  | cons s rest ih =>
    obtain ⟨x0, y0, fns⟩ := s
    cases fns with
    | nil => exact absurd rfl (hs ⟨x0, y0, []⟩ (by simp)).1
    | cons f fns =>
      have hr := ih (fun t ht => hs t (by simp [ht]))
      have hl := (hs ⟨x0, y0, f :: fns⟩ (by simp)).2
      simp only [sizesOf, List.map_cons, flagged, List.cons_append, placeSets, placeSet, if_true]
      have e1 : rd (A ++ (Q ++ paramVector (⟨x0, y0, f :: fns⟩ :: rest)) ++ B) (h.nImageParams + Q.length) = .ok x0 := by
        rw [hA, List.append_assoc, rd_append_add, List.append_assoc, ← Nat.add_zero Q.length, rd_append_add]
        simp [paramVector, rd]
      have e2 : rd (A ++ (Q ++ paramVector (⟨x0, y0, f :: fns⟩ :: rest)) ++ B) (h.nImageParams + Q.length + 1) = .ok y0 := by
        rw [hA, Nat.add_assoc, List.append_assoc, rd_append_add, List.append_assoc, rd_append_add]
        simp [paramVector, rd]
      rw [e1, e2]
      simp only [ok_bind]
      set p := placeOf im xr yr ⟨x0, y0, f :: fns⟩ with hp
      have hpe : (calculateOffset xr yr x0 y0 im.x0 im.y0 im.pixScale im.rotation).1 = p.1 := rfl
      have hpe2 : (calculateOffset xr yr x0 y0 im.x0 im.y0 im.pixScale im.rotation).2.1 = p.2 := rfl
      rw [hpe, hpe2]
      have hv : paramVector (⟨x0, y0, f :: fns⟩ :: rest) = x0 :: y0 :: ((f :: fns).flatMap (·.2) ++ paramVector rest) := by
        simp [paramVector]
      have w1 : wr (Q' ++ paramVector (⟨x0, y0, f :: fns⟩ :: rest) ++ C) Q.length p.1 =
          .ok (Q' ++ (p.1 :: y0 :: ((f :: fns).flatMap (·.2) ++ paramVector rest)) ++ C) := by
        rw [wr_ok (by simp [hv]; omega), hv, ← hQ, List.append_assoc, List.set_append_right _ _ le_rfl]
        simp
      have w2 : wr (Q' ++ (p.1 :: y0 :: ((f :: fns).flatMap (·.2) ++ paramVector rest)) ++ C) (Q.length + 1) p.2 =
          .ok (Q' ++ (p.1 :: p.2 :: ((f :: fns).flatMap (·.2) ++ paramVector rest)) ++ C) := by
        rw [wr_ok (by simp; omega), ← hQ, List.append_assoc, List.set_append_right _ _ (by omega)]
        simp
      rw [w1, ok_bind, w2, ok_bind]
      have hskip := placeSets_skip h (A ++ (Q ++ paramVector (⟨x0, y0, f :: fns⟩ :: rest)) ++ B) im xr yr (fns.map fun g => g.1.nParams)
        (flagged (sizesOf rest)) (Q.length + 2 + f.1.nParams) (Q' ++ (p.1 :: p.2 :: ((f :: fns).flatMap (·.2) ++ paramVector rest)) ++ C)
      simp only [sizesOf, List.map_map, Function.comp_def] at hskip ⊢
      rw [hskip]
      have hsum : ((f :: fns).flatMap (·.2)).length = f.1.nParams + (fns.map fun g => g.1.nParams).sum := by
        rw [List.length_flatMap, ← List.sum_cons, ← List.map_cons (f := fun g : FnDesc α × List α => g.1.nParams)]
        congr 1
        exact List.map_congr_left hl
      have hq2 := hr (Q ++ (x0 :: y0 :: (f :: fns).flatMap (·.2))) (Q' ++ (p.1 :: p.2 :: (f :: fns).flatMap (·.2)))
        (by simp only [List.length_append, List.length_cons, hQ])
      have el : (Q ++ (x0 :: y0 :: (f :: fns).flatMap (·.2))).length = Q.length + 2 + f.1.nParams + (fns.map fun g => g.1.nParams).sum := by
        simp only [List.length_append, List.length_cons, hsum]; omega
      rw [el] at hq2
      have ep : A ++ (Q ++ (x0 :: y0 :: (f :: fns).flatMap (·.2)) ++ paramVector rest) ++ B =
          A ++ (Q ++ paramVector (⟨x0, y0, f :: fns⟩ :: rest)) ++ B := by rw [hv]; simp
      have eo : Q' ++ (p.1 :: p.2 :: (f :: fns).flatMap (·.2)) ++ paramVector rest ++ C =
          Q' ++ (p.1 :: p.2 :: ((f :: fns).flatMap (·.2) ++ paramVector rest)) ++ C := by simp
      rw [ep, eo] at hq2
      simp only [sizesOf] at hq2
      rw [hq2]
      simp [paramVector, SetVals.at, hp]

end Imfit
