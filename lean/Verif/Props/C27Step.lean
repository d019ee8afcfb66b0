import Verif.Props.C27

/-!
# C27, continued: the limits do not hinder a step that respects them

The steps are kept within the limits (`C27_partial`). Here: no more than that is done. A step that ends within the limits, and not closer to one than the margin used
for putting values onto it, is taken in full; a component that would leave a limit on which the parameter already is, is dropped without effect on the others.
-/

namespace Imfit

open XR

/-- How close to a limit a value is put onto it. -/
noncomputable def margin (b : ℝ) : ℝ := if b = 0 then ((MACHEP0 : ℚ) : ℝ) else |b| * ((MACHEP0 : ℚ) : ℝ)

/-- The step would leave a limit on which the parameter is. -/
def Blocked (l : Spec.Limit) (x w : ℝ) : Prop := (l.lower = some x ∧ w < 0) ∨ (l.upper = some x ∧ 0 < w)

open Classical in
/-- Where the step should lead. -/
noncomputable def target (l : Spec.Limit) (x w : ℝ) : ℝ := if Blocked l x w then x else x + w

/-- On a limit or at least the margin inside it. -/
def Clear (l : Spec.Limit) (t : ℝ) : Prop := (∀ a, l.lower = some a → t = a ∨ a + margin a < t) ∧ ∀ b, l.upper = some b → t = b ∨ t < b - margin b

theorem margin_pos (b : ℝ) : 0 < margin b := by
  have hm := machep_pos
  unfold margin
  split
  · exact hm
  · rename_i h; exact mul_pos (abs_pos.2 h) hm

theorem upperEdge_eq (u : ℝ) : upperEdge (fin u) = fin (u - margin u) := by
  unfold upperEdge feq margin
  simp only [zero_def, one_def, lit_def, fle_fin]
  rcases lt_trichotomy u 0 with h | h | h
  · simp [not_le.2 h, h.ne, abs_of_neg h]; ring
  · subst h; simp
  · simp [not_le.2 h, h.le, h.ne', abs_of_pos h]; ring

theorem lowerEdge_eq (u : ℝ) : lowerEdge (fin u) = fin (u + margin u) := by
  unfold lowerEdge feq margin
  simp only [zero_def, one_def, lit_def, fle_fin]
  rcases lt_trichotomy u 0 with h | h | h
  · simp [not_le.2 h, h.ne, abs_of_neg h]; ring
  · subst h; simp
  · simp [not_le.2 h, h.le, h.ne', abs_of_pos h]; ring

theorem snap_clear {l : Spec.Limit} {q : FreeLim XR} (hd : Describes l q) {t : ℝ} (ht : Clear l t) : snap q (fin t) = fin t := by
  have hu : (if q.qu && fle (upperEdge q.ul) (fin t) then q.ul else fin t) = fin t := by
    cases h : l.upper with
    | none => simp [hd.qu, h]
    | some b =>
      rw [hd.ul b h, upperEdge_eq, fle_fin]
      rcases ht.2 b h with e | e
      · subst e; simp
      · rw [if_neg]
        simp [not_le.2 e]
  have hl : (if q.ql && fle (fin t) (lowerEdge q.ll) then q.ll else fin t) = fin t := by
    cases h : l.lower with
    | none => simp [hd.ql, h]
    | some a =>
      rw [hd.ll a h, lowerEdge_eq, fle_fin]
      rcases ht.1 a h with e | e
      · subst e; simp
      · rw [if_neg]
        simp [not_le.2 e]
  unfold snap
  simp only [hu, hl]

theorem pegged_eq {l : Spec.Limit} {q : FreeLim XR} (hd : Describes l q) {x w : ℝ} (hx : l.Within x) :
    pegged q (fin x) (fin w) = fin (target l x w - x) := by
  have e1 : (q.ql && fle (fin x) q.ll && flt (fin w) 0) = true ↔ l.lower = some x ∧ w < 0 := by
    cases h : l.lower with
    | none => simp [hd.ql, h]
    | some a =>
      have := hx.1 a h
      rw [hd.ll a h, hd.ql, h, zero_def, fle_fin, flt_fin]
      simp only [Option.isSome_some, Bool.true_and, Bool.and_eq_true, decide_eq_true_eq, Option.some.injEq]
      exact ⟨fun ⟨h1, h2⟩ => ⟨le_antisymm this h1, h2⟩, fun ⟨h1, h2⟩ => ⟨h1.ge, h2⟩⟩
  have e2 : ∀ v : ℝ, (q.qu && fle q.ul (fin x) && flt 0 (fin v)) = true ↔ l.upper = some x ∧ 0 < v := by
    intro v
    cases h : l.upper with
    | none => simp [hd.qu, h]
    | some b =>
      have := hx.2 b h
      rw [hd.ul b h, hd.qu, h, zero_def, fle_fin, flt_fin]
      simp only [Option.isSome_some, Bool.true_and, Bool.and_eq_true, decide_eq_true_eq, Option.some.injEq]
      exact ⟨fun ⟨h1, h2⟩ => ⟨le_antisymm h1 this, h2⟩, fun ⟨h1, h2⟩ => ⟨h1.le, h2⟩⟩
  unfold pegged target
  simp only
  by_cases h1 : l.lower = some x ∧ w < 0
  · rw [if_pos (e1.2 h1), if_pos (show Blocked l x w from Or.inl h1), sub_self, zero_def, if_neg]
    have := (e2 0).not.2 (by simp)
    rwa [← zero_def] at this
  · rw [if_neg (fun h => h1 (e1.1 h))]
    by_cases h2 : l.upper = some x ∧ 0 < w
    · rw [if_pos ((e2 w).2 h2), if_pos (show Blocked l x w from Or.inr h2), sub_self, zero_def]
    · rw [if_neg (fun h => h2 ((e2 w).1 h)), if_neg (show ¬ Blocked l x w from fun h => h.elim h1 h2)]
      congr 1
      ring

theorem shorten_clear {l : Spec.Limit} {q : FreeLim XR} (hd : Describes l q) {x w w1 : ℝ} (ht : Clear l (x + w1)) (a : XR) :
    shorten q (fin x) (fin w) (fin w1) a = a := by
  have e1 : (q.ql && flt (fin x + fin w1) q.ll) = false := by
    cases h : l.lower with
    | none => simp [hd.ql, h]
    | some b =>
      rw [hd.ll b h, fin_add, flt_fin]
      have := margin_pos b
      rcases ht.1 b h with e | e
      · simp [e]
      · have : b ≤ x + w1 := by linarith
        simp [this]
  have e2 : (q.qu && flt q.ul (fin x + fin w1)) = false := by
    cases h : l.upper with
    | none => simp [hd.qu, h]
    | some b =>
      rw [hd.ul b h, fin_add, flt_fin]
      have := margin_pos b
      rcases ht.2 b h with e | e
      · simp [e]
      · have : x + w1 ≤ b := by linarith
        simp [this]
  unfold shorten
  simp only [Bool.and_assoc, e1, e2, Bool.and_false, Bool.false_eq_true, if_false]

/-- C27: if every component of the step leads to a value that is clear of the limits (after dropping those that would leave a limit on which the parameter is), the
new point is exactly there, and the whole step is taken. -/
theorem C27_step (ls : List Spec.Limit) (lims : List (FreeLim XR)) (hd : List.Forall₂ Describes ls lims) (x w : List ℝ) (hx : x.length = ls.length)
    (hw : w.length = ls.length) (hin : ∀ j (h : j < ls.length), ls[j].Within x[j]) (hc : ∀ j (h : j < ls.length), Clear ls[j] (target ls[j] x[j] w[j])) :
    ∃ v : List ℝ, newPoint lims (x.map fin) (w.map fun a => fin (-a)) = .ok (v.map fin, 1) ∧ v.length = ls.length ∧
      ∀ j (h : j < ls.length), v[j]? = some (target ls[j] x[j] w[j]) := by
  have hl : ls.length = lims.length := hd.length_eq
  have hdj : ∀ j (h : j < ls.length), Describes ls[j] lims[j] := fun j h => (List.forall₂_iff_get.1 hd).2 j h (by omega)
  set T : Nat → ℝ := fun j => if h : j < ls.length then target ls[j] x[j] w[j] else 0 with hT
  have hTj : ∀ j (h : j < ls.length), T j = target ls[j] x[j] w[j] := fun j h => by simp only [hT, dif_pos h]
  refine ⟨(List.range ls.length).map T, ?_, by simp, ?_⟩
  · have rl : ∀ j (h : j < ls.length), rd lims j = .ok lims[j] := fun j h => rd_ok (by omega)
    have rx : ∀ j (h : j < ls.length), rd (x.map fin) j = .ok (fin x[j]) := fun j h => by rw [rd_ok (by simpa using by omega)]; simp
    have rw' : ∀ j (h : j < ls.length), rd (w.map fun a => fin (-a)) j = .ok (fin (-w[j])) := fun j h => by rw [rd_ok (by simpa using by omega)]; simp
    unfold newPoint
    split
    · have h1 : loopAcc (x.map fin).length (1 : XR) (fun j alpha => do
          let l ← rd lims j
          let xj ← rd (x.map fin) j
          let d ← rd (w.map fun a => fin (-a)) j
          let w : XR := -d
          let w1 := pegged l xj w
          pure (w1, shorten l xj w w1 alpha)) = .ok ((List.range (x.map fin).length).map (fun j => fin (T j - (x[j]?).getD 0)), 1) := by
        refine loopAcc_ok _ _ _ _ (fun _ => 1) rfl ?_
        intro j hj
        have hj' : j < ls.length := by rw [List.length_map] at hj; omega
        simp only [rl j hj', rx j hj', rw' j hj', ok_bind, fin_neg, neg_neg, pegged_eq (hdj j hj') (hin j hj')]
        rw [shorten_clear (hdj j hj') (by rw [add_sub_cancel]; exact hc j hj')]
        have : x[j]? = some x[j] := List.getElem?_eq_getElem (by omega)
        simp [this, hTj j hj', pure_eq_ok]
      simp only [h1, ok_bind]
      rw [loopMap_ok _ _ (fun j => fin (T j))]
      · simp [ok_bind, pure_eq_ok, hx]
      · intro j hj
        have hj' : j < ls.length := by rw [List.length_map] at hj; omega
        have : x[j]? = some x[j] := List.getElem?_eq_getElem (by omega)
        rw [rl j hj', ok_bind, rx j hj', ok_bind, rd_range_map _ hj, ok_bind, this, Option.getD_some, one_def, fin_mul, mul_one, fin_add, add_sub_cancel,
          hTj j hj', snap_clear (hdj j hj') (hc j hj')]
        rfl
    · rename_i hno
      rw [loopMap_ok _ _ (fun j => fin (T j))]
      · simp [ok_bind, pure_eq_ok, hx]
      · intro j hj
        have hj' : j < ls.length := by rw [List.length_map] at hj; omega
        rw [rx j hj', ok_bind, rw' j hj', ok_bind, fin_neg, neg_neg, fin_add, hTj j hj']
        have hnb : ¬ Blocked ls[j] x[j] w[j] := by
          have hn : lims[j].ql = false ∧ lims[j].qu = false := by
            simp only [anyLim, List.any_eq_true, not_exists, not_and, Bool.or_eq_true, not_or, Bool.not_eq_true] at hno
            exact hno lims[j] (List.getElem_mem _)
          rintro (⟨h1, -⟩ | ⟨h1, -⟩)
          · have := (hdj j hj').ql
            rw [hn.1, h1] at this
            cases this
          · have := (hdj j hj').qu
            rw [hn.2, h1] at this
            cases this
        unfold target
        rw [if_neg hnb]
        rfl
  · intro j h
    simp [h, hTj j h]

/-- Two parameters between 0 and 5: the first is on its upper limit and moves down by 2, the second is on its lower limit and is asked to move down, and stays. -/
example : ∃ v : List ℝ, newPoint [(⟨true, true, fin 0, fin 5⟩ : FreeLim XR), ⟨true, true, fin 0, fin 5⟩] [fin 5, fin 0] [fin (- -2), fin (- -1)] =
    .ok (v.map fin, 1) ∧ v.length = 2 ∧ v[0]? = some 3 ∧ v[1]? = some 0 := by
  have hm : ((MACHEP0 : ℚ) : ℝ) < 1 / 100 := by unfold MACHEP0; norm_num
  have hm0 := machep_pos
  have hd : Describes ⟨false, some 0, some 5⟩ ⟨true, true, fin 0, fin 5⟩ := ⟨rfl, rfl, by simp, by simp⟩
  have t1 : target ⟨false, some 0, some 5⟩ 5 (-2) = 3 := by
    unfold target Blocked
    rw [if_neg (by norm_num)]
    norm_num
  have t2 : target ⟨false, some 0, some 5⟩ 0 (-1) = 0 := by
    unfold target Blocked
    rw [if_pos (by norm_num)]
  obtain ⟨v, h1, h2, h3⟩ := C27_step [⟨false, some 0, some 5⟩, ⟨false, some 0, some 5⟩] [⟨true, true, fin 0, fin 5⟩, ⟨true, true, fin 0, fin 5⟩]
    (.cons hd (.cons hd .nil)) [5, 0] [-2, -1] rfl rfl (by
      intro j h
      have : j = 0 ∨ j = 1 := by simp at h; omega
      rcases this with rfl | rfl <;> constructor <;> intro a ha <;> cases ha <;> norm_num) (by
      intro j h
      have : j = 0 ∨ j = 1 := by simp at h; omega
      rcases this with rfl | rfl
      · show Clear ⟨false, some 0, some 5⟩ (target ⟨false, some 0, some 5⟩ 5 (-2))
        rw [t1]
        constructor <;> intro a ha <;> cases ha <;> right <;> norm_num [margin] <;> linarith
      · show Clear ⟨false, some 0, some 5⟩ (target ⟨false, some 0, some 5⟩ 0 (-1))
        rw [t2]
        constructor <;> intro a ha <;> cases ha
        · left; rfl
        · right; norm_num [margin]; linarith)
  exact ⟨v, h1, h2, by rw [h3 0 (by simp)]; exact congrArg some t1, by rw [h3 1 (by simp)]; exact congrArg some t2⟩

end Imfit
