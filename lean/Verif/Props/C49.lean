import Verif.Props.C21

/-!
# C49 — bootstrap errors are measured from the best fit in one coordinate system

**False** of the code for an image section: the resampled positions are stored in coordinates of the full image (offset added,
`core/bootstrap_errors.cpp:222-224`), while the best-fit positions they are compared with are relative to the section
(`core/imfit_main.cpp:348-354, 409`). `C49_reported` gives what is printed, for every offset.
-/

namespace Imfit

open XR

/-- What is reported when all resampled fits return the best fit: the plus error is the offset and the minus error is minus the offset. -/
theorem C49_reported (best O : Nat → ℝ) (fixed : Nat → Bool) (nParams nIter : Nat) (h3 : 3 ≤ nIter) :
    ∃ lines, bootstrapErrors (fun _ => ⟨1, tab nParams fun i => fin (best i)⟩) (tab nParams fun i => fin (best i)) (tab nParams fun i => fin (O i))
        (tab nParams fixed) nParams nIter = .ok (some lines, nIter) ∧ lines.length = nParams ∧ ∀ i (hi : i < lines.length), fixed i = false →
        ∃ lo up h m s, lines[i] = .free (fin (best i)) (fin (O i)) (fin (-(O i))) lo up h m s := by
  obtain ⟨lines, h, hl, hd⟩ := C21_partial (fun _ => 1) (fun _ i => best i) O best fixed nParams nIter h3 (by simp)
  refine ⟨lines, h, hl, fun i hi hf => ?_⟩
  have hD := (hd i hi).2 hf
  generalize lines[i] = ln at hD
  cases ln with
  | fixed b => exact hD.elim
  | free b p m lo up hw mean s =>
    obtain ⟨lo', up', m', s', rfl, rfl, rfl, rfl, rfl, rfl, rfl, rfl, -, -, -, hlo, hup, -⟩ := hD
    obtain ⟨k, _, rfl⟩ := List.mem_map.1 hlo
    obtain ⟨k, _, rfl⟩ := List.mem_map.1 hup
    have e1 : best i + O i - best i = O i := by ring
    have e2 : best i - (best i + O i) = -(O i) := by ring
    rw [e1, e2]
    exact ⟨_, _, _, _, _, rfl⟩

/-- Without an image section (all offsets zero) the property holds. (Missing: image sections, where it is false.) -/
theorem C49_partial (best : Nat → ℝ) (fixed : Nat → Bool) (nParams nIter : Nat) (h3 : 3 ≤ nIter) :
    ∃ lines, bootstrapErrors (fun _ => ⟨1, tab nParams fun i => fin (best i)⟩) (tab nParams fun i => fin (best i)) (tab nParams fun _ => fin 0)
        (tab nParams fixed) nParams nIter = .ok (some lines, nIter) ∧ lines.length = nParams ∧ ∀ i (hi : i < lines.length), fixed i = false →
        ∃ lo up h m s, lines[i] = .free (fin (best i)) (fin 0) (fin 0) lo up h m s := by
  obtain ⟨lines, h, hl, hd⟩ := C49_reported best (fun _ => 0) fixed nParams nIter h3
  refine ⟨lines, h, hl, fun i hi hf => ?_⟩
  obtain ⟨a, b, c, d, e, h⟩ := hd i hi hf
  exact ⟨a, b, c, d, e, by rw [h, neg_zero]⟩

/-- A section starting at column 101 (offset 100): the reported plus error of X0 is 100 although every resampling gave the best fit. -/
theorem C49_false : ∃ lo up h m s, bootstrapErrors (fun _ => ⟨1, [fin 7]⟩) [fin 7] [fin 100] [false] 1 5 =
    .ok (some [.free (fin 7) (fin 100) (fin (-100)) lo up h m s], 5) := by
  obtain ⟨lines, hr, hl, hd⟩ := C49_reported (fun _ => 7) (fun _ => 100) (fun _ => false) 1 5 (by norm_num)
  obtain ⟨ln, rfl⟩ := List.length_eq_one_iff.1 hl
  obtain ⟨lo, up, h, m, s, e⟩ := hd 0 (by simp) rfl
  simp only [List.getElem_cons_zero] at e
  subst e
  exact ⟨lo, up, h, m, s, hr⟩

example : ∃ lines, bootstrapErrors (fun _ => ⟨1, tab 2 fun i => fin (i : ℝ)⟩) (tab 2 fun i => fin (i : ℝ)) (tab 2 fun _ => fin 0)
    (tab 2 fun _ => false) 2 4 = .ok (some lines, 4) ∧ lines.length = 2 := by
  obtain ⟨lines, h, hl, _⟩ := C49_partial (fun i => (i : ℝ)) (fun _ => false) 2 4 (by norm_num)
  exact ⟨lines, h, hl⟩

end Imfit
