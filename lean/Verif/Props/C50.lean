import Verif.Lemmas.Image
import Verif.Model.Convolve

/-!
# C50 — component intensities are summed with compensation

Arithmetic in which `+` is rounded by an *arbitrary* function and the two subtractions of the correction are exact (for IEEE doubles the correction is
exact whenever the running sum is the larger operand). In this arithmetic the summation loops return the exact sum rounded **once**, for any number of
terms; a plain loop would round after every term.
-/

namespace Imfit

/-- Real arithmetic in which additions are rounded by `rnd`. -/
@[reducible] noncomputable def roundedFP (rnd : ℝ → ℝ) : FP ℝ where
  add a b := rnd (a + b)
  sub a b := a - b
  mul a b := a * b
  div a b := a / b
  neg a := -a
  zero := 0
  one := 1
  fabs a := |a|
  fsqrt := Real.sqrt
  flog := Real.log
  flt a b := decide (a < b)
  fle a b := decide (a ≤ b)
  isfin _ := true
  lit q := (q : ℝ)

/-- Loop invariant: running sum minus stored error is exact. -/
theorem kahan_exact (rnd : ℝ → ℝ) (l : List ℝ) (s : KS ℝ) :
    ((l.foldl (@kahanAdd ℝ (roundedFP rnd)) s).sum - (l.foldl (@kahanAdd ℝ (roundedFP rnd)) s).err = s.sum - s.err + l.sum) ∧
    (l ≠ [] → (l.foldl (@kahanAdd ℝ (roundedFP rnd)) s).sum = rnd (s.sum - s.err + l.sum)) := by
  induction l generalizing s with
  | nil => simp
  | cons v t ih =>
    have h1 : (@kahanAdd ℝ (roundedFP rnd) s v).sum = rnd (s.sum + (v - s.err)) := rfl
    have h2 : (@kahanAdd ℝ (roundedFP rnd) s v).err = (rnd (s.sum + (v - s.err)) - s.sum) - (v - s.err) := rfl
    have h3 : (@kahanAdd ℝ (roundedFP rnd) s v).sum - (@kahanAdd ℝ (roundedFP rnd) s v).err = s.sum - s.err + v := by
      rw [h1, h2]; ring
    obtain ⟨i1, i2⟩ := ih (@kahanAdd ℝ (roundedFP rnd) s v)
    rw [List.foldl_cons, List.sum_cons]
    refine ⟨by rw [i1, h3]; ring, fun _ => ?_⟩
    cases t with
    | nil =>
      rw [List.foldl_nil, h1, List.sum_nil]
      congr 1; ring
    | cons w t =>
      rw [i2 (by simp), h3]
      congr 1; ring

/-- The sum used to normalise a PSF is the exact sum, rounded once. -/
theorem C50_psf_sum (rnd : ℝ → ℝ) (l : List ℝ) (h : l ≠ []) : @kahanSum ℝ (roundedFP rnd) l = rnd l.sum := by
  have := (kahan_exact rnd l ⟨0, 0⟩).2 h
  rw [sub_zero, zero_add] at this
  exact this

theorem pixelSum_fold {α : Type} [FP α] (want : Bool) (x y : α) (objs : List (FnObj α)) (val : FnObj α → α)
    (h : ∀ o ∈ objs, o.desc.isPoint = want → fnValue o x y = .ok (val o)) (s : KS α) :
    pixelSum want x y objs s = .ok (((objs.filter fun o => o.desc.isPoint = want).map val).foldl kahanAdd s) := by
  induction objs generalizing s with
  | nil => rfl
  | cons o rest ih =>
    unfold pixelSum pixelStep
    by_cases ho : o.desc.isPoint = want
    · rw [if_pos ho, h o (by simp) ho]
      simp only [ok_bind, pure_eq_ok]
      rw [ih (fun p hp => h p (by simp [hp])), List.filter_cons_of_pos (by simpa using ho)]
      rfl
    · rw [if_neg ho]
      simp only [ok_bind]
      rw [ih (fun p hp => h p (by simp [hp])), List.filter_cons_of_neg (by simpa using ho)]

/-- The intensity of a pixel is the exact sum of the intensities of its (extended, or point-source) components, rounded once. -/
theorem C50_pixel_sum (rnd : ℝ → ℝ) (want : Bool) (x y : ℝ) (objs : List (FnObj ℝ)) (val : FnObj ℝ → ℝ)
    (h : ∀ o ∈ objs, o.desc.isPoint = want → @fnValue ℝ (roundedFP rnd) o x y = .ok (val o))
    (hne : (objs.filter fun o => o.desc.isPoint = want) ≠ []) :
    ∃ e, @pixelSum ℝ (roundedFP rnd) want x y objs ⟨0, 0⟩ = .ok ⟨rnd ((objs.filter fun o => o.desc.isPoint = want).map val).sum, e⟩ := by
  have hf := @pixelSum_fold ℝ (roundedFP rnd) want x y objs val h ⟨0, 0⟩
  have := (kahan_exact rnd ((objs.filter fun o => o.desc.isPoint = want).map val) ⟨0, 0⟩).2 (by simpa using hne)
  rw [sub_zero, zero_add] at this
  rw [hf]
  generalize List.foldl _ _ _ = k at this
  obtain ⟨a, e⟩ := k
  simp only at this
  subst this
  exact ⟨e, rfl⟩

/-- Adding to a pixel that already holds a value (the point-source pass starts from the convolved pixel): the exact total, rounded once. -/
theorem C50_point_sum (rnd : ℝ → ℝ) (want : Bool) (x y : ℝ) (objs : List (FnObj ℝ)) (val : FnObj ℝ → ℝ) (old : ℝ)
    (h : ∀ o ∈ objs, o.desc.isPoint = want → @fnValue ℝ (roundedFP rnd) o x y = .ok (val o))
    (hne : (objs.filter fun o => o.desc.isPoint = want) ≠ []) :
    ∃ e, @pixelSum ℝ (roundedFP rnd) want x y objs ⟨old, 0⟩ = .ok ⟨rnd (old + ((objs.filter fun o => o.desc.isPoint = want).map val).sum), e⟩ := by
  have hf := @pixelSum_fold ℝ (roundedFP rnd) want x y objs val h ⟨old, 0⟩
  have := (kahan_exact rnd ((objs.filter fun o => o.desc.isPoint = want).map val) ⟨old, 0⟩).2 (by simpa using hne)
  rw [sub_zero] at this
  rw [hf]
  generalize List.foldl _ _ _ = k at this
  obtain ⟨a, e⟩ := k
  simp only at this
  subst this
  exact ⟨e, rfl⟩

/-- Non-vacuous, and why it matters: rounding to integers, ten terms 0.3 add up to 3, not to 0 (plain addition: every partial sum rounds to 0). -/
example : @kahanSum ℝ (roundedFP fun r => (round r : ℝ)) (List.replicate 10 (3 / 10)) = 3 := by
  rw [C50_psf_sum _ _ (by simp)]
  have e : (List.replicate 10 (3 / 10 : ℝ)).sum = ((3 : ℤ) : ℝ) := by
    rw [List.sum_replicate, nsmul_eq_mul]; norm_num
  rw [e, round_intCast]
  norm_num

end Imfit
