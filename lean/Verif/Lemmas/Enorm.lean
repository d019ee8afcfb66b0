import Verif.Model.Fit
import Mathlib.Tactic.Positivity
import Mathlib.Tactic.FieldSimp
import Mathlib.Tactic.Linarith
import Mathlib.Algebra.BigOperators.Group.List.Basic

/-!
# `mp_enorm` in exact arithmetic
-/

namespace Imfit

open XR

/-- The two thresholds as reals. -/
noncomputable def dwarfR : ℝ := ((RDWARF : ℚ) : ℝ)
/-- see `dwarfR` -/
noncomputable def giantR : ℝ := ((RGIANT : ℚ) : ℝ)

theorem dwarfR_pos : 0 < dwarfR := by
  unfold dwarfR RDWARF; norm_num

theorem giantR_pos : 0 < giantR := by
  unfold giantR RGIANT; norm_num

/-- squares of the large entries -/
noncomputable def sqG (a x : ℝ) : ℝ := if dwarfR < |x| ∧ ¬ |x| < a then x * x else 0
/-- squares of the intermediate entries -/
noncomputable def sqM (a x : ℝ) : ℝ := if dwarfR < |x| ∧ |x| < a then x * x else 0
/-- squares of the small entries -/
noncomputable def sqD (x : ℝ) : ℝ := if dwarfR < |x| then 0 else x * x

theorem sq_split (a x : ℝ) : sqG a x + sqM a x + sqD x = x * x := by
  unfold sqG sqM sqD
  by_cases h1 : dwarfR < |x| <;> by_cases h2 : |x| < a <;> simp [h1, h2]

/-- Loop invariant: `G`, `M`, `D` are the sums of squares so far. -/
structure EnInv (st : EnormState XR) (G M D : ℝ) : Prop where
  ex : ∃ s1 s2 s3 m1 m3 : ℝ, st = ⟨fin s1, fin s2, fin s3, fin m1, fin m3⟩ ∧
    0 ≤ s1 ∧ 0 ≤ s3 ∧ 0 ≤ m1 ∧ 0 ≤ m3 ∧ s1 * (m1 * m1) = G ∧ s2 = M ∧ s3 * (m3 * m3) = D ∧
    (s1 = 0 ↔ G = 0) ∧ (s3 = 0 ↔ D = 0) ∧ (m1 = 0 → s1 = 0) ∧ (m3 = 0 → s3 = 0)

theorem einv_init : EnInv ⟨0, 0, 0, 0, 0⟩ 0 0 0 :=
  ⟨0, 0, 0, 0, 0, rfl, le_refl _, le_refl _, le_refl _, le_refl _, by simp, rfl, by simp, by simp, by simp, by simp,
    by simp⟩

theorem fne_fin (a b : ℝ) : fne (fin a) (fin b) = decide (a ≠ b) := by
  unfold fne
  simp only [fle_fin]
  by_cases h : a = b
  · subst h; simp
  · have : ¬ (a ≤ b ∧ b ≤ a) := fun ⟨h1, h2⟩ => h (le_antisymm h1 h2)
    rw [← Bool.decide_and]
    simp [this, h]

theorem einv_step {a : ℝ} {st : EnormState XR} {G M D : ℝ} (h : EnInv st G M D) (x : ℝ) :
    EnInv (enormStep (fin a) st (fin x)) (G + sqG a x) (M + sqM a x) (D + sqD x) := by
  obtain ⟨s1, s2, s3, m1, m3, rfl, hs1, hs3, hm1, hm3, hG, hM, hD, iG, iD, z1, z3⟩ := h
  have hd := dwarfR_pos
  have hlit : (lit RDWARF : XR) = fin dwarfR := rfl
  unfold enormStep
  simp only [fabs_fin, hlit, flt_fin, fin_mul, fin_add, one_def, zero_def, fne_fin]
  have hxx : |x| * |x| = x * x := abs_mul_abs_self x
  have hG0 : 0 ≤ G := by rw [← hG]; positivity
  have hD0 : 0 ≤ D := by rw [← hD]; positivity
  by_cases h1 : dwarfR < |x|
  · have hxpos : 0 < |x| := lt_trans hd h1
    have hxx0 : 0 < x * x := by rw [← hxx]; positivity
    by_cases h2 : |x| < a
    · simp only [h1, h2, decide_true, Bool.and_self, if_true]
      refine ⟨s1, s2 + x * x, s3, m1, m3, ?_, hs1, hs3, hm1, hm3, ?_, ?_, ?_, ?_, ?_, z1, z3⟩
      · simp [hxx]
      · simp [sqG, h1, h2, hG]
      · simp [sqM, h1, h2, hM]
      · simp [sqD, h1, hD]
      · simp [sqG, h1, h2, iG]
      · simp [sqD, h1, iD]
    · simp only [h1, h2, decide_true, decide_false, Bool.and_false, Bool.false_eq_true, if_false, if_true]
      by_cases h3 : m1 < |x|
      · simp only [h3, decide_true, if_true, fin_div_of_ne hxpos.ne', fin_mul, fin_add]
        refine ⟨1 + s1 * (m1 / |x|) * (m1 / |x|), s2, s3, |x|, m3, rfl, by positivity, hs3, abs_nonneg _, hm3, ?_, ?_, ?_,
          ?_, ?_, ?_, z3⟩
        · simp only [sqG, h1, h2, not_false_eq_true, and_self, if_true]
          rw [← hG, ← hxx]
          field_simp
          ring
        · simp [sqM, h2, hM]
        · simp [sqD, h1, hD]
        · simp only [sqG, h1, h2, not_false_eq_true, and_self, if_true]
          constructor
          · intro hh
            exfalso
            have : 0 < 1 + s1 * (m1 / |x|) * (m1 / |x|) := by positivity
            linarith
          · intro hh; exfalso; linarith
        · simp [sqD, h1, iD]
        · intro hh; exfalso; linarith
      · have hm1pos : 0 < m1 := lt_of_lt_of_le hxpos (not_lt.mp h3)
        simp only [h3, decide_false, Bool.false_eq_true, if_false, fin_div_of_ne hm1pos.ne', fin_mul, fin_add]
        refine ⟨s1 + |x| / m1 * (|x| / m1), s2, s3, m1, m3, rfl, by positivity, hs3, hm1, hm3, ?_, ?_, ?_,
          ?_, ?_, ?_, z3⟩
        · simp only [sqG, h1, h2, not_false_eq_true, and_self, if_true]
          rw [← hG, ← hxx]
          field_simp
        · simp [sqM, h2, hM]
        · simp [sqD, h1, hD]
        · simp only [sqG, h1, h2, not_false_eq_true, and_self, if_true]
          constructor
          · intro hh
            exfalso
            have : 0 < s1 + |x| / m1 * (|x| / m1) := by positivity
            linarith
          · intro hh; exfalso; linarith
        · simp [sqD, h1, iD]
        · intro hh; exfalso; linarith
  · simp only [h1, decide_false, Bool.false_and, Bool.false_eq_true, if_false]
    by_cases h3 : m3 < |x|
    · have hxpos : 0 < |x| := lt_of_le_of_lt hm3 h3
      have hxx0 : 0 < x * x := by rw [← hxx]; positivity
      simp only [h3, decide_true, if_true, fin_div_of_ne hxpos.ne', fin_mul, fin_add]
      refine ⟨s1, s2, 1 + s3 * (m3 / |x|) * (m3 / |x|), m1, |x|, rfl, hs1, by positivity, hm1, abs_nonneg _, ?_, ?_, ?_,
        ?_, ?_, z1, ?_⟩
      · simp [sqG, h1, hG]
      · simp [sqM, h1, hM]
      · simp only [sqD, h1, if_false]
        rw [← hD, ← hxx]
        field_simp
        ring
      · simp [sqG, h1, iG]
      · simp only [sqD, h1, if_false]
        constructor
        · intro hh
          exfalso
          have : 0 < 1 + s3 * (m3 / |x|) * (m3 / |x|) := by positivity
          linarith
        · intro hh; exfalso; linarith
      · intro hh; exfalso; linarith
    · by_cases h4 : x = 0
      · subst h4
        have hn : ¬ m3 < 0 := not_lt.mpr hm3
        simp only [abs_zero, ne_eq, not_true_eq_false, decide_false, hn, Bool.false_eq_true, if_false]
        refine ⟨s1, s2, s3, m1, m3, rfl, hs1, hs3, hm1, hm3, ?_, ?_, ?_, ?_, ?_, z1, z3⟩ <;>
          simp [sqG, sqM, sqD, hG, hM, hD, iG, iD]
      · have hxpos : 0 < |x| := abs_pos.mpr h4
        have hm3pos : 0 < m3 := lt_of_lt_of_le hxpos (not_lt.mp h3)
        have hxx0 : 0 < x * x := by rw [← hxx]; positivity
        simp only [h3, decide_false, Bool.false_eq_true, if_false, ne_eq, abs_eq_zero, h4, not_false_eq_true,
          decide_true, if_true, fin_div_of_ne hm3pos.ne', fin_mul, fin_add]
        refine ⟨s1, s2, s3 + |x| / m3 * (|x| / m3), m1, m3, rfl, hs1, by positivity, hm1, hm3, ?_, ?_, ?_,
          ?_, ?_, z1, ?_⟩
        · simp [sqG, h1, hG]
        · simp [sqM, h1, hM]
        · simp only [sqD, h1, if_false]
          rw [← hD, ← hxx]
          field_simp
        · simp [sqG, h1, iG]
        · simp only [sqD, h1, if_false]
          constructor
          · intro hh
            exfalso
            have : 0 < s3 + |x| / m3 * (|x| / m3) := by positivity
            linarith
          · intro hh; exfalso; linarith
        · intro hh; exfalso; linarith

theorem einv_fold {a : ℝ} (l : List ℝ) {st : EnormState XR} {G M D : ℝ} (h : EnInv st G M D) :
    EnInv ((l.map fin).foldl (enormStep (fin a)) st) (G + (l.map (sqG a)).sum) (M + (l.map (sqM a)).sum)
      (D + (l.map sqD).sum) := by
  induction l generalizing st G M D with
  | nil => simpa using h
  | cons x t ih =>
    have := ih (einv_step (a := a) h x)
    simp only [List.map_cons, List.foldl_cons, List.sum_cons]
    simpa only [add_assoc] using this

theorem einv_finish {st : EnormState XR} {G M D : ℝ} (h : EnInv st G M D) (hM0 : 0 ≤ M) :
    enormFinish st = fin (Real.sqrt (if G = 0 then M + D else G + M)) := by
  obtain ⟨s1, s2, s3, m1, m3, rfl, hs1, hs3, hm1, hm3, hG, rfl, hD, iG, iD, z1, z3⟩ := h
  unfold enormFinish
  simp only [zero_def, one_def, fne_fin]
  by_cases hG0 : G = 0
  · have : s1 = 0 := iG.2 hG0
    simp only [this, ne_eq, not_true_eq_false, decide_false, Bool.false_eq_true, if_false, hG0, if_true]
    by_cases hM : s2 = 0
    · subst hM
      simp only [not_true_eq_false, decide_false, Bool.false_eq_true, if_false, zero_add]
      rw [fsqrt_fin_of_nonneg hs3, fin_mul, ← hD]
      congr 1
      rw [Real.sqrt_mul hs3, Real.sqrt_mul_self hm3, mul_comm]
    · have hMpos : 0 < s2 := lt_of_le_of_ne hM0 (Ne.symm hM)
      simp only [hM, not_false_eq_true, decide_true, if_true, fle_fin]
      by_cases hc : m3 ≤ s2
      · simp only [hc, decide_true, if_true, fin_div_of_ne hM, fin_mul, fin_add]
        have e : s2 * (1 + m3 / s2 * (m3 * s3)) = s2 + D := by rw [← hD]; field_simp
        rw [e, fsqrt_fin_of_nonneg]
        rw [← hD]; positivity
      · have hm3pos : 0 < m3 := lt_trans hMpos (not_le.mp hc)
        simp only [hc, decide_false, Bool.false_eq_true, if_false, fin_div_of_ne hm3pos.ne', fin_mul, fin_add]
        have e : m3 * (s2 / m3 + m3 * s3) = s2 + D := by rw [← hD]; field_simp
        rw [e, fsqrt_fin_of_nonneg]
        rw [← hD]; positivity
  · have hs : s1 ≠ 0 := fun hh => hG0 (iG.1 hh)
    have hm : m1 ≠ 0 := fun hh => hs (z1 hh)
    have hmpos : 0 < m1 := lt_of_le_of_ne hm1 (Ne.symm hm)
    simp only [hs, ne_eq, not_false_eq_true, decide_true, if_true, hG0, if_false, fin_div_of_ne hm, fin_add]
    rw [fsqrt_fin_of_nonneg (by positivity), fin_mul]
    congr 1
    have e : G + s2 = (s1 + s2 / m1 / m1) * (m1 * m1) := by rw [← hG]; field_simp
    rw [e, Real.sqrt_mul (by positivity), Real.sqrt_mul_self hm1, mul_comm]

/-- Value of `mp_enorm` on a finite vector. -/
theorem mpEnorm_eq (l : List ℝ) :
    mpEnorm (l.map fin) =
      fin (Real.sqrt (if (l.map (sqG (giantR / l.length))).sum = 0
        then (l.map (sqM (giantR / l.length))).sum + (l.map sqD).sum
        else (l.map (sqG (giantR / l.length))).sum + (l.map (sqM (giantR / l.length))).sum)) := by
  cases l with
  | nil =>
    simp only [List.map_nil, List.sum_nil, if_true, add_zero, Real.sqrt_zero]
    unfold mpEnorm enormFinish
    simp [fne]
  | cons x t =>
    have hne : ((x :: t).length : ℝ) ≠ 0 := by simp; positivity
    have hag : (lit RGIANT : XR) / lit (((x :: t).map fin).length : ℚ) = fin (giantR / ((x :: t).length : ℝ)) := by
      rw [List.length_map]
      simp only [lit_def]
      rw [show (((((x :: t).length : ℕ) : ℚ)) : ℝ) = ((x :: t).length : ℝ) by push_cast; rfl, fin_div_of_ne hne]
      rfl
    unfold mpEnorm
    rw [hag]
    have := einv_fold (a := giantR / ((x :: t).length : ℝ)) (x :: t) einv_init
    simp only [zero_add] at this
    apply einv_finish this
    apply List.sum_nonneg
    intro y hy
    obtain ⟨b, _, rfl⟩ := List.mem_map.mp hy
    unfold sqM
    split
    · exact mul_self_nonneg _
    · exact le_refl _

theorem sum_split (a : ℝ) (l : List ℝ) :
    (l.map (sqG a)).sum + (l.map (sqM a)).sum + (l.map sqD).sum = (l.map fun x => x * x).sum := by
  induction l with
  | nil => simp
  | cons x t ih =>
    simp only [List.map_cons, List.sum_cons]
    have := sq_split a x
    linarith

theorem sqG_nonneg (a x : ℝ) : 0 ≤ sqG a x := by
  unfold sqG; split
  · exact mul_self_nonneg _
  · exact le_refl _

theorem sqD_nonneg (x : ℝ) : 0 ≤ sqD x := by
  unfold sqD; split
  · exact le_refl _
  · exact mul_self_nonneg _

theorem sum_sqD_le (l : List ℝ) : (l.map sqD).sum ≤ l.length * (dwarfR * dwarfR) := by
  induction l with
  | nil => simp
  | cons x t ih =>
    simp only [List.map_cons, List.sum_cons, List.length_cons]
    have : sqD x ≤ dwarfR * dwarfR := by
      unfold sqD; split
      · have := dwarfR_pos; positivity
      · rename_i h
        rw [← abs_mul_abs_self x]
        exact mul_le_mul (not_lt.mp h) (not_lt.mp h) (abs_nonneg _) dwarfR_pos.le
    push_cast
    linarith

theorem sum_map_nonneg (l : List ℝ) (f : ℝ → ℝ) (h : ∀ x, 0 ≤ f x) : 0 ≤ (l.map f).sum := by
  apply List.sum_nonneg
  intro y hy
  obtain ⟨b, _, rfl⟩ := List.mem_map.mp hy
  exact h b

theorem sum_sqG_eq_zero {a : ℝ} {l : List ℝ} (h : ∀ x ∈ l, |x| ≤ dwarfR ∨ |x| < a) : (l.map (sqG a)).sum = 0 := by
  induction l with
  | nil => simp
  | cons x t ih =>
    simp only [List.map_cons, List.sum_cons]
    rw [ih (fun y hy => h y (List.mem_cons_of_mem _ hy))]
    have : sqG a x = 0 := by
      unfold sqG
      rcases h x List.mem_cons_self with h | h
      · simp [not_lt.mpr h]
      · simp [h]
    rw [this, add_zero]

theorem sum_sqD_eq_zero {l : List ℝ} (h : ∀ x ∈ l, x = 0 ∨ dwarfR < |x|) : (l.map sqD).sum = 0 := by
  induction l with
  | nil => simp
  | cons x t ih =>
    simp only [List.map_cons, List.sum_cons]
    rw [ih (fun y hy => h y (List.mem_cons_of_mem _ hy))]
    have : sqD x = 0 := by
      unfold sqD
      rcases h x List.mem_cons_self with h | h
      · simp [h]
      · simp [h]
    rw [this, add_zero]

end Imfit
