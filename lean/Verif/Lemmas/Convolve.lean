import Verif.Model.Convolve
import Verif.Spec.Convolve
import Verif.Lemmas.Image
import Mathlib.Algebra.Field.GeomSum
import Mathlib.Algebra.BigOperators.Ring.Finset
import Mathlib.Tactic.Ring
import Mathlib.Tactic.FieldSimp

/-!
# The FFT convolution is the cyclic convolution of the padded arrays, and hence the linear convolution
-/

namespace Imfit

open XR Finset

/-! ## Roots of unity -/

theorem twiddle_add (n : Nat) (a b : ℤ) : twiddle n (a + b) = twiddle n a * twiddle n b := by
  unfold twiddle
  rw [← Complex.exp_add]
  congr 1
  push_cast
  ring

theorem twiddle_zero (n : Nat) : twiddle n 0 = 1 := by simp [twiddle]

theorem twiddle_eq_one {n : Nat} (hn : 0 < n) (a : ℤ) : twiddle n a = 1 ↔ (n : ℤ) ∣ a := by
  have hn' : (n : ℂ) ≠ 0 := by exact_mod_cast hn.ne'
  have hpi : (2 * (Real.pi : ℂ) * Complex.I) ≠ 0 := by
    simp [Real.pi_ne_zero, Complex.I_ne_zero]
  unfold twiddle
  rw [Complex.exp_eq_one_iff]
  constructor
  · rintro ⟨k, hk⟩
    refine ⟨k, ?_⟩
    have h1 : (a : ℂ) / n = k := by
      have : 2 * (Real.pi : ℂ) * Complex.I * ((a : ℂ) / n) = 2 * Real.pi * Complex.I * k := by rw [hk]; ring
      exact mul_left_cancel₀ hpi this
    rw [div_eq_iff hn'] at h1
    have h2 : (a : ℂ) = ((n : ℤ) * k : ℤ) := by rw [h1]; push_cast; ring
    exact_mod_cast h2
  · rintro ⟨k, rfl⟩
    refine ⟨k, ?_⟩
    push_cast
    field_simp

theorem twiddle_nat_mul (n i : Nat) (a : ℤ) : twiddle n ((i : ℤ) * a) = twiddle n a ^ i := by
  induction i with
  | zero => simp [twiddle_zero]
  | succ i ih =>
    have : ((i + 1 : Nat) : ℤ) * a = (i : ℤ) * a + a := by push_cast; ring
    rw [this, twiddle_add, ih, pow_succ]

/-- Orthogonality. -/
theorem twiddle_sum {n : Nat} (hn : 0 < n) (a : ℤ) :
    ∑ i ∈ range n, twiddle n ((i : ℤ) * a) = if (n : ℤ) ∣ a then (n : ℂ) else 0 := by
  simp only [twiddle_nat_mul]
  by_cases h : twiddle n a = 1
  · rw [if_pos ((twiddle_eq_one hn a).1 h)]
    simp [h]
  · rw [if_neg (fun hd => h ((twiddle_eq_one hn a).2 hd)), geom_sum_eq h]
    have : twiddle n a ^ n = 1 := by
      rw [← twiddle_nat_mul, twiddle_eq_one hn]
      exact dvd_mul_right _ _
    rw [this]; simp

theorem twiddle_congr {n : Nat} (hn : 0 < n) {a b : ℤ} (h : (n : ℤ) ∣ a - b) : twiddle n a = twiddle n b := by
  have : a = (a - b) + b := by ring
  rw [this, twiddle_add, (twiddle_eq_one hn _).2 h, one_mul]

theorem conj_twiddle (n : Nat) (a : ℤ) : (starRingEnd ℂ) (twiddle n a) = twiddle n (-a) := by
  unfold twiddle
  rw [← Complex.exp_conj]
  congr 1
  simp only [map_mul, map_div₀, Complex.conj_ofReal, Complex.conj_I, map_ofNat, map_intCast, map_natCast, Int.cast_neg]
  ring

/-! ## The discrete Fourier transform of real arrays -/

theorem conj_dft2 (R C : Nat) (f : Nat → Nat → ℝ) (i j : ℤ) :
    (starRingEnd ℂ) (dft2 R C f i j) = dft2 R C f (-i) (-j) := by
  simp only [dft2, map_sum, map_mul, Complex.conj_ofReal, conj_twiddle, neg_neg, neg_mul]

theorem dft2_congr {R C : Nat} (hR : 0 < R) (hC : 0 < C) (f : Nat → Nat → ℝ) {i i' j j' : ℤ} (hi : (R : ℤ) ∣ i - i')
    (hj : (C : ℤ) ∣ j - j') : dft2 R C f i j = dft2 R C f i' j' := by
  unfold dft2
  refine sum_congr rfl fun y _ => sum_congr rfl fun x _ => ?_
  rw [twiddle_congr hR (a := -(i * y)) (b := -(i' * y)), twiddle_congr hC (a := -(j * x)) (b := -(j' * x))]
  · have : -(j * (x : ℤ)) - -(j' * x) = (j - j') * (-x) := by ring
    rw [this]; exact Dvd.dvd.mul_right hj _
  · have : -(i * (y : ℤ)) - -(i' * y) = (i - i') * (-y) := by ring
    rw [this]; exact Dvd.dvd.mul_right hi _

/-- Cyclic convolution. -/
def cyc (R C : Nat) (f g : Nat → Nat → ℝ) (y x : Nat) : ℝ :=
  ∑ y1 ∈ range R, ∑ x1 ∈ range C, ∑ y2 ∈ range R, ∑ x2 ∈ range C,
    if (R : ℤ) ∣ (y : ℤ) - y1 - y2 ∧ (C : ℤ) ∣ (x : ℤ) - x1 - x2 then f y1 x1 * g y2 x2 else 0

/-- The convolution theorem. -/
theorem inverse_product {R C : Nat} (hR : 0 < R) (hC : 0 < C) (f g : Nat → Nat → ℝ) (y x : Nat) :
    ∑ i ∈ range R, ∑ j ∈ range C, dft2 R C f i j * dft2 R C g i j * (twiddle R ((i : ℤ) * y) * twiddle C ((j : ℤ) * x))
      = ((R * C : Nat) : ℂ) * (cyc R C f g y x : ℂ) := by
  have e : ∀ i j : Nat, dft2 R C f i j * dft2 R C g i j * (twiddle R ((i : ℤ) * y) * twiddle C ((j : ℤ) * x)) =
      ∑ y1 ∈ range R, ∑ x1 ∈ range C, ∑ y2 ∈ range R, ∑ x2 ∈ range C,
        ((f y1 x1 : ℂ) * (g y2 x2 : ℂ)) * (twiddle R ((i : ℤ) * ((y : ℤ) - y1 - y2)) * twiddle C ((j : ℤ) * ((x : ℤ) - x1 - x2))) := by
    intro i j
    simp only [dft2, sum_mul]
    simp only [sum_mul, mul_sum]
    refine sum_congr rfl fun y1 _ => sum_congr rfl fun x1 _ => sum_congr rfl fun y2 _ => sum_congr rfl fun x2 _ => ?_
    have h1 : (i : ℤ) * ((y : ℤ) - y1 - y2) = -((i : ℤ) * y1) + (-((i : ℤ) * y2) + (i : ℤ) * y) := by ring
    have h2 : (j : ℤ) * ((x : ℤ) - x1 - x2) = -((j : ℤ) * x1) + (-((j : ℤ) * x2) + (j : ℤ) * x) := by ring
    rw [h1, h2]
    simp only [twiddle_add]
    ring
  simp only [e]
  have swap : ∀ F : Nat → Nat → Nat → Nat → Nat → Nat → ℂ,
      ∑ i ∈ range R, ∑ j ∈ range C, ∑ y1 ∈ range R, ∑ x1 ∈ range C, ∑ y2 ∈ range R, ∑ x2 ∈ range C, F i j y1 x1 y2 x2 =
      ∑ y1 ∈ range R, ∑ x1 ∈ range C, ∑ y2 ∈ range R, ∑ x2 ∈ range C, ∑ i ∈ range R, ∑ j ∈ range C, F i j y1 x1 y2 x2 := by
    intro F
    have a : ∀ (s t u : Finset Nat) (G : Nat → Nat → Nat → ℂ),
        ∑ i ∈ s, ∑ j ∈ t, ∑ k ∈ u, G i j k = ∑ k ∈ u, ∑ i ∈ s, ∑ j ∈ t, G i j k := by
      intro s t u G
      have : ∀ i ∈ s, ∑ j ∈ t, ∑ k ∈ u, G i j k = ∑ k ∈ u, ∑ j ∈ t, G i j k := fun i _ => sum_comm
      rw [sum_congr rfl this, sum_comm]
    rw [a]
    refine sum_congr rfl fun y1 _ => ?_
    rw [a]
    refine sum_congr rfl fun x1 _ => ?_
    rw [a]
    refine sum_congr rfl fun y2 _ => ?_
    rw [a]
  rw [swap]
  unfold cyc
  push_cast
  simp only [mul_sum]
  refine sum_congr rfl fun y1 _ => sum_congr rfl fun x1 _ => sum_congr rfl fun y2 _ => sum_congr rfl fun x2 _ => ?_
  have f1 : ∑ i ∈ range R, ∑ j ∈ range C, ((f y1 x1 : ℂ) * (g y2 x2 : ℂ)) *
      (twiddle R ((i : ℤ) * ((y : ℤ) - y1 - y2)) * twiddle C ((j : ℤ) * ((x : ℤ) - x1 - x2))) =
      ((f y1 x1 : ℂ) * (g y2 x2 : ℂ)) * ((∑ i ∈ range R, twiddle R ((i : ℤ) * ((y : ℤ) - y1 - y2))) *
        ∑ j ∈ range C, twiddle C ((j : ℤ) * ((x : ℤ) - x1 - x2))) := by
    rw [sum_mul_sum, mul_sum]
    refine sum_congr rfl fun i _ => ?_
    rw [mul_sum]
  rw [f1, twiddle_sum hR, twiddle_sum hC]
  by_cases h1 : (R : ℤ) ∣ (y : ℤ) - y1 - y2 <;> by_cases h2 : (C : ℤ) ∣ (x : ℤ) - x1 - x2 <;> simp [h1, h2]
  ring

/-! ## Cyclic convolution of the padded arrays -/

theorem sum_single_mod {R : Nat} (hR : 0 < R) (t : ℤ) (h : Nat → ℝ) :
    ∑ y1 ∈ range R, (if (R : ℤ) ∣ t - y1 then h y1 else 0) = h (t % R).toNat := by
  have hR' : (0 : ℤ) < R := by exact_mod_cast hR
  have h0 := Int.emod_nonneg t hR'.ne'
  have h1 := Int.emod_lt_of_pos t hR'
  rw [sum_eq_single (t % R).toNat]
  · rw [if_pos]
    rw [Int.toNat_of_nonneg h0]
    exact Int.dvd_self_sub_emod
  · intro b hb hne
    rw [if_neg]
    intro hd
    apply hne
    have hb' := mem_range.1 hb
    have : t % R = (b : ℤ) % R := Int.emod_eq_emod_iff_emod_sub_eq_zero.2 (Int.emod_eq_zero_of_dvd hd)
    rw [Int.emod_eq_of_lt (by omega) (by omega : (b : ℤ) < R)] at this
    omega
  · intro hn
    exfalso
    apply hn
    rw [mem_range]
    omega

/-- Shifting the index of a full period. -/
theorem sum_shift {R : Nat} (hR : 0 < R) (s : Nat) (G : Nat → ℝ) :
    ∑ r ∈ range R, G r = ∑ i ∈ range R, G ((s + i) % R) := by
  symm
  apply sum_nbij' (fun i => (s + i) % R) (fun r => (r + (R - s % R)) % R)
  · intro i _; exact mem_range.2 (Nat.mod_lt _ hR)
  · intro i _; exact mem_range.2 (Nat.mod_lt _ hR)
  · intro i hi
    have hi := mem_range.1 hi
    have hs := Nat.mod_lt s hR
    have : ((s + i) % R + (R - s % R)) % R = ((s % R + i) + (R - s % R)) % R := by
      rw [Nat.mod_add_mod, ← Nat.mod_add_mod (s + i), ← Nat.mod_add_mod (s % R + i), Nat.mod_add_mod s R i]
    rw [this]
    have e : (s % R + i) + (R - s % R) = i + R := by omega
    rw [e, Nat.add_mod_right, Nat.mod_eq_of_lt hi]
  · intro r hr
    have hr := mem_range.1 hr
    have hs := Nat.mod_lt s hR
    have : (s + (r + (R - s % R)) % R) % R = (s % R + (r + (R - s % R))) % R := by
      rw [Nat.add_mod_mod, Nat.mod_add_mod]
    rw [this]
    have e : s % R + (r + (R - s % R)) = r + R := by omega
    rw [e, Nat.add_mod_right, Nat.mod_eq_of_lt hr]
  · intro i _; rfl

/-- Image copied into the upper-left corner of the zeroed padded array. -/
def padI (cols rows : Nat) (f : Nat → Nat → ℝ) (r c : Nat) : ℝ := if r < rows ∧ c < cols then f r c else 0

/-- Shifted and wrapped PSF. -/
def padP (R C cols rows : Nat) (f : Nat → Nat → ℝ) (r c : Nat) : ℝ :=
  if (r + rows / 2) % R < rows ∧ (c + cols / 2) % C < cols then f ((r + rows / 2) % R) ((c + cols / 2) % C) else 0

theorem shift_back {R k i : Nat} (hk : k ≤ R) (hi : i < R) : ((R - k + i) % R + k) % R = i := by
  rw [Nat.mod_add_mod]
  have : R - k + i + k = i + R := by omega
  rw [this, Nat.add_mod_right, Nat.mod_eq_of_lt hi]

theorem padded_index {n p y i : Nat} (hp : 0 < p) (hy : y < n) (hi : i < p) (f : Nat → ℝ) :
    (if (((y : ℤ) - ((i : ℤ) - (p / 2 : Nat))) % ((n + p - 1 : Nat) : ℤ)).toNat < n then
      f (((y : ℤ) - ((i : ℤ) - (p / 2 : Nat))) % ((n + p - 1 : Nat) : ℤ)).toNat else 0) =
    if 0 ≤ (y : ℤ) - ((i : ℤ) - (p / 2 : Nat)) ∧ (y : ℤ) - ((i : ℤ) - (p / 2 : Nat)) < n then f ((y : ℤ) - ((i : ℤ) - (p / 2 : Nat))).toNat else 0 := by
  have hc : p / 2 < p := Nat.div_lt_self hp (by omega)
  generalize p / 2 = c at *
  by_cases h0 : 0 ≤ (y : ℤ) - ((i : ℤ) - (c : Nat))
  · have h1 : ((y : ℤ) - ((i : ℤ) - (c : Nat))) % ((n + p - 1 : Nat) : ℤ) = (y : ℤ) - ((i : ℤ) - (c : Nat)) :=
      Int.emod_eq_of_lt h0 (by omega)
    rw [h1]
    by_cases h2 : (y : ℤ) - ((i : ℤ) - (c : Nat)) < n
    · rw [if_pos (by omega), if_pos ⟨h0, h2⟩]
    · rw [if_neg (by omega), if_neg (by omega)]
  · have h1 : ((y : ℤ) - ((i : ℤ) - (c : Nat))) % ((n + p - 1 : Nat) : ℤ) = (y : ℤ) - ((i : ℤ) - (c : Nat)) + ((n + p - 1 : Nat) : ℤ) := by
      rw [← Int.add_emod_right]
      exact Int.emod_eq_of_lt (by omega) (by omega)
    rw [h1, if_neg (by omega), if_neg (by omega)]

/-- Zero padding makes the cyclic convolution linear. -/
theorem cyc_eq_linear {colsI rowsI colsP rowsP : Nat} (hcP : 0 < colsP) (hrP : 0 < rowsP) (I P : Nat → Nat → ℝ)
    {y x : Nat} (hy : y < rowsI) (hx : x < colsI) :
    cyc (rowsI + rowsP - 1) (colsI + colsP - 1) (padI colsI rowsI I) (padP (rowsI + rowsP - 1) (colsI + colsP - 1) colsP rowsP P) y x =
      Spec.linearConvolution colsI rowsI colsP rowsP I P y x := by
  have hRv : ∃ R, R = rowsI + rowsP - 1 := ⟨_, rfl⟩
  have hCv : ∃ C, C = colsI + colsP - 1 := ⟨_, rfl⟩
  obtain ⟨R, hRe⟩ := hRv
  obtain ⟨C, hCe⟩ := hCv
  rw [← hRe, ← hCe]
  have hR : 0 < R := by omega
  have hC : 0 < C := by omega
  have hR2 : rowsP / 2 ≤ R := by omega
  have hC2 : colsP / 2 ≤ C := by omega
  unfold cyc
  -- bring the PSF sums outside
  have sw : ∀ F : Nat → Nat → Nat → Nat → ℝ,
      ∑ y1 ∈ range R, ∑ x1 ∈ range C, ∑ y2 ∈ range R, ∑ x2 ∈ range C, F y1 x1 y2 x2 =
      ∑ y2 ∈ range R, ∑ x2 ∈ range C, ∑ y1 ∈ range R, ∑ x1 ∈ range C, F y1 x1 y2 x2 := by
    intro F
    have a : ∀ (s t u : Finset Nat) (G : Nat → Nat → Nat → ℝ),
        ∑ i ∈ s, ∑ j ∈ t, ∑ k ∈ u, G i j k = ∑ k ∈ u, ∑ i ∈ s, ∑ j ∈ t, G i j k := by
      intro s t u G
      have : ∀ i ∈ s, ∑ j ∈ t, ∑ k ∈ u, G i j k = ∑ k ∈ u, ∑ j ∈ t, G i j k := fun i _ => sum_comm
      rw [sum_congr rfl this, sum_comm]
    rw [a]
    refine sum_congr rfl fun y2 _ => ?_
    rw [a]
  rw [sw, sum_shift hR (R - rowsP / 2)]
  have inner : ∀ i ∈ range R, ∑ x2 ∈ range C, ∑ y1 ∈ range R, ∑ x1 ∈ range C,
      (if (R : ℤ) ∣ (y : ℤ) - y1 - ((R - rowsP / 2 + i) % R : Nat) ∧ (C : ℤ) ∣ (x : ℤ) - x1 - x2 then
        padI colsI rowsI I y1 x1 * padP R C colsP rowsP P ((R - rowsP / 2 + i) % R) x2 else 0) =
      if i < rowsP then ∑ j ∈ range colsP, P i j * Spec.zeroOutside colsI rowsI I ((y : ℤ) - ((i : ℤ) - (rowsP / 2 : Nat)))
        ((x : ℤ) - ((j : ℤ) - (colsP / 2 : Nat))) else 0 := by
    intro i hi
    have hi := mem_range.1 hi
    rw [sum_shift hC (C - colsP / 2)]
    have term : ∀ j ∈ range C, ∑ y1 ∈ range R, ∑ x1 ∈ range C,
        (if (R : ℤ) ∣ (y : ℤ) - y1 - ((R - rowsP / 2 + i) % R : Nat) ∧ (C : ℤ) ∣ (x : ℤ) - x1 - ((C - colsP / 2 + j) % C : Nat) then
          padI colsI rowsI I y1 x1 * padP R C colsP rowsP P ((R - rowsP / 2 + i) % R) ((C - colsP / 2 + j) % C) else 0) =
        if i < rowsP ∧ j < colsP then P i j * Spec.zeroOutside colsI rowsI I ((y : ℤ) - ((i : ℤ) - (rowsP / 2 : Nat)))
          ((x : ℤ) - ((j : ℤ) - (colsP / 2 : Nat))) else 0 := by
      intro j hj
      have hj := mem_range.1 hj
      have hP : padP R C colsP rowsP P ((R - rowsP / 2 + i) % R) ((C - colsP / 2 + j) % C) = if i < rowsP ∧ j < colsP then P i j else 0 := by
        unfold padP
        rw [shift_back hR2 hi, shift_back hC2 hj]
      rw [hP]
      by_cases hij : i < rowsP ∧ j < colsP
      · simp only [if_pos hij]
        have hd1 : ∀ y1 : Nat, (R : ℤ) ∣ (y : ℤ) - y1 - ((R - rowsP / 2 + i) % R : Nat) ↔
            (R : ℤ) ∣ ((y : ℤ) - ((i : ℤ) - (rowsP / 2 : Nat))) - y1 := by
          intro y1
          have hm : (R : ℤ) ∣ ((R - rowsP / 2 + i : Nat) : ℤ) - ((R - rowsP / 2 + i) % R : Nat) := by
            rw [Int.natCast_mod]; exact Int.dvd_self_sub_emod
          have e : ((y : ℤ) - ((i : ℤ) - (rowsP / 2 : Nat))) - y1 =
              ((y : ℤ) - y1 - ((R - rowsP / 2 + i) % R : Nat)) - (((R - rowsP / 2 + i : Nat) : ℤ) - ((R - rowsP / 2 + i) % R : Nat)) + R := by
            omega
          rw [e]
          constructor
          · intro h; exact dvd_add (dvd_sub h hm) (dvd_refl _)
          · intro h
            have := (dvd_add_left (dvd_refl (R : ℤ))).1 h
            exact (dvd_sub_left hm).1 this
        have hd2 : ∀ x1 : Nat, (C : ℤ) ∣ (x : ℤ) - x1 - ((C - colsP / 2 + j) % C : Nat) ↔
            (C : ℤ) ∣ ((x : ℤ) - ((j : ℤ) - (colsP / 2 : Nat))) - x1 := by
          intro x1
          have hm : (C : ℤ) ∣ ((C - colsP / 2 + j : Nat) : ℤ) - ((C - colsP / 2 + j) % C : Nat) := by
            rw [Int.natCast_mod]; exact Int.dvd_self_sub_emod
          have e : ((x : ℤ) - ((j : ℤ) - (colsP / 2 : Nat))) - x1 =
              ((x : ℤ) - x1 - ((C - colsP / 2 + j) % C : Nat)) - (((C - colsP / 2 + j : Nat) : ℤ) - ((C - colsP / 2 + j) % C : Nat)) + C := by
            omega
          rw [e]
          constructor
          · intro h; exact dvd_add (dvd_sub h hm) (dvd_refl _)
          · intro h
            have := (dvd_add_left (dvd_refl (C : ℤ))).1 h
            exact (dvd_sub_left hm).1 this
        simp only [hd1, hd2, ite_and]
        have col : ∀ y1 ∈ range R, (∑ x1 ∈ range C, if (R : ℤ) ∣ ((y : ℤ) - ((i : ℤ) - (rowsP / 2 : Nat))) - y1 then
            (if (C : ℤ) ∣ ((x : ℤ) - ((j : ℤ) - (colsP / 2 : Nat))) - x1 then padI colsI rowsI I y1 x1 * P i j else 0) else 0) =
            if (R : ℤ) ∣ ((y : ℤ) - ((i : ℤ) - (rowsP / 2 : Nat))) - y1 then
              padI colsI rowsI I y1 (((x : ℤ) - ((j : ℤ) - (colsP / 2 : Nat))) % C).toNat * P i j else 0 := by
          intro y1 _
          by_cases h : (R : ℤ) ∣ ((y : ℤ) - ((i : ℤ) - (rowsP / 2 : Nat))) - y1
          · simp only [if_pos h]
            exact sum_single_mod hC _ (fun x1 => padI colsI rowsI I y1 x1 * P i j)
          · simp only [if_neg h, sum_const_zero]
        rw [sum_congr rfl col, sum_single_mod hR _ (fun y1 => padI colsI rowsI I y1 (((x : ℤ) - ((j : ℤ) - (colsP / 2 : Nat))) % C).toNat * P i j)]
        rw [mul_comm]
        congr 1
        have key1 := padded_index hrP hy hij.1 (fun r => if (((x : ℤ) - ((j : ℤ) - (colsP / 2 : Nat))) % C).toNat < colsI then
          I r (((x : ℤ) - ((j : ℤ) - (colsP / 2 : Nat))) % C).toNat else 0)
        have key2 := fun r : Nat => padded_index hcP hx hij.2 (fun c => I r c)
        unfold padI Spec.zeroOutside
        simp only [ite_and]
        rw [← hRe] at key1
        rw [key1]
        simp only [← hCe] at key2
        simp only [key2, ite_and]
      · simp only [if_neg hij, mul_zero, ite_self, sum_const_zero]
    rw [sum_congr rfl term]
    by_cases h : i < rowsP
    · simp only [h, true_and, if_true]
      have hsub : range colsP ⊆ range C := by
        intro a ha; have := mem_range.1 ha; exact mem_range.2 (by omega)
      rw [← sum_subset hsub]
      · exact sum_congr rfl fun j hj => by rw [if_pos (mem_range.1 hj)]
      · intro a _ ha; rw [if_neg (fun hh => ha (mem_range.2 hh))]
    · simp only [h, false_and, if_false, sum_const_zero]
  rw [sum_congr rfl inner]
  unfold Spec.linearConvolution
  have hsub : range rowsP ⊆ range R := by
    intro a ha; have := mem_range.1 ha; exact mem_range.2 (by omega)
  rw [← sum_subset hsub]
  · exact sum_congr rfl fun j hj => by rw [if_pos (mem_range.1 hj)]
  · intro a _ ha; rw [if_neg (fun hh => ha (mem_range.2 hh))]

/-! ## Images as lists -/

theorem idx_div {C r c : Nat} (hc : c < C) : (r * C + c) / C = r := by
  rw [mul_comm, Nat.mul_add_div (by omega), Nat.div_eq_of_lt hc, add_zero]

theorem idx_mod {C r c : Nat} (hc : c < C) : (r * C + c) % C = c := by
  rw [mul_comm, Nat.mul_add_mod, Nat.mod_eq_of_lt hc]

theorem idx_lt {R C r c : Nat} (hr : r < R) (hc : c < C) : r * C + c < R * C := by
  have : (r + 1) * C ≤ R * C := Nat.mul_le_mul_right _ hr
  rw [Nat.add_mul] at this
  omega

theorem div_lt_rows {R C k : Nat} (hk : k < R * C) : k / C < R := Nat.div_lt_of_lt_mul (by rwa [mul_comm] at hk)

theorem cols_pos {R C k : Nat} (hk : k < R * C) : 0 < C := by
  rcases Nat.eq_zero_or_pos C with h | h
  · simp [h] at hk
  · exact h

theorem image_length (C R : Nat) (f : Nat → Nat → ℝ) : (Spec.image C R f).length = R * C := by simp [Spec.image]

theorem image_congr {C R : Nat} {f g : Nat → Nat → ℝ} (h : ∀ r c, r < R → c < C → f r c = g r c) :
    Spec.image C R f = Spec.image C R g := by
  unfold Spec.image
  apply List.map_congr_left
  intro k hk
  have hk := List.mem_range.1 hk
  rw [h _ _ (div_lt_rows hk) (Nat.mod_lt _ (cols_pos hk))]

theorem rd_image {C R r c : Nat} (f : Nat → Nat → ℝ) (hr : r < R) (hc : c < C) :
    rd (Spec.image C R f) (r * C + c) = .ok (fin (f r c)) := by
  unfold Spec.image
  rw [rd_range_map _ (idx_lt hr hc), idx_div hc, idx_mod hc]

theorem image_getElem (C R : Nat) (f : Nat → Nat → ℝ) (k : Nat) (h : k < (Spec.image C R f).length) :
    (Spec.image C R f)[k] = fin (f (k / C) (k % C)) := by simp [Spec.image]

theorem wr_image {C R r c : Nat} (f : Nat → Nat → ℝ) (v : ℝ) (hr : r < R) (hc : c < C) :
    wr (Spec.image C R f) (r * C + c) (fin v) = .ok (Spec.image C R fun r' c' => if r' = r ∧ c' = c then v else f r' c') := by
  rw [wr_ok (by rw [image_length]; exact idx_lt hr hc)]
  congr 1
  apply List.ext_getElem
  · simp [Spec.image]
  · intro k h1 h2
    have hk : k < R * C := by simpa [Spec.image] using h2
    rw [List.getElem_set, image_getElem, image_getElem]
    by_cases h : r * C + c = k
    · subst h
      rw [if_pos rfl, if_pos ⟨idx_div hc, idx_mod hc⟩]
    · rw [if_neg h, if_neg]
      rintro ⟨e1, e2⟩
      apply h
      rw [← e1, ← e2, mul_comm]
      exact Nat.div_add_mod k C

theorem replicate_image (C R : Nat) : List.replicate (R * C) (0 : XR) = Spec.image C R fun _ _ => 0 := by
  rw [replicate_eq_tab]; rfl

theorem dest_iff {R k i r : Nat} (hk : k ≤ R) (hi : i < R) (hr : r < R) : r = (R - k + i) % R ↔ (r + k) % R = i := by
  constructor
  · intro h; rw [h]; exact shift_back hk hi
  · intro h
    rw [← h, Nat.add_mod_mod]
    have : R - k + (r + k) = r + R := by omega
    rw [this, Nat.add_mod_right, Nat.mod_eq_of_lt hr]

/-- The padded PSF array. -/
theorem shiftAndWrap_eq (c : Cv) (P : Nat → Nat → ℝ) (hcI : 0 < c.colsI) (hrI : 0 < c.rowsI)
    (hp : c.psf = Spec.image c.colsP c.rowsP P) :
    shiftAndWrap c (List.replicate (c.padRows * c.padCols) 0) =
      .ok (Spec.image c.padCols c.padRows (padP c.padRows c.padCols c.colsP c.rowsP P)) := by
  obtain ⟨colsI, rowsI, colsP, rowsP, psf⟩ := c
  simp only at hcI hrI hp
  subst hp
  unfold shiftAndWrap
  simp only
  have eR : ∃ R, R = Cv.padRows ⟨colsI, rowsI, colsP, rowsP, Spec.image colsP rowsP P⟩ := ⟨_, rfl⟩
  have eC : ∃ C, C = Cv.padCols ⟨colsI, rowsI, colsP, rowsP, Spec.image colsP rowsP P⟩ := ⟨_, rfl⟩
  obtain ⟨R, hR⟩ := eR
  obtain ⟨C, hC⟩ := eC
  rw [← hR, ← hC]
  simp only [Cv.padRows] at hR
  simp only [Cv.padCols] at hC
  let G : Nat → Nat → Nat → Nat → ℝ := fun i j r cc =>
    if ((r + rowsP / 2) % R < i ∧ (cc + colsP / 2) % C < colsP) ∨ ((r + rowsP / 2) % R = i ∧ (cc + colsP / 2) % C < j) then
      P ((r + rowsP / 2) % R) ((cc + colsP / 2) % C) else 0
  rw [forN_ok rowsP _ _ (fun i => Spec.image C R (G i 0))]
  · congr 1
    apply image_congr
    intro r cc _ _
    simp only [G, padP]
    simp
  · rw [replicate_image]
    apply image_congr
    intro r cc _ _
    simp [G]
  · intro i hi
    have inner := forN_ok colsP (Spec.image C R (G i 0))
      (fun j d2 => do
        let v ← rd (Spec.image colsP rowsP P) (i * colsP + j)
        wr d2 ((R - rowsP / 2 + i) % R * C + (C - colsP / 2 + j) % C) v) (fun j => Spec.image C R (G i j)) rfl (by
        intro j hj
        simp only [rd_image P hi hj, ok_bind]
        rw [wr_image _ _ (Nat.mod_lt _ (by omega)) (Nat.mod_lt _ (by omega))]
        congr 1
        apply image_congr
        intro r cc hr hcc
        have h1 := dest_iff (k := rowsP / 2) (i := i) (by omega : rowsP / 2 ≤ R) (by omega) hr
        have h2 := dest_iff (k := colsP / 2) (i := j) (by omega : colsP / 2 ≤ C) (by omega) hcc
        simp only [h1, h2, G]
        by_cases a1 : (r + rowsP / 2) % R = i
        · by_cases a2 : (cc + colsP / 2) % C = j
          · rw [if_pos ⟨a1, a2⟩, if_pos (by omega), a1, a2]
          · rw [if_neg (by tauto)]
            congr 1
            apply propext
            omega
        · rw [if_neg (by tauto)]
          congr 1
          apply propext
          omega)
    rw [inner]
    congr 1
    apply image_congr
    intro r cc _ _
    simp only [G]
    congr 1
    apply propext
    omega

/-- The padded image. -/
theorem padImage_eq (c : Cv) (I : Nat → Nat → ℝ) (hcP : 0 < c.colsP) (hrP : 0 < c.rowsP) :
    padImage c (Spec.image c.colsI c.rowsI I) = .ok (Spec.image c.padCols c.padRows (padI c.colsI c.rowsI I)) := by
  obtain ⟨colsI, rowsI, colsP, rowsP, psf⟩ := c
  simp only at hcP hrP
  unfold padImage
  simp only
  have eR : ∃ R, R = Cv.padRows ⟨colsI, rowsI, colsP, rowsP, psf⟩ := ⟨_, rfl⟩
  have eC : ∃ C, C = Cv.padCols ⟨colsI, rowsI, colsP, rowsP, psf⟩ := ⟨_, rfl⟩
  obtain ⟨R, hR⟩ := eR
  obtain ⟨C, hC⟩ := eC
  rw [← hR, ← hC]
  simp only [Cv.padRows] at hR
  simp only [Cv.padCols] at hC
  let G : Nat → Nat → Nat → Nat → ℝ := fun i j r cc => if (r < i ∧ cc < colsI) ∨ (r = i ∧ cc < j) then I r cc else 0
  rw [forN_ok rowsI _ _ (fun i => Spec.image C R (G i 0))]
  · congr 1
    apply image_congr
    intro r cc _ _
    simp [G, padI]
  · rw [replicate_image]
    apply image_congr
    intro r cc _ _
    simp [G]
  · intro i hi
    have inner := forN_ok colsI (Spec.image C R (G i 0))
      (fun jj d2 => do
        let v ← rd (Spec.image colsI rowsI I) (i * colsI + jj)
        wr d2 (i * C + jj) v) (fun j => Spec.image C R (G i j)) rfl (by
        intro j hj
        simp only [rd_image I hi hj, ok_bind]
        rw [wr_image _ _ (by omega) (by omega)]
        congr 1
        apply image_congr
        intro r cc hr hcc
        simp only [G]
        by_cases a1 : r = i
        · by_cases a2 : cc = j
          · rw [if_pos ⟨a1, a2⟩, if_pos (by omega), a1, a2]
          · rw [if_neg (by tauto)]
            congr 1
            apply propext
            omega
        · rw [if_neg (by tauto)]
          congr 1
          apply propext
          omega)
    rw [inner]
    congr 1
    apply image_congr
    intro r cc _ _
    simp only [G]
    congr 1
    apply propext
    omega

/-- Extraction of the upper-left corner. -/
theorem extractImage_eq (c : Cv) (V I : Nat → Nat → ℝ) (hcP : 0 < c.colsP) (hrP : 0 < c.rowsP) :
    extractImage c (Spec.image c.padCols c.padRows fun y x => ((c.padRows * c.padCols : Nat) : ℝ) * V y x) (Spec.image c.colsI c.rowsI I) =
      .ok (Spec.image c.colsI c.rowsI V) := by
  obtain ⟨colsI, rowsI, colsP, rowsP, psf⟩ := c
  simp only at hcP hrP
  unfold extractImage
  simp only
  have eR : ∃ R, R = Cv.padRows ⟨colsI, rowsI, colsP, rowsP, psf⟩ := ⟨_, rfl⟩
  have eC : ∃ C, C = Cv.padCols ⟨colsI, rowsI, colsP, rowsP, psf⟩ := ⟨_, rfl⟩
  obtain ⟨R, hR⟩ := eR
  obtain ⟨C, hC⟩ := eC
  rw [← hR, ← hC]
  simp only [Cv.padRows] at hR
  simp only [Cv.padCols] at hC
  let G : Nat → Nat → Nat → Nat → ℝ := fun i j r cc => if (r < i ∧ cc < colsI) ∨ (r = i ∧ cc < j) then V r cc else I r cc
  rw [forN_ok rowsI _ _ (fun i => Spec.image colsI rowsI (G i 0))]
  · congr 1
    apply image_congr
    intro r cc h1 h2
    simp [G, h1, h2]
  · apply image_congr
    intro r cc _ _
    simp [G]
  · intro i hi
    have inner := forN_ok colsI (Spec.image colsI rowsI (G i 0))
      (fun jj d2 => do
        let v ← rd (Spec.image C R fun y x => ((R * C : Nat) : ℝ) * V y x) (i * C + jj)
        wr d2 (i * colsI + jj) (1 / lit ((C * R : Nat) : ℚ) * v)) (fun j => Spec.image colsI rowsI (G i j)) rfl (by
        intro j hj
        rw [rd_image _ (by omega) (by omega)]
        have hne : (((C * R : Nat) : ℚ) : ℝ) ≠ 0 := by
          have : 0 < C * R := Nat.mul_pos (by omega) (by omega)
          exact_mod_cast this.ne'
        have hv : (1 / lit ((C * R : Nat) : ℚ) * fin (((R * C : Nat) : ℝ) * V i j) : XR) = fin (V i j) := by
          rw [one_def, lit_def, fin_div_of_ne hne, fin_mul]
          congr 1
          rw [mul_comm R C]
          push_cast at hne ⊢
          rw [← mul_assoc, one_div, inv_mul_cancel₀ hne, one_mul]
        simp only [ok_bind, hv]
        rw [wr_image _ _ hi hj]
        congr 1
        apply image_congr
        intro r cc hr hcc
        simp only [G]
        by_cases a1 : r = i
        · by_cases a2 : cc = j
          · rw [if_pos ⟨a1, a2⟩, if_pos (by omega), a1, a2]
          · rw [if_neg (by tauto)]
            congr 1
            apply propext
            omega
        · rw [if_neg (by tauto)]
          congr 1
          apply propext
          omega)
    rw [inner]
    congr 1
    apply image_congr
    intro r cc _ _
    simp only [G]
    congr 1
    apply propext
    omega

/-! ## Spectra -/

theorem image_getD {C R : Nat} (f : Nat → Nat → ℝ) {y x : Nat} (hy : y < R) (hx : x < C) :
    toR ((Spec.image C R f).getD (y * C + x) nan) = f y x := by
  have h := rd_image f hy hx
  rw [rd_getD nan (by rw [image_length]; exact idx_lt hy hx)] at h
  injection h with h
  rw [h]; rfl

theorem image_all (C R : Nat) (f : Nat → Nat → ℝ) : (Spec.image C R f).all (fun v => isfin v) = true := by
  simp [Spec.image]

theorem fftR2C_image (R C : Nat) (f : Nat → Nat → ℝ) :
    fftR2C R C (Spec.image C R f) = (List.range (R * (C / 2 + 1))).map fun z =>
      toPair (dft2 R C f ((z / (C / 2 + 1) : Nat) : ℤ) ((z % (C / 2 + 1) : Nat) : ℤ)) := by
  unfold fftR2C
  apply List.map_congr_left
  intro z _
  rw [if_pos (image_all C R f)]
  congr 1
  unfold dft2
  refine sum_congr rfl fun y hy => sum_congr rfl fun x hx => ?_
  beta_reduce
  rw [image_getD f (mem_range.1 hy) (mem_range.1 hx)]

theorem cmul_toPair (a b : ℂ) : cmul (toPair a) (toPair b) = toPair (a * b) := by
  simp only [cmul, toPair, fin_mul, fin_sub, fin_add, Complex.mul_re, Complex.mul_im]
  congr 2
  ring

theorem multSpectra_eq (n : Nat) (a b : Nat → ℂ) :
    multSpectra n ((List.range n).map fun z => toPair (a z)) ((List.range n).map fun z => toPair (b z)) =
      .ok ((List.range n).map fun z => toPair (a z * b z)) := by
  unfold multSpectra
  apply loopMap_ok
  intro z hz
  rw [rd_range_map _ hz, rd_range_map _ hz]
  simp [cmul_toPair]

theorem halfAt_eq {R C i j : Nat} (S : Nat → Nat → ℂ) (hi : i < R) (hj : j ≤ C / 2) :
    halfAt C ((List.range (R * (C / 2 + 1))).map fun z => toPair (S (z / (C / 2 + 1)) (z % (C / 2 + 1)))) i j = S i j := by
  unfold halfAt
  have hl : i * (C / 2 + 1) + j < R * (C / 2 + 1) := idx_lt hi (by omega)
  have h : ((List.range (R * (C / 2 + 1))).map fun z => toPair (S (z / (C / 2 + 1)) (z % (C / 2 + 1)))).getD
      (i * (C / 2 + 1) + j) (nan, nan) = toPair (S i j) := by
    rw [List.getD_eq_getElem?_getD, List.getElem?_map, List.getElem?_range hl]
    simp only [Option.map_some, Option.getD_some]
    rw [idx_div (by omega), idx_mod (by omega)]
  rw [h]
  rfl

/-- A product of spectra of real arrays is Hermitian, so the half spectrum determines it. -/
theorem fullAt_product {R C i j : Nat} (f g : Nat → Nat → ℝ) (hi : i < R) (hj : j < C) :
    fullAt R C ((List.range (R * (C / 2 + 1))).map fun z =>
      toPair (dft2 R C f ((z / (C / 2 + 1) : Nat) : ℤ) ((z % (C / 2 + 1) : Nat) : ℤ) *
        dft2 R C g ((z / (C / 2 + 1) : Nat) : ℤ) ((z % (C / 2 + 1) : Nat) : ℤ))) i j = dft2 R C f i j * dft2 R C g i j := by
  have hR : 0 < R := by omega
  have hC : 0 < C := by omega
  unfold fullAt
  by_cases h : j ≤ C / 2
  · rw [if_pos h, halfAt_eq (fun a b => dft2 R C f a b * dft2 R C g a b) hi h]
  · rw [if_neg h, halfAt_eq (fun a b => dft2 R C f a b * dft2 R C g a b) (Nat.mod_lt _ hR) (by omega)]
    rw [map_mul, conj_dft2, conj_dft2]
    have hi' : (R : ℤ) ∣ -(((R - i) % R : Nat) : ℤ) - i := by
      rcases Nat.eq_zero_or_pos i with h0 | h0
      · subst h0; simp
      · rw [Nat.mod_eq_of_lt (by omega)]
        exact ⟨-1, by omega⟩
    have hj' : (C : ℤ) ∣ -((C - j : Nat) : ℤ) - j := ⟨-1, by omega⟩
    rw [dft2_congr hR hC f hi' hj', dft2_congr hR hC g hi' hj']

theorem fftC2R_product (R C : Nat) (f g : Nat → Nat → ℝ) :
    fftC2R R C ((List.range (R * (C / 2 + 1))).map fun z =>
      toPair (dft2 R C f ((z / (C / 2 + 1) : Nat) : ℤ) ((z % (C / 2 + 1) : Nat) : ℤ) *
        dft2 R C g ((z / (C / 2 + 1) : Nat) : ℤ) ((z % (C / 2 + 1) : Nat) : ℤ))) =
      Spec.image C R fun y x => ((R * C : Nat) : ℝ) * cyc R C f g y x := by
  unfold fftC2R Spec.image
  apply List.map_congr_left
  intro k hk
  have hk := List.mem_range.1 hk
  rw [if_pos (by simp [toPair])]
  congr 1
  have hC := cols_pos hk
  have hR : 0 < R := by
    rcases Nat.eq_zero_or_pos R with h | h
    · simp [h] at hk
    · exact h
  have e : ∑ i ∈ range R, ∑ j ∈ range C,
      fullAt R C ((List.range (R * (C / 2 + 1))).map fun z =>
        toPair (dft2 R C f ((z / (C / 2 + 1) : Nat) : ℤ) ((z % (C / 2 + 1) : Nat) : ℤ) *
          dft2 R C g ((z / (C / 2 + 1) : Nat) : ℤ) ((z % (C / 2 + 1) : Nat) : ℤ))) i j *
        (twiddle R ((i : ℤ) * (k / C : Nat)) * twiddle C ((j : ℤ) * (k % C : Nat))) =
      ((R * C : Nat) : ℂ) * (cyc R C f g (k / C) (k % C) : ℂ) := by
    rw [← inverse_product hR hC]
    refine sum_congr rfl fun i hi => sum_congr rfl fun j hj => ?_
    rw [fullAt_product f g (mem_range.1 hi) (mem_range.1 hj)]
  rw [e]
  have : ((R * C : Nat) : ℂ) * (cyc R C f g (k / C) (k % C) : ℂ) = (((R * C : Nat) : ℝ) * cyc R C f g (k / C) (k % C) : ℝ) := by
    push_cast; ring
  rw [this, Complex.ofReal_re]

/-- Set-up without normalisation, then one convolution. -/
theorem convolve_eq (c : Cv) (P I : Nat → Nat → ℝ) (hcI : 0 < c.colsI) (hrI : 0 < c.rowsI) (hcP : 0 < c.colsP) (hrP : 0 < c.rowsP)
    (hp : c.psf = Spec.image c.colsP c.rowsP P) :
    ∃ r, cvSetup c false = .ok r ∧ r.1 = c ∧ convolveImage r.1 r.2 (Spec.image c.colsI c.rowsI I) =
      .ok (Spec.image c.colsI c.rowsI (Spec.linearConvolution c.colsI c.rowsI c.colsP c.rowsP I P)) := by
  have hs : cvSetup c false = .ok (c, fftR2C c.padRows c.padCols
      (Spec.image c.padCols c.padRows (padP c.padRows c.padCols c.colsP c.rowsP P))) := by
    unfold cvSetup
    simp only [Cv.normalized, if_false, Bool.false_eq_true]
    rw [shiftAndWrap_eq c P hcI hrI hp]
    rfl
  refine ⟨_, hs, rfl, ?_⟩
  unfold convolveImage
  simp only
  rw [padImage_eq c I hcP hrP]
  simp only [ok_bind]
  rw [fftR2C_image, fftR2C_image]
  rw [multSpectra_eq]
  simp only [ok_bind]
  rw [fftC2R_product, extractImage_eq c _ _ hcP hrP]
  congr 1
  apply image_congr
  intro y x hy hx
  exact cyc_eq_linear hcP hrP I P hy hx

/-! ## Normalisation -/

theorem kahanSum_fin (l : List ℝ) : kahanSum (l.map fin) = fin l.sum := by
  have h : ∀ (l : List ℝ) (s : ℝ), (l.map fin).foldl kahanAdd ⟨fin s, fin 0⟩ = ⟨fin (s + l.sum), fin 0⟩ := by
    intro l
    induction l with
    | nil => intro s; simp
    | cons a l ih =>
      intro s
      have : kahanAdd (⟨fin s, fin 0⟩ : KS XR) (fin a) = ⟨fin (s + a), fin 0⟩ := by simp [kahanAdd]
      simp only [List.map_cons, List.foldl_cons, this, ih, List.sum_cons]
      rw [add_assoc]
  unfold kahanSum
  rw [zero_def, h]
  simp

theorem sum_grid (R C : Nat) (f : Nat → Nat → ℝ) :
    ∑ k ∈ range (R * C), f (k / C) (k % C) = ∑ y ∈ range R, ∑ x ∈ range C, f y x := by
  induction R with
  | zero => simp
  | succ R ih =>
    rw [Nat.add_mul, one_mul, sum_range_add, ih, sum_range_succ]
    congr 1
    refine sum_congr rfl fun x hx => ?_
    have hx := mem_range.1 hx
    rw [idx_div hx, idx_mod hx]

theorem image_eq_map (C R : Nat) (f : Nat → Nat → ℝ) :
    Spec.image C R f = ((List.range (R * C)).map fun k => f (k / C) (k % C)).map fin := by
  simp [Spec.image, Function.comp_def]

theorem list_range_sum (n : Nat) (g : Nat → ℝ) : ((List.range n).map g).sum = ∑ k ∈ range n, g k := by
  induction n with
  | zero => simp
  | succ n ih => rw [List.range_succ, List.map_append, List.sum_append, ih, sum_range_succ]; simp

theorem image_sum (C R : Nat) (f : Nat → Nat → ℝ) :
    ((List.range (R * C)).map fun k => f (k / C) (k % C)).sum = Spec.total C R f := by
  rw [Spec.total, ← sum_grid]
  exact list_range_sum _ _

theorem kahanSum_image (C R : Nat) (f : Nat → Nat → ℝ) : kahanSum (Spec.image C R f) = fin (Spec.total C R f) := by
  rw [image_eq_map, kahanSum_fin, image_sum]

theorem normalizePsf_image (C R : Nat) (f : Nat → Nat → ℝ) (h : Spec.total C R f ≠ 0) :
    normalizePsf (Spec.image C R f) = Spec.image C R fun y x => f y x / Spec.total C R f := by
  unfold normalizePsf
  rw [kahanSum_image]
  unfold Spec.image
  rw [List.map_map]
  apply List.map_congr_left
  intro k _
  simp [h]

end Imfit
