import Verif.Lemmas.FuncSetup
import Mathlib.Tactic.IntervalCases

/-!
# C42 — pixel sub-sampling
-/

namespace Imfit

open Spec XR Finset

/-- C42: with exact arithmetic, the value of a pixel is the mean of the documented profile over a regular `n × n` grid, `1 ≤ n ≤ 100`; `n` depends only on the
radius of the pixel centre. (Partial: the scale must not be so small that `(int)(40/scale)` overflows, see `C42_tiny_scale_false`.) -/
theorem C42_mean_partial (F : EFun) (doSub : Bool) (ps rot is : ℝ) (hps : 0 < ps) (ph : Phys) (hell : ph.ell < 1) (hsize : 0 < ph.size) (hshape : 0 < ph.shape)
    (htiny : doSub = true → 1 / 10 ^ 7 ≤ F.subScale (ph.inImage ps rot is)) (pre post : List XR) (x0 y0 : ℝ) :
    ∃ N : ℝ → ℕ, (∀ r, 0 ≤ r → 1 ≤ N r ∧ N r ≤ 100) ∧ ∀ x y,
      F.value doSub ⟨fin ps, fin rot, fin is⟩ (pre ++ F.params ph ++ post) pre.length (fin x0) (fin y0) (fin x) (fin y) =
        .ok (fin (pixelMean (N (ellRadius (1 - ph.ell) (ph.inImage ps rot is).angle (x - x0) (y - y0)))
          (fun a b => F.spec (ph.inImage ps rot is) (ellRadius (1 - ph.ell) (ph.inImage ps rot is).angle (a - x0) (b - y0))) x y)) := by
  obtain ⟨f, hf, he, hn⟩ := setup_isEll F doSub ps rot is hps ph hell hsize hshape pre post x0 y0
  have hsc : 0 < F.subScale (ph.inImage ps rot is) := F.subScale_pos (by simp only [Phys.inImage]; positivity) hshape
  have hN : ∀ r : ℝ, ∃ n : ℕ, 0 ≤ r → f.nsub (fin r) = .ok (n : Int) ∧ 1 ≤ n ∧ n ≤ 100 := by
    intro r
    by_cases hr : 0 ≤ r
    · obtain ⟨n, h⟩ := galfitSub_fin doSub F.subNum F.subThresh (by cases F <;> norm_num [EFun.subNum]) (by cases F <;> norm_num [EFun.subThresh])
        (F.subScale (ph.inImage ps rot is)) r hsc (fun hd => .inl (by
          rw [div_lt_iff₀ hsc]
          have h40 : (F.subNum : ℝ) ≤ 40 := by cases F <;> norm_num [EFun.subNum]
          have := htiny hd
          have : (2147483648 : ℝ) * (1 / 10 ^ 7) ≤ 2147483648 * F.subScale (ph.inImage ps rot is) := by linarith
          norm_num at this
          linarith))
      exact ⟨n, fun _ => by rw [hn]; exact h⟩
    · exact ⟨0, fun h => absurd h hr⟩
  choose N hN using hN
  refine ⟨N, fun r hr => (hN r hr).2, fun x y => ?_⟩
  have := hN _ (ellRadius_nonneg (1 - ph.ell) (ph.inImage ps rot is).angle (x - x0) (y - y0))
  unfold EFun.value
  rw [hf, ok_bind]
  exact ellValue_fin he x y _ this.2.1 this.1

/-- C42: without sub-sampling, or at radius 10 and beyond, the value is the profile at the pixel centre. -/
theorem C42_central (F : EFun) (doSub : Bool) (ps rot is : ℝ) (hps : 0 < ps) (ph : Phys) (hell : ph.ell < 1) (hsize : 0 < ph.size) (hshape : 0 < ph.shape)
    (pre post : List XR) (x0 y0 x y : ℝ) (h : doSub = false ∨ 10 ≤ ellRadius (1 - ph.ell) (ph.inImage ps rot is).angle (x - x0) (y - y0)) :
    F.value doSub ⟨fin ps, fin rot, fin is⟩ (pre ++ F.params ph ++ post) pre.length (fin x0) (fin y0) (fin x) (fin y) =
      .ok (fin (F.spec (ph.inImage ps rot is) (ellRadius (1 - ph.ell) (ph.inImage ps rot is).angle (x - x0) (y - y0)))) := by
  obtain ⟨f, hf, he, hn⟩ := setup_isEll F doSub ps rot is hps ph hell hsize hshape pre post x0 y0
  have h1 : f.nsub (fin (ellRadius (1 - ph.ell) (ph.inImage ps rot is).angle (x - x0) (y - y0))) = .ok ((1 : ℕ) : Int) := by
    rw [hn]
    unfold galfitSub
    rcases h with h | h
    · subst h; rfl
    · have : decide (ellRadius (1 - ph.ell) (ph.inImage ps rot is).angle (x - x0) (y - y0) < ((10 : ℚ) : ℝ)) = false := by
        simpa using h
      simp only [lit_def, flt_fin, this, Bool.and_false, Bool.false_eq_true, if_false]
      rfl
  unfold EFun.value
  rw [hf, ok_bind, ellValue_fin he x y 1 le_rfl h1, pixelMean_one]

/-- C42: the grid points lie strictly inside the pixel. -/
theorem C42_grid_inside (n i : ℕ) (hi : i < n) (x : ℝ) : x - 1 / 2 < gridPoint n i x ∧ gridPoint n i x < x + 1 / 2 := by
  have hn : (0 : ℝ) < n := by exact_mod_cast (by omega : 0 < n)
  have hi' : (i : ℝ) + 1 ≤ n := by exact_mod_cast hi
  have h1 : 0 < ((i : ℝ) + 1 / 2) / n := by positivity
  have h2 : ((i : ℝ) + 1 / 2) / n < 1 := by rw [div_lt_one hn]; linarith
  unfold gridPoint
  constructor <;> linarith

/-- C42: neighbouring grid points are `1/n` apart. -/
theorem C42_grid_regular (n i : ℕ) (hn : 0 < n) (x : ℝ) : gridPoint n (i + 1) x - gridPoint n i x = 1 / n := by
  have hn : (0 : ℝ) < n := by exact_mod_cast hn
  unfold gridPoint
  push_cast
  field_simp
  ring

theorem gridPoint_reflect (n i : ℕ) (hi : i < n) (x c : ℝ) : 2 * c - gridPoint n i x = gridPoint n (n - 1 - i) (2 * c - x) := by
  have hn : (0 : ℝ) < n := by exact_mod_cast (by omega : 0 < n)
  unfold gridPoint
  rw [show n - 1 - i = n - (i + 1) by omega, Nat.cast_sub (by omega)]
  push_cast
  field_simp
  ring

/-- C42: the mean of the grid points is the centre of the pixel. -/
theorem C42_grid_mean (n : ℕ) (hn : 0 < n) (x : ℝ) : (∑ i ∈ range n, gridPoint n i x) / n = x := by
  have hn' : (0 : ℝ) < n := by exact_mod_cast hn
  have h : ∑ i ∈ range n, gridPoint n i x = ∑ i ∈ range n, (2 * x - gridPoint n i x) := by
    rw [← Finset.sum_range_reflect]
    refine Finset.sum_congr rfl fun i hi => ?_
    rw [gridPoint_reflect n i (Finset.mem_range.1 hi) x x]
    congr 1
    ring
  rw [Finset.sum_sub_distrib, Finset.sum_const, Finset.card_range, nsmul_eq_mul] at h
  rw [div_eq_iff hn'.ne']
  linarith

/-- C42: the mean over the grid of a constant, and of the coordinates, is that of the centre. -/
theorem C42_mean_linear (n : ℕ) (hn : 0 < n) (a b c x y : ℝ) : pixelMean n (fun u v => a * u + b * v + c) x y = a * x + b * y + c := by
  have hn' : (0 : ℝ) < n := by exact_mod_cast hn
  have hx := C42_grid_mean n hn x
  have hy := C42_grid_mean n hn y
  rw [div_eq_iff hn'.ne'] at hx hy
  unfold pixelMean
  rw [div_eq_iff (by positivity)]
  simp only [Finset.sum_add_distrib, ← Finset.mul_sum, Finset.sum_const, Finset.card_range, nsmul_eq_mul, hx, hy]
  ring

/-- C42 fails for very small scales: the conversion `(int)(20/h)` is undefined for an exponential with scale length 10⁻⁹ at its centre. -/
theorem C42_tiny_scale_false : EFun.exponential.value true (defaultDesc : ImgDesc XR) [fin 0, fin 0, fin 1, fin (1 / 10 ^ 9)] 0 (fin 5) (fin 5) (fin 5) (fin 5) =
    .error .overflow := by
  obtain ⟨f, hf, he, hn⟩ := setup_isEll .exponential true 1 0 1 one_pos ⟨0, 0, 1, 1 / 10 ^ 9, 1⟩ (by norm_num) (by norm_num) (by norm_num) [] [] 5 5
  have hd : (defaultDesc : ImgDesc XR) = ⟨fin 1, fin 0, fin 1⟩ := rfl
  unfold EFun.value
  rw [hd]
  have hf' : EFun.exponential.setup true (⟨fin 1, fin 0, fin 1⟩ : ImgDesc XR) [fin 0, fin 0, fin 1, fin (1 / 10 ^ 9)] 0 (fin 5) (fin 5) = .ok f := hf
  rw [hf', ok_bind]
  refine ellValue_error he 5 5 _ ?_
  have hr : ∀ q θ : ℝ, ellRadius q θ (5 - 5) (5 - 5) = 0 := fun q θ => by simp [ellRadius]
  rw [hn, hr]
  simp only [EFun.subScale, Phys.inImage, EFun.subNum, EFun.subThresh]
  unfold galfitSub
  simp only [lit_def, one_def, flt_fin, fle_fin]
  norm_num
  unfold capped
  rw [ftoi_big (by norm_num)]
  rfl

/-- A Sersic function: 20 × 20 points at radius 2. -/
example : ∃ n : ℕ, galfitSub true 20 4 (fin 5) (fin 2) = .ok (n : Int) ∧ n = 20 := by
  refine ⟨20, ?_, rfl⟩
  simp [galfitSub]
  norm_num

example : gridPoint 2 0 7 = 6.75 ∧ gridPoint 2 1 7 = 7.25 := by norm_num [gridPoint]

/-- The value of a pixel next to the centre of an exponential function with its own parameters after those of another function. -/
example : ∃ n : ℕ, 1 ≤ n ∧ n ≤ 100 ∧ EFun.exponential.value true ⟨fin 1, fin 0, fin 1⟩ ([fin 8, fin 9] ++ [fin 10, fin (1 / 2), fin 100, fin 3] ++ [fin 4]) 2
    (fin 20) (fin 30) (fin 21) (fin 30) = .ok (fin (pixelMean n (fun a b => 100 * Real.exp
      (-(ellRadius (1 / 2) (100 * (17453292519943295 / 10 ^ 18)) (a - 20) (b - 30) / 3))) 21 30)) := by
  obtain ⟨N, h1, h2⟩ := C42_mean_partial .exponential true 1 0 1 one_pos ⟨10, 1 / 2, 100, 3, 1⟩ (by norm_num) (by norm_num) (by norm_num)
    (by intro _; norm_num [EFun.subScale, Phys.inImage]) [fin 8, fin 9] [fin 4] 20 30
  refine ⟨N (ellRadius (1 - 1 / 2) ((⟨10, 1 / 2, 100, 3, 1⟩ : Phys).inImage 1 0 1).angle (21 - 20) (30 - 30)), (h1 _ (ellRadius_nonneg _ _ _ _)).1,
    (h1 _ (ellRadius_nonneg _ _ _ _)).2, (h2 21 30).trans ?_⟩
  congr 3
  funext a b
  simp only [EFun.spec, expProfile, Phys.inImage, Phys.angle]
  norm_num

end Imfit
