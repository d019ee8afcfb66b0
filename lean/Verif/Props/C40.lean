import Verif.Lemmas.Psf
import Verif.Spec.Psf

/-!
# C40: PSF interpolation reproduces the PSF image

For the bicubic interpolator this holds, given what GSL promises (`Spec.Interpolates`). The Lanczos interpolators read the PSF array with the
column index in the place of the row index: they reproduce the transposed image when the PSF image is square, and read outside the array when it has
more columns than rows.
-/

namespace Imfit

open XR Spec

/-- The list of pixels as a function of the index. -/
theorem image_eq (C R : ℕ) (f : ℕ → ℕ → ℝ) : image C R f = (List.range (R * C)).map fun i => fin (f (i / C) (i % C)) := rfl

theorem half_odd (a : ℕ) : half (2 * a + 1) = a := by unfold half; push_cast; ring

theorem half_nonneg {n : ℕ} (h : 1 ≤ n) : 0 ≤ half n := by
  unfold half
  have : (1 : ℝ) ≤ n := by exact_mod_cast h
  linarith

theorem half_pixel {n c : ℕ} (h : c < n) : -half n ≤ (c : ℝ) - half n ∧ (c : ℝ) - half n ≤ half n := by
  have h1 : (c : ℝ) ≤ n - 1 := by
    have : (c : ℝ) + 1 ≤ n := by exact_mod_cast h
    linarith
  have h2 : half n + half n = n - 1 := by unfold half; ring
  have h3 : (0 : ℝ) ≤ c := Nat.cast_nonneg _
  constructor <;> linarith

/-- Outside the PSF image there is no light, with any interpolator; this includes infinite distances. -/
theorem C40_outside (data : List XR) (C R : ℕ) (x y : XR) (hx : x ≠ nan) (hy : y ≠ nan)
    (h : (∀ v, x = fin v → v < -half C ∨ half C < v) ∨ (∀ v, y = fin v → v < -half R ∨ half R < v)) :
    (∀ k, lanczosValue k (psfInterp data C R) x y = .ok 0) ∧ ∀ spline, bicubicValue spline (psfInterp data C R) x y = .ok 0 := by
  have key : outsidePsf (psfInterp data C R) x y = true := by
    rw [psfInterp_fin]
    unfold outsidePsf
    simp only [fin_neg, Bool.or_eq_true]
    rcases h with h | h
    · cases x with
      | fin v =>
        rcases h v rfl with h | h
        · exact Or.inl (Or.inl (Or.inl (by simpa using h)))
        · exact Or.inl (Or.inl (Or.inr (by simpa using h)))
      | pinf => exact Or.inl (Or.inl (Or.inr rfl))
      | ninf => exact Or.inl (Or.inl (Or.inl rfl))
      | nan => exact absurd rfl hx
    · cases y with
      | fin v =>
        rcases h v rfl with h | h
        · exact Or.inl (Or.inr (by simpa using h))
        · exact Or.inr (by simpa using h)
      | pinf => exact Or.inr rfl
      | ninf => exact Or.inl (Or.inr rfl)
      | nan => exact absurd rfl hy
  refine ⟨fun k => ?_, fun s => ?_⟩
  · unfold lanczosValue; rw [if_pos key]; rfl
  · unfold bicubicValue; rw [if_pos key]; rfl

/-- Three pixels to the right of a 5 × 5 PSF image. -/
example (data : List XR) : lanczosValue 2 (psfInterp data 5 5) (fin 3) (fin 0) = .ok 0 :=
  (C40_outside data 5 5 _ _ (by simp) (by simp) (Or.inl fun v hv => Or.inr (by cases hv; unfold half; norm_num))).1 2

/-- With the bicubic interpolator a point source on a pixel reproduces the PSF image: same orientation, scaled by the flux, nothing outside. -/
theorem C40_bicubic {spline : List XR → List XR → List XR → XR → XR → Res XR} (hs : Interpolates spline) (a b : ℕ) (f : ℕ → ℕ → ℝ)
    (itot scale x0 y0 : ℝ) (dx dy : ℤ) :
    pointSource (bicubicValue spline (psfInterp (image (2 * a + 1) (2 * b + 1) f) (2 * a + 1) (2 * b + 1))) 1 (fin scale) (fin itot) (fin x0) (fin y0)
      (fin (x0 + dx)) (fin (y0 + dy)) = .ok (fin (itot * scale * pointLight a b f dx dy)) := by
  unfold pointSource
  simp only [lit_def, fin_sub, fin_mul]
  have e1 : (((1 : ℕ) : ℚ) : ℝ) * (x0 + dx - x0) = (dx : ℝ) := by push_cast; ring
  have e2 : (((1 : ℕ) : ℚ) : ℝ) * (y0 + dy - y0) = (dy : ℝ) := by push_cast; ring
  rw [e1, e2]
  unfold bicubicValue pointLight zeroOutside
  by_cases h : 0 ≤ (b : ℤ) + dy ∧ (b : ℤ) + dy < (2 * b + 1 : ℕ) ∧ 0 ≤ (a : ℤ) + dx ∧ (a : ℤ) + dx < (2 * a + 1 : ℕ)
  · rw [if_neg, if_pos h]
    · obtain ⟨i, hi⟩ := Int.eq_ofNat_of_zero_le h.2.2.1
      obtain ⟨j, hj⟩ := Int.eq_ofNat_of_zero_le h.1
      have hi' : i < 2 * a + 1 := by omega
      have hj' : j < 2 * b + 1 := by omega
      rw [hi, hj]
      simp only [Int.toNat_natCast]
      have hx : ∀ n : ℕ, ((List.range n).map fun m : ℕ => (m : ℝ) - half n).Pairwise (· < ·) := by
        intro n
        rw [List.pairwise_map]
        refine List.Pairwise.imp ?_ (List.pairwise_lt_range (n := n))
        intro p q hpq
        have : (p : ℝ) < q := by exact_mod_cast hpq
        linarith
      have hlt : j * (2 * a + 1) + i < (2 * b + 1) * (2 * a + 1) := idx_lt hj' hi'
      have := hs ((List.range (2 * a + 1)).map fun m : ℕ => (m : ℝ) - half (2 * a + 1)) ((List.range (2 * b + 1)).map fun m : ℕ => (m : ℝ) - half (2 * b + 1))
        ((List.range ((2 * b + 1) * (2 * a + 1))).map fun k => f (k / (2 * a + 1)) (k % (2 * a + 1))) (hx _) (hx _)
        (by simp [Nat.mul_comm]) i j (by simpa using hi') (by simpa using hj') (by simpa using hlt)
      simp only [List.map_map, List.length_map, List.length_range, List.getElem_map, List.getElem_range] at this
      have ei : (i : ℝ) - half (2 * a + 1) = dx := by
        rw [half_odd]
        have : ((a : ℝ) + dx) = i := by exact_mod_cast hi
        linarith
      have ej : (j : ℝ) - half (2 * b + 1) = dy := by
        rw [half_odd]
        have : ((b : ℝ) + dy) = j := by exact_mod_cast hj
        linarith
      rw [ei, ej, idx_div hi', idx_mod hi'] at this
      rw [psfInterp_fin, image_eq]
      simp only [Function.comp_def] at this
      rw [this]
      simp only [ok_bind, pure_eq_ok, fin_mul]
    · rw [outside_fin, half_odd, half_odd]
      push Not
      refine ⟨?_, ?_, ?_, ?_⟩
      · have : (-(a : ℤ)) ≤ dx := by omega
        exact_mod_cast this
      · have : dx ≤ (a : ℤ) := by omega
        exact_mod_cast this
      · have : (-(b : ℤ)) ≤ dy := by omega
        exact_mod_cast this
      · have : dy ≤ (b : ℤ) := by omega
        exact_mod_cast this
  · rw [if_pos, if_neg h]
    · simp only [ok_bind, pure_eq_ok, zero_def, fin_mul]
    · rw [outside_fin, half_odd, half_odd]
      have h' : dx < -(a : ℤ) ∨ (a : ℤ) < dx ∨ dy < -(b : ℤ) ∨ (b : ℤ) < dy := by omega
      rcases h' with h' | h' | h' | h'
      · exact Or.inl (by exact_mod_cast h')
      · exact Or.inr (Or.inl (by exact_mod_cast h'))
      · exact Or.inr (Or.inr (Or.inl (by exact_mod_cast h')))
      · exact Or.inr (Or.inr (Or.inr (by exact_mod_cast h')))

open Classical in
/-- The promise can be kept: looking the node up. -/
theorem C40_interpolates_possible : ∃ spline, Interpolates spline := by
  refine ⟨fun xs ys z x y => rd z (ys.idxOf y * xs.length + xs.idxOf x), ?_⟩
  intro xs ys z hx hy _ i j hi hj hz
  have nd : ∀ l : List ℝ, l.Pairwise (· < ·) → (l.map fin).Nodup := fun l h =>
    (h.imp fun hab => ne_of_lt hab).map (f := fin) fun _ _ h => by simpa using h
  have e1 : (xs.map fin).idxOf (fin xs[i]) = i := by
    have := (nd xs hx).idxOf_getElem i (by simpa using hi)
    simpa using this
  have e2 : (ys.map fin).idxOf (fin ys[j]) = j := by
    have := (nd ys hy).idxOf_getElem j (by simpa using hj)
    simpa using this
  simp only [e1, e2, List.length_map]
  rw [rd_ok (by simpa using hz)]
  simp

/-- An asymmetric 3 × 5 PSF image: the pixel one to the right and two up has the value of column 2, row 4. -/
example {spline : List XR → List XR → List XR → XR → XR → Res XR} (hs : Interpolates spline) :
    pointSource (bicubicValue spline (psfInterp (image 3 5 fun r c => 10 * r + c) 3 5)) 1 (fin 1) (fin 2) (fin 50) (fin 60) (fin 51) (fin 62) =
      .ok (fin 84) := by
  have := C40_bicubic hs 1 2 (fun r c => 10 * r + c) 2 1 50 60 1 2
  norm_num [pointLight, zeroOutside] at this
  have e4 : Int.toNat 4 = 4 := rfl
  have e2 : Int.toNat 2 = 2 := rfl
  rw [e4, e2] at this
  norm_num at this
  exact this

/-- A point source is linear in its flux and depends only on the distance from its position, with any interpolator. -/
theorem C40_linear (interp : XR → XR → Res XR) (v : ℝ → ℝ → ℝ) (hv : ∀ x y, interp (fin x) (fin y) = .ok (fin (v x y))) (n : ℕ)
    (itot scale x0 y0 x y : ℝ) :
    pointSource interp n (fin scale) (fin itot) (fin x0) (fin y0) (fin x) (fin y) = .ok (fin (itot * (scale * v (n * (x - x0)) (n * (y - y0))))) := by
  unfold pointSource
  simp only [lit_def, fin_sub, fin_mul, hv, ok_bind, pure_eq_ok, Rat.cast_natCast, mul_assoc]

/-- Doubling the flux doubles the light. -/
example : pointSource (fun _ _ => .ok (fin 5)) 1 (fin 1) (fin 2) (fin 3) (fin 4) (fin 3) (fin 4) = .ok (fin 10) := by
  rw [C40_linear _ (fun _ _ => 5) (fun _ _ => rfl)]; norm_num

/-- With at least as many rows as columns the Lanczos interpolators read only pixels of the PSF array, at every point (also infinitely far away), and
return a number. Missing: PSF images with more columns than rows, see `C40_overrun_false`. -/
theorem C40_in_bounds_partial {k C R : ℕ} (hk : 0 < k) (g : ℕ → ℝ) (hC : 2 ≤ C) (hCR : C ≤ R) (hR : R < 2147483648) (x y : XR) (hx : x ≠ nan)
    (hy : y ≠ nan) : ∃ v, lanczosValue k (psfInterp ((List.range (R * C)).map fun i => fin (g i)) C R) x y = .ok (fin v) := by
  by_cases h : (∀ v, x = fin v → v < -half C ∨ half C < v) ∨ (∀ v, y = fin v → v < -half R ∨ half R < v)
  · exact ⟨0, (C40_outside _ C R x y hx hy h).1 k⟩
  · push Not at h
    obtain ⟨⟨v, rfl, hv1, hv2⟩, w, rfl, hw1, hw2⟩ := h
    exact ⟨_, lanczosValue_fin hk g hC hCR hR hv1 hv2 hw1 hw2⟩

/-- A 4 × 6 PSF image. -/
example (g : ℕ → ℝ) : ∃ v, lanczosValue 3 (psfInterp ((List.range (6 * 4)).map fun i => fin (g i)) 4 6) (fin (3 / 2)) (fin (-1 / 3)) = .ok (fin v) :=
  C40_in_bounds_partial (by norm_num) g (by norm_num) (by norm_num) (by norm_num) _ _ (by simp) (by simp)

/-- With more columns than rows the Lanczos interpolators read beyond the PSF array, for every such size. -/
theorem C40_overrun_false {k C R : ℕ} (hk : 0 < k) (data : List XR) (hd : data.length = R * C) (hR : 2 ≤ R) (hCR : R < C) (hC : C < 2147483648) :
    lanczosValue k (psfInterp data C R) (fin (half C)) (fin (half R)) = .error .oob := by
  unfold lanczosValue
  have hC0 := half_nonneg (n := C) (by omega)
  have hR0 := half_nonneg (n := R) (by omega)
  rw [if_neg (by rw [outside_fin]; push Not; exact ⟨by linarith, le_refl _, by linarith, le_refl _⟩)]
  have ex : (psfInterp data C R : PsfInterp XR).xArray = (List.range C).map fun m : ℕ => fin ((m : ℝ) - half C) := by rw [psfInterp_fin]
  have ey : (psfInterp data C R : PsfInterp XR).yArray = (List.range R).map fun m : ℕ => fin ((m : ℝ) - half R) := by rw [psfInterp_fin]
  have fl : ∀ n : ℕ, 1 ≤ n → ⌊half n + half n⌋ = (n : ℤ) - 1 := by
    intro n _
    have : half n + half n = (((n : ℤ) - 1 : ℤ) : ℝ) := by unfold half; push_cast; ring
    rw [this, Int.floor_intCast]
  rw [ex, ey, (findIndex_fin (by omega) hC (by linarith) (le_refl _)).1, (findIndex_fin hR (by omega) (by linarith) (le_refl _)).1, fl C (by omega),
    fl R (by omega)]
  simp only [ok_bind]
  refine forN_oob _ _ _ (fun z t _ => lanczosColumn_ok_or_oob k _ _ _ _ _ _) ⟨k, by omega, fun t => ?_⟩
  unfold lanczosColumn
  have hc : (psfInterp data C R : PsfInterp XR).nColumns = C := rfl
  have hr : (psfInterp data C R : PsfInterp XR).nRows = R := rfl
  rw [hc, if_neg (by omega), ex]
  have e1 : rdI ((List.range C).map fun m : ℕ => fin ((m : ℝ) - half C)) ((C : ℤ) - 1 + ((k : ℤ) - k)) = .ok (fin (((C - 1 : ℕ) : ℝ) - half C)) := by
    unfold rdI
    have : (C : ℤ) - 1 + ((k : ℤ) - k) = ((C - 1 : ℕ) : ℤ) := by omega
    rw [this, if_neg (by omega), Int.toNat_natCast, rd_range_map _ (by omega)]
  rw [e1]
  simp only [ok_bind]
  refine forN_oob _ _ _ (fun z t _ => lanczosPixel_ok_or_oob k _ _ _ _ _ _ _) ⟨k, by omega, fun t => ?_⟩
  unfold lanczosPixel
  rw [hr, if_neg (by omega), ey, hc]
  have e2 : rdI ((List.range R).map fun m : ℕ => fin ((m : ℝ) - half R)) ((R : ℤ) - 1 + ((k : ℤ) - k)) = .ok (fin (((R - 1 : ℕ) : ℝ) - half R)) := by
    unfold rdI
    have : (R : ℤ) - 1 + ((k : ℤ) - k) = ((R - 1 : ℕ) : ℤ) := by omega
    rw [this, if_neg (by omega), Int.toNat_natCast, rd_range_map _ (by omega)]
  rw [e2]
  simp only [ok_bind]
  have e3 : rdI (psfInterp data C R : PsfInterp XR).data ((((C : ℤ) - 1 + ((k : ℤ) - k)).toNat : ℤ) * C + ((R : ℤ) - 1 + ((k : ℤ) - k))) = .error .oob := by
    have h1 : ((C : ℤ) - 1 + ((k : ℤ) - k)).toNat = C - 1 := by omega
    have h2 : (((C - 1 : ℕ) : ℤ) * C + ((R : ℤ) - 1 + ((k : ℤ) - k))) = (((C - 1) * C + (R - 1) : ℕ) : ℤ) := by
      push_cast
      rw [Nat.cast_sub (show 1 ≤ R by omega)]
      push_cast; ring
    rw [h1, h2]
    unfold rdI
    rw [if_neg (by omega), Int.toNat_natCast, rd_oob]
    show data.length ≤ _
    rw [hd]
    have : R * C ≤ (C - 1) * C := Nat.mul_le_mul_right _ (by omega)
    omega
  rw [e3]
  rfl

/-- The smallest PSF image with more columns than rows that the program accepts. -/
example : lanczosValue 2 (psfInterp (List.replicate 20 (fin 1)) 5 4) (fin 2) (fin (3 / 2)) = .error .oob := by
  have := C40_overrun_false (k := 2) (C := 5) (R := 4) (by norm_num) (List.replicate 20 (fin 1)) (by simp) (by norm_num) (by norm_num) (by norm_num)
  have h5 : half 5 = 2 := by unfold half; norm_num
  have h4 : half 4 = 3 / 2 := by unfold half; norm_num
  rwa [h5, h4] at this

/-- On the pixel in column `c` and row `r` the Lanczos interpolators return, to one part in 10¹³ of the largest PSF value, the array element
`c * columns + r`. Missing: the PSF array is stored row by row, so this is not the pixel in column `c` and row `r`. -/
theorem C40_lanczos_pixel_partial {k C R : ℕ} (hk : 0 < k) (hk3 : k ≤ 3) (g : ℕ → ℝ) (M : ℝ) (hg : ∀ i, i < R * C → |g i| ≤ M) (hC : 2 ≤ C)
    (hCR : C ≤ R) (hR : R < 2147483648) {r c : ℕ} (hr : r < R) (hc : c < C) :
    ∃ v, lanczosValue k (psfInterp ((List.range (R * C)).map fun i => fin (g i)) C R) (fin ((c : ℝ) - half C)) (fin ((r : ℝ) - half R)) = .ok (fin v) ∧
      |v - g (c * C + r)| ≤ M / 10 ^ 13 := by
  have hx := half_pixel hc
  have hy := half_pixel hr
  refine ⟨_, lanczosValue_fin hk g hC hCR hR hx.1 hx.2 hy.1 hy.2, ?_⟩
  have fx : ⌊(c : ℝ) - half C + half C⌋ = (c : ℤ) := by rw [sub_add_cancel, Int.floor_natCast]
  have fy : ⌊(r : ℝ) - half R + half R⌋ = (r : ℤ) := by rw [sub_add_cancel, Int.floor_natCast]
  rw [fx, fy, ← Finset.sum_product']
  have hM : 0 ≤ M := (abs_nonneg _).trans (hg 0 (Nat.mul_pos (by omega) (by omega)))
  have hmem : (k, k) ∈ Finset.range (2 * k + 1) ×ˢ Finset.range (2 * k + 1) := by simp; omega
  rw [← Finset.add_sum_erase _ _ hmem]
  have h0 : lzTerm k C R g ((c : ℝ) - half C) ((r : ℝ) - half R) ((c : ℤ) + ((k : ℤ) - k)) ((r : ℤ) + ((k : ℤ) - k)) = g (c * C + r) := by
    unfold lzTerm
    rw [sub_self, add_zero, add_zero, if_neg (by omega)]
    simp only [Int.cast_natCast, sub_self, lz_zero, one_mul, Int.toNat_natCast]
  simp only [h0, add_sub_cancel_left]
  have hterm : ∀ p ∈ (Finset.range (2 * k + 1) ×ˢ Finset.range (2 * k + 1)).erase (k, k),
      |lzTerm k C R g ((c : ℝ) - half C) ((r : ℝ) - half R) ((c : ℤ) + ((p.1 : ℤ) - k)) ((r : ℤ) + ((p.2 : ℤ) - k))| ≤ 2 / 10 ^ 15 * M := by
    intro p hp
    have hne : p ≠ (k, k) := (Finset.mem_erase.1 hp).1
    unfold lzTerm
    split
    · rw [abs_zero]; positivity
    · rename_i hin
      push Not at hin
      have e1 : (c : ℝ) - half C - ((((c : ℤ) + ((p.1 : ℤ) - k) : ℤ) : ℝ) - half C) = (((k : ℤ) - p.1 : ℤ) : ℝ) := by push_cast; ring
      have e2 : (r : ℝ) - half R - ((((r : ℤ) + ((p.2 : ℤ) - k) : ℤ) : ℝ) - half R) = (((k : ℤ) - p.2 : ℤ) : ℝ) := by push_cast; ring
      rw [e1, e2, abs_mul, abs_mul]
      have hgb : |g (((c : ℤ) + ((p.1 : ℤ) - k)).toNat * C + ((r : ℤ) + ((p.2 : ℤ) - k)).toNat)| ≤ M := by
        apply hg
        obtain ⟨h1, h2, h3, h4⟩ := hin
        generalize ((c : ℤ) + ((p.1 : ℤ) - k)) = u at *
        generalize ((r : ℤ) + ((p.2 : ℤ) - k)) = w at *
        obtain ⟨u, rfl⟩ := Int.eq_ofNat_of_zero_le h1
        obtain ⟨w, rfl⟩ := Int.eq_ofNat_of_zero_le h3
        simp only [Int.toNat_natCast]
        have hu : u < C := by exact_mod_cast h2
        have hw : w < R := by exact_mod_cast h4
        have h5 : (u + 1) * C ≤ C * C := Nat.mul_le_mul_right _ hu
        by_cases hR1 : R = C
        · subst hR1; nlinarith
        · obtain ⟨d, rfl⟩ : ∃ d, R = C + d := ⟨R - C, by omega⟩
          have h6 : d * 1 ≤ d * C := Nat.mul_le_mul_left _ (by omega)
          nlinarith
      have hlz : |lz k (((k : ℤ) - p.1 : ℤ) : ℝ)| * |lz k (((k : ℤ) - p.2 : ℤ) : ℝ)| ≤ 2 / 10 ^ 15 := by
        by_cases h1 : p.1 = k
        · have h2 : p.2 ≠ k := fun h2 => hne (Prod.ext h1 h2)
          calc _ ≤ 1 * (2 / 10 ^ 15) := mul_le_mul (lz_int_le hk hk3 _) (lz_int hk hk3 (by omega)) (abs_nonneg _) (by norm_num)
            _ = _ := one_mul _
        · calc _ ≤ (2 / 10 ^ 15) * 1 := mul_le_mul (lz_int hk hk3 (by omega)) (lz_int_le hk hk3 _) (abs_nonneg _) (by norm_num)
            _ = _ := mul_one _
      exact mul_le_mul hlz hgb (abs_nonneg _) (by norm_num)
  refine (Finset.abs_sum_le_sum_abs _ _).trans ((Finset.sum_le_card_nsmul _ _ _ hterm).trans ?_)
  rw [Finset.card_erase_of_mem hmem, Finset.card_product, Finset.card_range, nsmul_eq_mul]
  have hcard : (((2 * k + 1) * (2 * k + 1) - 1 : ℕ) : ℝ) ≤ 48 := by
    have : (2 * k + 1) * (2 * k + 1) - 1 ≤ 48 := by
      have : (2 * k + 1) * (2 * k + 1) ≤ 7 * 7 := Nat.mul_le_mul (by omega) (by omega)
      omega
    exact_mod_cast this
  calc _ ≤ 48 * (2 / 10 ^ 15 * M) := mul_le_mul_of_nonneg_right hcard (by positivity)
    _ ≤ M / 10 ^ 13 := by
      have : (48 : ℝ) * (2 / 10 ^ 15 * M) = M / 10 ^ 13 * (96 / 100) := by ring
      rw [this]
      have : 0 ≤ M / 10 ^ 13 := by positivity
      linarith

/-- Square PSF images come out transposed. -/
theorem C40_transposed_partial {k n : ℕ} (hk : 0 < k) (hk3 : k ≤ 3) (f : ℕ → ℕ → ℝ) (M : ℝ) (hf : ∀ r c, |f r c| ≤ M) (hn : 2 ≤ n) (hn2 : n < 2147483648)
    {r c : ℕ} (hr : r < n) (hc : c < n) :
    ∃ v, lanczosValue k (psfInterp (image n n f) n n) (fin ((c : ℝ) - half n)) (fin ((r : ℝ) - half n)) = .ok (fin v) ∧ |v - f c r| ≤ M / 10 ^ 13 := by
  obtain ⟨v, h1, h2⟩ := C40_lanczos_pixel_partial hk hk3 (fun i => f (i / n) (i % n)) M (fun i _ => hf _ _) hn (le_refl n) hn2 hr hc
  refine ⟨v, h1, ?_⟩
  rwa [idx_div hr, idx_mod hr] at h2

/-- Square PSF images that are their own transposes are reproduced. Missing: all others. -/
theorem C40_symmetric_partial {k n : ℕ} (hk : 0 < k) (hk3 : k ≤ 3) (f : ℕ → ℕ → ℝ) (M : ℝ) (hf : ∀ r c, |f r c| ≤ M) (hsym : ∀ r c, f r c = f c r)
    (hn : 2 ≤ n) (hn2 : n < 2147483648) {r c : ℕ} (hr : r < n) (hc : c < n) :
    ∃ v, lanczosValue k (psfInterp (image n n f) n n) (fin ((c : ℝ) - half n)) (fin ((r : ℝ) - half n)) = .ok (fin v) ∧ |v - f r c| ≤ M / 10 ^ 13 := by
  rw [hsym r c]; exact C40_transposed_partial hk hk3 f M hf hn hn2 hr hc

/-- A symmetric 5 × 5 image. -/
example : ∃ v, lanczosValue 3 (psfInterp (image 5 5 fun r c => if r = 2 ∧ c = 2 then 4 else 1) 5 5) (fin (((2 : ℕ) : ℝ) - half 5)) (fin (((2 : ℕ) : ℝ) - half 5)) =
    .ok (fin v) ∧ |v - 4| ≤ 4 / 10 ^ 13 := by
  have := C40_symmetric_partial (k := 3) (n := 5) (r := 2) (c := 2) (by norm_num) (by norm_num) (fun r c => if r = 2 ∧ c = 2 then 4 else 1) 4
    (fun r c => by split <;> norm_num) (fun r c => by simp only [and_comm]) (by norm_num) (by norm_num) (by norm_num) (by norm_num)
  simpa using this

/-- The Lanczos interpolators do not reproduce the PSF image, not even roughly: for the 4 × 4 image with a single bright pixel in row 0, column 1, the
value on that pixel is below one thousandth instead of 1. -/
theorem C40_transposed_false : ∃ f : ℕ → ℕ → ℝ, f 0 1 = 1 ∧ ∀ k, 0 < k → k ≤ 3 →
    ∃ v, lanczosValue k (psfInterp (image 4 4 f) 4 4) (fin (((1 : ℕ) : ℝ) - half 4)) (fin (((0 : ℕ) : ℝ) - half 4)) = .ok (fin v) ∧ |v| ≤ 1 / 1000 := by
  refine ⟨fun r c => if r = 0 ∧ c = 1 then 1 else 0, by simp, fun k hk hk3 => ?_⟩
  obtain ⟨v, h1, h2⟩ := C40_transposed_partial (n := 4) (r := 0) (c := 1) hk hk3 (fun r c => if r = 0 ∧ c = 1 then (1 : ℝ) else 0) 1
    (fun r c => by split <;> norm_num) (by norm_num) (by norm_num) (by norm_num) (by norm_num)
  refine ⟨v, h1, ?_⟩
  have e : (if (1 : ℕ) = 0 ∧ (0 : ℕ) = 1 then (1 : ℝ) else 0) = 0 := by simp
  rw [e, sub_zero] at h2
  exact h2.trans (by norm_num)

/-- A PSF image with one column (never accepted by `SetupPsfInterpolation`) makes `FindIndex` read outside its array. -/
theorem C40_one_column_false (data : List XR) (R : ℕ) (k : ℕ) : lanczosValue k (psfInterp data 1 (2 * R + 1)) (fin 0) (fin 0) = .error .oob := by
  unfold lanczosValue
  have h1 : half 1 = 0 := by unfold half; norm_num
  rw [if_neg (by rw [outside_fin, half_odd, h1]; push Not; exact ⟨by simp, le_refl _, by simp, by simp⟩)]
  rw [psfInterp_fin]
  rfl

end Imfit
