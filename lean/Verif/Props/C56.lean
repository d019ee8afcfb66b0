import Verif.Props.C55

/-!
# C56: sub-sampling of the further functions
-/

namespace Imfit

open Spec XR

/-- The sizes, in pixels of the image, by which the sub-sampling rules divide. -/
noncomputable def PFun.divisors (t : ℝ) : PFun XR → List ℝ → List ℝ
  | .brokenExp, [_, _, _, h1, _, _, _] => [h1 * t]
  | .doubleBroken, [_, _, _, h1, _, _, _, _, _, _] => [h1]
  | .flatExp, [_, _, _, h, _, _] => [h]
  | .king, [_, _, _, rc, _, _] => [rc * t]
  | .king2, [_, _, _, rc, _, _] => [rc * t]
  | .coreSersic, [_, _, _, _, re, _, _, _] => [re * t]
  | .genExp, [_, _, _, _, h] => [h * t]
  | .genSersic, [_, _, _, _, _, re] => [re * t]
  | .ferrers, [_, _, _, _, _, abar] => [abar * t]
  | .brokenExp2d, [_, _, h1, _, _, _, _] => [h1 * t]
  | .brokenBar, [_, _, h1, _, _, _, _] => [h1]
  | .edgeDisk _, [_, _, h, _, z0] => [h * t, z0 * t]
  | .flatBar, [_, _, _, _, h1, _, _, _] => [h1 * t]
  | _, _ => []

theorem galfit_ok (doSub : Bool) (num thresh : ℚ) (hnum : 1 ≤ num) (hnum2 : num ≤ 40) (hth : 1 ≤ thresh) {s : ℝ} (hs : 1 / 10 ^ 7 ≤ s) (r : ℝ) :
    ∃ n : ℕ, galfitSub doSub num thresh (fin s) (fin r) = .ok (n : Int) ∧ 1 ≤ n ∧ n ≤ 100 := by
  have hs0 : 0 < s := lt_of_lt_of_le (by norm_num) hs
  refine galfitSub_fin doSub num thresh hnum hth s r hs0 fun _ => .inl ?_
  rw [div_lt_iff₀ hs0]
  have : (num : ℝ) ≤ 40 := by exact_mod_cast hnum2
  have h2 : (2147483648 : ℝ) * (1 / 10 ^ 7) ≤ 2147483648 * s := mul_le_mul_of_nonneg_left hs (by norm_num)
  norm_num at h2
  linarith

theorem capped20 {r : ℝ} (h1 : 1 / 10 ^ 7 ≤ r) (h2 : r ≤ 20) : ∃ n : ℕ, capped (fin 20 / fin r) = .ok (n : Int) ∧ 1 ≤ n ∧ n ≤ 100 := by
  have h0 : 0 < r := lt_of_lt_of_le (by norm_num) h1
  rw [fin_div_of_ne h0.ne']
  refine capped_fin ((le_div_iff₀ h0).2 (by linarith)) ?_
  rw [div_lt_iff₀ h0]
  have h2 : (2147483648 : ℝ) * (1 / 10 ^ 7) ≤ 2147483648 * r := mul_le_mul_of_nonneg_left h1 (by norm_num)
  norm_num at h2
  linarith

/-- `min(100, (int)(20/v))` for a value above 20: zero. -/
theorem capped20_big {r : ℝ} (h2 : 20 < r) : capped (fin 20 / fin r) = .ok ((0 : ℕ) : Int) := by
  have h0 : 0 < r := by linarith
  have h3 : 20 / r < 1 := (div_lt_one h0).2 h2
  have h4 : 0 ≤ 20 / r := by positivity
  rw [fin_div_of_ne h0.ne']
  unfold capped
  rw [ftoi_fin (by linarith) (by linarith)]
  simp only [ok_bind, pure_eq_ok]
  have hf : ⌊20 / r⌋ = 0 := Int.floor_eq_zero_iff.2 ⟨h4, h3⟩
  rw [hf]
  rfl

theorem capped20_any {r : ℝ} (h1 : 1 / 10 ^ 7 ≤ r) : ∃ n : ℕ, capped (fin 20 / fin r) = .ok (n : Int) ∧ n ≤ 100 ∧ (r ≤ 20 → 1 ≤ n) := by
  rcases le_or_gt r 20 with h | h
  · obtain ⟨n, a, b, c⟩ := capped20 h1 h
    exact ⟨n, a, c, fun _ => b⟩
  · exact ⟨0, capped20_big h, by norm_num, fun h' => absurd h' (not_le.2 h)⟩

theorem lit20 : (lit 20 : XR) = fin 20 := by simp [lit_def]
theorem lit10 : (lit 10 : XR) = fin 10 := by simp [lit_def]
theorem lit3 : (lit 3 : XR) = fin 3 := by simp [lit_def]
theorem lit4 : (lit 4 : XR) = fin 4 := by simp [lit_def]

theorem nuker_ok (doSub : Bool) (r : ℝ) : ∃ n : ℕ, nukerSub doSub (fin r) = .ok (n : Int) ∧ 1 ≤ n ∧ n ≤ 100 := by
  unfold nukerSub
  cases doSub with
  | false => exact ⟨1, rfl, le_rfl, by norm_num⟩
  | true =>
    simp only [lit20, lit10, lit4, Bool.true_and, flt_fin, fle_fin]
    by_cases h10 : r < 10
    · simp only [h10, decide_true, if_true]
      by_cases h4 : r ≤ 4
      · simp only [h4, decide_true, if_true]
        exact ⟨20, rfl, by norm_num, by norm_num⟩
      · simp only [h4, decide_false, Bool.false_eq_true, if_false]
        push Not at h4
        exact capped20 (by linarith) (by linarith)
    · simp only [h10, decide_false, Bool.false_eq_true, if_false]
      exact ⟨1, rfl, le_rfl, by norm_num⟩

theorem edgeDisk_ok (doSub : Bool) {h z0 : ℝ} (hh : 1 / 10 ^ 7 ≤ h) (hz : 1 / 10 ^ 7 ≤ z0) (u v : ℝ) :
    ∃ n : ℕ, edgeDiskSub doSub (fin h) (fin z0) (fin u) (fin v) = .ok (n : Int) ∧ 1 ≤ n ∧ n ≤ 100 := by
  unfold edgeDiskSub
  cases doSub with
  | false => exact ⟨1, rfl, le_rfl, by norm_num⟩
  | true =>
    simp only [lit20, lit10, lit3, one_def, Bool.true_and, fabs_fin, abs_abs, flt_fin, fle_fin]
    by_cases h10 : |u| < 10 ∨ |v| < 10
    · have e : (decide (|u| < 10) || decide (|v| < 10)) = true := by simpa using h10
      rw [if_pos e]
      by_cases h1 : (h ≤ 1 ∧ |u| ≤ 1) ∨ (z0 ≤ 1 ∧ |v| ≤ 1)
      · have e1 : (decide (h ≤ 1) && decide (|u| ≤ 1) || decide (z0 ≤ 1) && decide (|v| ≤ 1)) = true := by simpa using h1
        rw [if_pos e1]
        obtain ⟨a, ha, ha1, ha2⟩ := capped20_any hh
        obtain ⟨b, hb, hb1, hb2⟩ := capped20_any hz
        rw [ha, hb]
        refine ⟨max a b, by simp only [ok_bind, pure_eq_ok]; rw [Nat.cast_max], ?_, by omega⟩
        rcases h1 with h1 | h1
        · exact (ha2 (by linarith [h1.1])).trans (le_max_left _ _)
        · exact (hb2 (by linarith [h1.1])).trans (le_max_right _ _)
      · have e1 : ¬ (decide (h ≤ 1) && decide (|u| ≤ 1) || decide (z0 ≤ 1) && decide (|v| ≤ 1)) = true := by simpa using h1
        rw [if_neg e1]
        by_cases h3 : |u| ≤ 3 ∨ |v| ≤ 3
        · have e3 : (decide (|u| ≤ 3) || decide (|v| ≤ 3)) = true := by simpa using h3
          rw [if_pos e3]
          exact ⟨20, rfl, by norm_num, by norm_num⟩
        · have e3 : ¬ (decide (|u| ≤ 3) || decide (|v| ≤ 3)) = true := by simpa using h3
          rw [if_neg e3]
          push Not at h3
          obtain ⟨a, ha, ha1, ha2⟩ := capped20_any (r := |u|) (by linarith [h3.1])
          obtain ⟨b, hb, hb1, hb2⟩ := capped20_any (r := |v|) (by linarith [h3.2])
          rw [ha, hb]
          refine ⟨max a b, by simp only [ok_bind, pure_eq_ok]; rw [Nat.cast_max], ?_, by omega⟩
          rcases h10 with h10 | h10
          · exact (ha2 (by linarith)).trans (le_max_left _ _)
          · exact (hb2 (by linarith)).trans (le_max_right _ _)
    · have e : ¬ (decide (|u| < 10) || decide (|v| < 10)) = true := by simpa using h10
      rw [if_neg e]
      exact ⟨1, rfl, le_rfl, by norm_num⟩

/-- The sub-sampling rule of every function gives a number between 1 and 100 if the sizes it divides by are not tiny. -/
theorem nsub_ok (F : PFun XR) (doSub : Bool) (t ρ k : ℝ) (p : List ℝ) (hp : F.Physical p) (hd : doSub = true → ∀ s ∈ F.divisors t p, 1 / 10 ^ 7 ≤ s)
    (x0 y0 : ℝ) (f : PlaneFn XR) (hf : F.build doSub ⟨fin t, fin ρ, fin k⟩ (fin x0) (fin y0) (p.map fin) = .ok f) (u v : ℝ) :
    ∃ n : ℕ, f.nsub (fin u) (fin v) = .ok (n : Int) ∧ 1 ≤ n ∧ n ≤ 100 := by
  have one_ok : ∃ n : ℕ, (.ok 1 : Res Int) = .ok (n : Int) ∧ 1 ≤ n ∧ n ≤ 100 := ⟨1, rfl, le_rfl, by norm_num⟩
  cases doSub with
  | false =>
    have h : f.nsub (fin u) (fin v) = .ok 1 := by
      unfold PFun.Physical at hp
      split at hp <;> first | exact False.elim hp | skip
      all_goals
        simp only [List.map_cons, List.map_nil, PFun.build, Except.ok.injEq] at hf
        subst hf
        rfl
    rw [h]
    exact one_ok
  | true =>
    have hd := hd rfl
    unfold PFun.Physical at hp
    split at hp <;> first | exact False.elim hp | skip
    all_goals
      simp only [List.map_cons, List.map_nil, PFun.build, Except.ok.injEq] at hf
      subst hf
      simp only [PFun.divisors, List.mem_cons, List.not_mem_nil, or_false, forall_eq_or_imp, forall_eq] at hd
      simp only [planeFn, fin_mul, fin_sub, one_def, circR_fin]
    · simp only [ellR_fin (sub_pos.2 hp.1)]; exact galfit_ok _ _ _ (by norm_num) (by norm_num) (by norm_num) hd _
    · simp only [ellR_fin (sub_pos.2 hp.1)]; exact galfit_ok _ _ _ (by norm_num) (by norm_num) (by norm_num) hd _
    · simp only [ellR_fin (sub_pos.2 hp.1)]; exact galfit_ok _ _ _ (by norm_num) (by norm_num) (by norm_num) hd _
    · simp only [ellR_fin (sub_pos.2 hp.1)]; exact galfit_ok _ _ _ (by norm_num) (by norm_num) (by norm_num) hd _
    · simp only [ellR_fin (sub_pos.2 hp.1)]; exact galfit_ok _ _ _ (by norm_num) (by norm_num) (by norm_num) hd _
    · exact one_ok
    · exact one_ok
    · simp only [ellR_fin (sub_pos.2 hp.1)]; exact nuker_ok _ _
    · simp only [ellR_fin (sub_pos.2 hp.1)]; exact galfit_ok _ _ _ (by norm_num) (by norm_num) (by norm_num) hd _
    · simp only [genR_fin (sub_pos.2 hp.1) hp.2.1]; exact galfit_ok _ _ _ (by norm_num) (by norm_num) (by norm_num) hd _
    · simp only [genR_fin (sub_pos.2 hp.1) hp.2.1]; exact galfit_ok _ _ _ (by norm_num) (by norm_num) (by norm_num) hd _
    · simp only [genR_fin (sub_pos.2 hp.1) hp.2.1]; exact galfit_ok _ _ _ (by norm_num) (by norm_num) (by norm_num) hd _
    · exact one_ok
    · exact one_ok
    · exact galfit_ok _ _ _ (by norm_num) (by norm_num) (by norm_num) hd _
    · exact galfit_ok _ _ _ (by norm_num) (by norm_num) (by norm_num) hd _
    · exact edgeDisk_ok _ hd.1 hd.2 _ _
    · simp only [ellR_fin (sub_pos.2 hp.1)]; exact galfit_ok _ _ _ (by norm_num) (by norm_num) (by norm_num) hd _

/-- C56: with sizes of at least `1e-7` pixels every pixel of every function has a value: the mean of the intensity over a regular grid of 1 to 100 points on a side,
one point when sub-sampling is off. The condition on the sizes makes this partial. -/
theorem C56_mean_partial (F : PFun XR) (doSub : Bool) (t ρ k : ℝ) (ht : 0 < t) (p : List ℝ) (hp : F.Physical p)
    (hd : doSub = true → ∀ s ∈ F.divisors t p, 1 / 10 ^ 7 ≤ s) (pre post : List XR) (x0 y0 x y : ℝ) :
    ∃ n : ℕ, 1 ≤ n ∧ n ≤ 100 ∧ (doSub = false → n = 1) ∧
      F.value doSub ⟨fin t, fin ρ, fin k⟩ (pre ++ p.map fin ++ post) pre.length (fin x0) (fin y0) (fin x) (fin y) =
        .ok (fin (pixelMean n (fun a b => F.ref (F.adjust t ρ k p) (along (majorAxis (F.adjust t ρ k p)) (a - x0) (b - y0))
              (across (majorAxis (F.adjust t ρ k p)) (a - x0) (b - y0))) x y)) := by
  obtain ⟨f, hf, h⟩ := value_cases F doSub t ρ k ht p hp pre post x0 y0 x y
  obtain ⟨n, hn, h1, h2⟩ := nsub_ok F doSub t ρ k p hp hd x0 y0 f hf (along (majorAxis (F.adjust t ρ k p)) (x - x0) (y - y0))
    (across (majorAxis (F.adjust t ρ k p)) (x - x0) (y - y0))
  rcases h with ⟨e, h3, -⟩ | ⟨m, h3, h4⟩
  · rw [hn] at h3
    cases h3
  · rw [hn] at h3
    cases h3
    refine ⟨n, h1, h2, ?_, ?_⟩
    · intro h
      subst h
      obtain ⟨f', hf', hP⟩ := build_prepared F false t ρ k ht p hp x0 y0
      rw [hf] at hf'
      cases hf'
      rw [hP.off rfl] at hn
      injection hn with hn
      omega
    · rw [h4, Int.toNat_natCast, max_eq_right h1]

/-- A King profile next to its centre. -/
example : ∃ n : ℕ, 1 ≤ n ∧ n ≤ 100 ∧ (true = false → n = 1) ∧
    (PFun.king : PFun XR).value true ⟨fin 1, fin 0, fin 1⟩ ([] ++ [(20 : ℝ), 1 / 2, 100, 5, 50, 2].map fin ++ []) 0 (fin 10) (fin 10) (fin 11) (fin 10) =
      .ok (fin (pixelMean n (fun a b => PFun.king.ref (PFun.king.adjust 1 0 1 [20, 1 / 2, 100, 5, 50, 2])
        (along (majorAxis (PFun.king.adjust 1 0 1 [20, 1 / 2, 100, 5, 50, 2])) (a - 10) (b - 10))
        (across (majorAxis (PFun.king.adjust 1 0 1 [20, 1 / 2, 100, 5, 50, 2])) (a - 10) (b - 10))) 11 10)) :=
  C56_mean_partial .king true 1 0 1 one_pos [20, 1 / 2, 100, 5, 50, 2] ⟨by norm_num, by norm_num, by norm_num, by norm_num⟩
    (fun _ s hs => by simp only [PFun.divisors, List.mem_cons, List.not_mem_nil, or_false] at hs; subst hs; norm_num) [] [] 10 10 11 10

theorem edgeDiskSub_big : edgeDiskSub true (fin 1) (fin (1 / 10 ^ 9)) (fin 0) (fin 50) = .error .overflow := by
  unfold edgeDiskSub
  simp only [lit20, lit10, lit3, one_def, Bool.true_and, fabs_fin, abs_abs, flt_fin, fle_fin, abs_zero]
  rw [if_pos (by norm_num), if_pos (by norm_num)]
  obtain ⟨n, hn, -⟩ := capped20 (r := 1) (by norm_num) (by norm_num)
  rw [hn, ok_bind]
  unfold capped
  rw [fin_div_of_ne (by norm_num), ftoi_big (by norm_num)]
  rfl

/-- C56 fails for an edge-on disk with a tiny scale height: `(int)(20/z_0)` is outside the range of `int`, even in a pixel far from the plane of the disk, because the
scale length is at most 1 pixel and the pixel is close to the minor axis. -/
theorem C56_edgeDisk_false (k1 : XR → XR) (hk : ∀ x, 0 < x → ∃ y, k1 (fin x) = fin y) :
    (PFun.edgeDisk k1).value true defaultDesc ([(-90 : ℝ), 100, 1, 2, 1 / 10 ^ 9].map fin) 0 (fin 0) (fin 0) (fin 0) (fin 50) = .error .overflow := by
  obtain ⟨f, hf, h⟩ := value_cases (.edgeDisk k1) true 1 0 1 one_pos [-90, 100, 1, 2, 1 / 10 ^ 9] ⟨by norm_num, by norm_num, by norm_num, hk⟩ [] [] 0 0 0 50
  rw [adjust_one] at h
  simp only [List.map_cons, List.map_nil, PFun.build, Except.ok.injEq] at hf
  subst hf
  simp only [planeFn, fin_mul, majorAxis, neg_add_cancel, zero_mul, along, across, Real.cos_zero, Real.sin_zero, sub_zero, mul_one, mul_zero, add_zero,
    edgeDiskSub_big] at h
  rcases h with ⟨e, h1, h2⟩ | ⟨n, h1, -⟩
  · cases h1
    rw [defaultDesc_fin]
    exact h2
  · cases h1

end Imfit
