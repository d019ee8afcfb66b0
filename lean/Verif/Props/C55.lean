import Verif.Props.C41
import Verif.Props.C53

/-!
# C55: components are symmetric about their centre, proportional to their amplitude and nowhere negative
-/

namespace Imfit

open Spec XR

/-- For the two-sided edge-on ring the radius must not be negative; nothing for the others. -/
def PFun.properRadius : PFun XR → List ℝ → Prop
  | .edgeRing2, [_, _, r, _, _, _] => 0 ≤ r
  | _, _ => True

/-- Position of the amplitude among the parameters. -/
def PFun.ampIndex : PFun XR → Nat
  | .coreSersic => 3
  | .genExp => 3
  | .genSersic => 4
  | .ferrers => 4
  | .edgeRing => 1
  | .edgeRing2 => 1
  | .brokenExp2d => 1
  | .brokenBar => 1
  | .edgeDisk _ => 1
  | .flatBar => 3
  | _ => 2

theorem bell_neg (m s u : ℝ) : bell m s (-u) = bell (-m) s u := by
  unfold bell
  congr 3
  ring

theorem bell_at (m s : ℝ) : bell m s m = 1 := by simp [bell]

theorem axisAngle_neg (u v : ℝ) : axisAngle (-u) (-v) = axisAngle u v := by
  unfold axisAngle
  simp only [neg_eq_zero, neg_div_neg_eq]

theorem axisAngle_neg_right (u v : ℝ) : axisAngle u (-v) = axisAngle u v := by
  unfold axisAngle
  rw [neg_div, Real.arctan_neg, abs_neg]

theorem edgeRing2_even {r : ℝ} (hr : 0 ≤ r) (amp si so w u : ℝ) :
    amp * bell (-r) (if -u < -r then so else si) (-u) * w + amp * bell r (if -u < -r then si else if -u < r then si else so) (-u) * w =
    amp * bell (-r) (if u < -r then so else si) u * w + amp * bell r (if u < -r then si else if u < r then si else so) u * w := by
  rw [bell_neg, bell_neg, neg_neg]
  by_cases h1 : u < -r
  · have h2 : ¬ -u < -r := by linarith
    have h3 : ¬ -u < r := by linarith
    simp only [h1, h2, h3, if_true, if_false]
    ring
  · by_cases h2 : r < u
    · have h3 : -u < -r := by linarith
      have h4 : ¬ u < r := by linarith
      simp only [h1, h3, h4, if_true, if_false]
      ring
    · have h3 : ¬ -u < -r := by linarith
      simp only [h1, h3, if_false]
      by_cases h4 : u < r
      · by_cases h5 : -u < r
        · simp only [h4, h5, if_true]; ring
        · have e : u = -r := by linarith
          simp only [h4, h5, if_true, if_false]
          rw [e, bell_at, bell_at]
          ring
      · have e : u = r := by linarith
        by_cases h5 : -u < r
        · simp only [h4, h5, if_true, if_false]
          rw [e, bell_at, bell_at]
          ring
        · simp only [h4, h5, if_false]
          rw [e, bell_at, bell_at]
          have e0 : r = 0 := by linarith
          rw [e0, neg_zero, bell_at, bell_at]

theorem ref_even (F : PFun XR) (p : List ℝ) (hr : F.properRadius p) (u v : ℝ) : F.ref p (-u) (-v) = F.ref p u v := by
  unfold PFun.ref
  split <;> try simp only [ellDist_neg_left, ellDist_neg_right, genDist_neg_left, genDist_neg_right, abs_neg]
  · rw [bell_neg, bell_neg, bell_neg, neg_neg, neg_zero]; ring
  · rw [bell_neg 0, neg_zero]
    exact edgeRing2_even hr _ _ _ _ _
  · rw [bell_neg, neg_zero]
  · simp only [edgeDiskCode, abs_neg]
  · simp only [flatBarCode, ellDist_neg_left, ellDist_neg_right, axisAngle_neg, neg_eq_zero]

theorem ref_mirror (F : PFun XR) (p : List ℝ) (u v : ℝ) : F.ref p u (-v) = F.ref p u v := by
  unfold PFun.ref
  split <;> try simp only [ellDist_neg_right, genDist_neg_right, abs_neg]
  · rw [bell_neg 0, neg_zero]
  · rw [bell_neg 0, neg_zero]
  · rw [bell_neg 0, neg_zero]
  · simp only [edgeDiskCode, abs_neg]
  · simp only [flatBarCode, ellDist_neg_right, axisAngle_neg_right, neg_eq_zero]

theorem along_neg (θ dx dy : ℝ) : along θ (-dx) (-dy) = -along θ dx dy := by unfold along; ring
theorem across_neg (θ dx dy : ℝ) : across θ (-dx) (-dy) = -across θ dx dy := by unfold across; ring

theorem properRadius_adjust (F : PFun XR) (p : List ℝ) (hr : F.properRadius p) (t ρ k : ℝ) (ht : 0 < t) : F.properRadius (F.adjust t ρ k p) := by
  unfold PFun.adjust
  split <;> first | trivial | skip
  exact mul_nonneg (show (0 : ℝ) ≤ _ from hr) ht.le

/-- C55, symmetry: reflection through the centre changes neither the value of a pixel nor whether it has one, with and without sub-sampling, for all 18 functions,
all parameters of the physical range, in every image. -/
theorem C55_symmetric (F : PFun XR) (doSub : Bool) (t ρ k : ℝ) (ht : 0 < t) (p : List ℝ) (hp : F.Physical p) (hr : F.properRadius p) (pre post : List XR)
    (x0 y0 dx dy : ℝ) :
    F.value doSub ⟨fin t, fin ρ, fin k⟩ (pre ++ p.map fin ++ post) pre.length (fin x0) (fin y0) (fin (x0 - dx)) (fin (y0 - dy)) =
    F.value doSub ⟨fin t, fin ρ, fin k⟩ (pre ++ p.map fin ++ post) pre.length (fin x0) (fin y0) (fin (x0 + dx)) (fin (y0 + dy)) := by
  obtain ⟨f, hf, hP⟩ := build_prepared F doSub t ρ k ht p hp x0 y0
  unfold PFun.value
  rw [setup_reads F _ _ pre (p.map fin) post (physical_length F p hp), hf, ok_bind, ok_bind]
  set θ := majorAxis (F.adjust t ρ k p)
  set g := F.ref (F.adjust t ρ k p) with hg
  have hge : ∀ u v, g (-u) (-v) = g u v := ref_even F _ (properRadius_adjust F p hr t ρ k ht)
  have e1 : x0 - dx - x0 = -dx := by ring
  have e2 : y0 - dy - y0 = -dy := by ring
  have hn : f.nsub (fin (along θ (x0 - dx - x0) (y0 - dy - y0))) (fin (across θ (x0 - dx - x0) (y0 - dy - y0))) =
      f.nsub (fin (along θ (x0 + dx - x0) (y0 + dy - y0))) (fin (across θ (x0 + dx - x0) (y0 + dy - y0))) := by
    rw [e1, e2, along_neg, across_neg, hP.even_u, hP.even_v, add_sub_cancel_left, add_sub_cancel_left]
  cases hs : f.nsub (fin (along θ (x0 + dx - x0) (y0 + dy - y0))) (fin (across θ (x0 + dx - x0) (y0 + dy - y0))) with
  | error e => rw [planeValue_error hP.plane _ _ e (hn.trans hs), planeValue_error hP.plane _ _ e hs]
  | ok n =>
    rw [planeValue_fin hP.plane _ _ n (hn.trans hs), planeValue_fin hP.plane _ _ n hs]
    congr 2
    by_cases h1 : 1 < n
    · rw [if_pos h1, if_pos h1]
      have h := pixelMean_reflect n.toNat (fun a b => g (along θ (a - x0) (b - y0)) (across θ (a - x0) (b - y0))) x0 y0 (x0 + dx) (y0 + dy) (by
        intro a b
        rw [show 2 * x0 - a - x0 = -(a - x0) by ring, show 2 * y0 - b - y0 = -(b - y0) by ring, along_neg, across_neg, hge])
      rw [← h]
      congr 1 <;> ring
    · rw [if_neg h1, if_neg h1, e1, e2, along_neg, across_neg, hge, add_sub_cancel_left, add_sub_cancel_left]

/-- C55, mirror: without sub-sampling, two points of the image that are mirror images in the major axis have the same value. -/
theorem C55_mirror (F : PFun XR) (t ρ k : ℝ) (ht : 0 < t) (p : List ℝ) (hp : F.Physical p) (pre post : List XR) (x0 y0 x y x' y' : ℝ)
    (hu : along (majorAxis (F.adjust t ρ k p)) (x' - x0) (y' - y0) = along (majorAxis (F.adjust t ρ k p)) (x - x0) (y - y0))
    (hv : across (majorAxis (F.adjust t ρ k p)) (x' - x0) (y' - y0) = -across (majorAxis (F.adjust t ρ k p)) (x - x0) (y - y0)) :
    F.value false ⟨fin t, fin ρ, fin k⟩ (pre ++ p.map fin ++ post) pre.length (fin x0) (fin y0) (fin x') (fin y') =
    F.value false ⟨fin t, fin ρ, fin k⟩ (pre ++ p.map fin ++ post) pre.length (fin x0) (fin y0) (fin x) (fin y) := by
  rw [value_off F t ρ k ht p hp, value_off F t ρ k ht p hp, hu, hv, ref_mirror]

/-- Major axis along x (position angle -90): the pixels above and below it. -/
example : (PFun.king : PFun XR).value false ⟨fin 1, fin 0, fin 1⟩ ([] ++ [(-90 : ℝ), 1 / 2, 100, 5, 50, 2].map fin ++ []) 0 (fin 10) (fin 10) (fin 13) (fin (10 - 4)) =
    (PFun.king : PFun XR).value false ⟨fin 1, fin 0, fin 1⟩ ([] ++ [(-90 : ℝ), 1 / 2, 100, 5, 50, 2].map fin ++ []) 0 (fin 10) (fin 10) (fin 13) (fin (10 + 4)) := by
  have hm : majorAxis (PFun.king.adjust 1 0 1 [-90, 1 / 2, 100, 5, 50, 2]) = 0 := by rw [adjust_one]; simp [majorAxis]
  exact C55_mirror .king 1 0 1 one_pos [-90, 1 / 2, 100, 5, 50, 2] ⟨by norm_num, by norm_num, by norm_num, by norm_num⟩ [] [] 10 10 13 (10 + 4) 13 (10 - 4)
    (by rw [hm]; simp [along]) (by rw [hm]; simp [across])

theorem brokenCode_smul (c amp h1 h2 rb a r : ℝ) : brokenCode (c * amp) h1 h2 rb a r = c * brokenCode amp h1 h2 rb a r := by
  unfold brokenCode brokenI
  split_ifs <;> ring

theorem kingI_smul (c amp rc rt a r : ℝ) : kingI (c * amp) rc rt a r = c * kingI amp rc rt a r := by
  unfold kingI
  split_ifs <;> ring

/-- The parameters with the amplitude multiplied by `c`. -/
def PFun.scaled (F : PFun XR) (c : ℝ) (p : List ℝ) : List ℝ := p.modify F.ampIndex (c * ·)

theorem ref_linear (F : PFun XR) (c t ρ k : ℝ) (p : List ℝ) (hp : F.Physical p) (u v : ℝ) :
    F.ref (F.adjust t ρ k (F.scaled c p)) u v = c * F.ref (F.adjust t ρ k p) u v := by
  unfold PFun.Physical at hp
  split at hp <;> first | exact False.elim hp | skip
  all_goals simp only [PFun.scaled, PFun.ampIndex, List.modify_succ_cons, List.modify_zero_cons, PFun.adjust, PFun.ref, mul_assoc c, brokenCode_smul, kingI_smul]
  all_goals try ring1
  · unfold doubleBrokenCode; ring
  · unfold flatExpCode flatExpI; split_ifs <;> ring
  · unfold nukerI; ring
  · unfold coreSersicI; ring
  · unfold ferrersI; split_ifs <;> ring
  · unfold edgeDiskCode; split_ifs <;> ring
  · unfold flatBarCode; split_ifs <;> rw [brokenCode_smul]

theorem scaled_physical (F : PFun XR) (c : ℝ) (p : List ℝ) (hp : F.Physical p) : F.Physical (F.scaled c p) := by
  unfold PFun.Physical at hp
  split at hp <;> first | exact False.elim hp | exact hp

theorem scaled_axis (F : PFun XR) (c t ρ k : ℝ) (p : List ℝ) (hp : F.Physical p) :
    majorAxis (F.adjust t ρ k (F.scaled c p)) = majorAxis (F.adjust t ρ k p) := by
  unfold PFun.Physical at hp
  split at hp <;> first | exact False.elim hp | rfl

theorem scaled_nsub (F : PFun XR) (doSub : Bool) (c : ℝ) (d : ImgDesc XR) (x0 y0 : XR) (p : List ℝ) (hp : F.Physical p) (f f' : PlaneFn XR)
    (hf : F.build doSub d x0 y0 (p.map fin) = .ok f) (hf' : F.build doSub d x0 y0 ((F.scaled c p).map fin) = .ok f') : f'.nsub = f.nsub := by
  unfold PFun.Physical at hp
  split at hp <;> first | exact False.elim hp | skip
  all_goals
    simp only [PFun.scaled, PFun.ampIndex, List.modify_succ_cons, List.modify_zero_cons, List.map_cons, List.map_nil, PFun.build, Except.ok.injEq] at hf hf'
    subst hf hf'
    rfl

/-- The value of a pixel is a mean of intensities over a grid, or a fault of the sub-sampling rule. -/
theorem value_cases (F : PFun XR) (doSub : Bool) (t ρ k : ℝ) (ht : 0 < t) (p : List ℝ) (hp : F.Physical p) (pre post : List XR) (x0 y0 x y : ℝ) :
    ∃ f, F.build doSub ⟨fin t, fin ρ, fin k⟩ (fin x0) (fin y0) (p.map fin) = .ok f ∧
      ((∃ e, f.nsub (fin (along (majorAxis (F.adjust t ρ k p)) (x - x0) (y - y0))) (fin (across (majorAxis (F.adjust t ρ k p)) (x - x0) (y - y0))) = .error e ∧
          F.value doSub ⟨fin t, fin ρ, fin k⟩ (pre ++ p.map fin ++ post) pre.length (fin x0) (fin y0) (fin x) (fin y) = .error e) ∨
       (∃ n, f.nsub (fin (along (majorAxis (F.adjust t ρ k p)) (x - x0) (y - y0))) (fin (across (majorAxis (F.adjust t ρ k p)) (x - x0) (y - y0))) = .ok n ∧
          F.value doSub ⟨fin t, fin ρ, fin k⟩ (pre ++ p.map fin ++ post) pre.length (fin x0) (fin y0) (fin x) (fin y) =
            .ok (fin (pixelMean (max 1 n.toNat) (fun a b => F.ref (F.adjust t ρ k p) (along (majorAxis (F.adjust t ρ k p)) (a - x0) (b - y0))
              (across (majorAxis (F.adjust t ρ k p)) (a - x0) (b - y0))) x y)))) := by
  obtain ⟨f, hf, hP⟩ := build_prepared F doSub t ρ k ht p hp x0 y0
  refine ⟨f, hf, ?_⟩
  unfold PFun.value
  rw [setup_reads F _ _ pre (p.map fin) post (physical_length F p hp), hf, ok_bind]
  cases hs : f.nsub (fin (along (majorAxis (F.adjust t ρ k p)) (x - x0) (y - y0))) (fin (across (majorAxis (F.adjust t ρ k p)) (x - x0) (y - y0))) with
  | error e => exact .inl ⟨e, rfl, planeValue_error hP.plane _ _ e hs⟩
  | ok n =>
    refine .inr ⟨n, rfl, ?_⟩
    rw [planeValue_fin hP.plane _ _ n hs]
    by_cases h1 : 1 < n
    · rw [if_pos h1, show max 1 n.toNat = n.toNat by omega]
    · rw [if_neg h1, show max 1 n.toNat = 1 by omega, pixelMean_one]

/-- C55, linearity: with the amplitude multiplied by `c` the value of every pixel is multiplied by `c`, with and without sub-sampling; where a pixel has no value it
has none with the other amplitude either. For all 18 functions, all parameters of the physical range, in every image. -/
theorem C55_linear (F : PFun XR) (doSub : Bool) (t ρ k : ℝ) (ht : 0 < t) (p : List ℝ) (hp : F.Physical p) (c : ℝ) (pre post : List XR) (x0 y0 x y : ℝ) :
    (∃ v : ℝ, F.value doSub ⟨fin t, fin ρ, fin k⟩ (pre ++ p.map fin ++ post) pre.length (fin x0) (fin y0) (fin x) (fin y) = .ok (fin v) ∧
      F.value doSub ⟨fin t, fin ρ, fin k⟩ (pre ++ (p.modify F.ampIndex (c * ·)).map fin ++ post) pre.length (fin x0) (fin y0) (fin x) (fin y) = .ok (fin (c * v))) ∨
    ∃ e, F.value doSub ⟨fin t, fin ρ, fin k⟩ (pre ++ p.map fin ++ post) pre.length (fin x0) (fin y0) (fin x) (fin y) = .error e ∧
      F.value doSub ⟨fin t, fin ρ, fin k⟩ (pre ++ (p.modify F.ampIndex (c * ·)).map fin ++ post) pre.length (fin x0) (fin y0) (fin x) (fin y) = .error e := by
  obtain ⟨f, hf, h⟩ := value_cases F doSub t ρ k ht p hp pre post x0 y0 x y
  obtain ⟨f', hf', h'⟩ := value_cases F doSub t ρ k ht (F.scaled c p) (scaled_physical F c p hp) pre post x0 y0 x y
  rw [scaled_axis F c t ρ k p hp, scaled_nsub F doSub c _ _ _ p hp f f' hf hf'] at h'
  rcases h with ⟨e, h1, h2⟩ | ⟨n, h1, h2⟩
  · rcases h' with ⟨e', h3, h4⟩ | ⟨n', h3, h4⟩
    · rw [h1] at h3
      cases h3
      exact .inr ⟨e, h2, h4⟩
    · rw [h1] at h3
      cases h3
  · rcases h' with ⟨e', h3, h4⟩ | ⟨n', h3, h4⟩
    · rw [h1] at h3
      cases h3
    · rw [h1] at h3
      cases h3
      refine .inl ⟨_, h2, ?_⟩
      rw [← pixelMean_smul]
      simp only [ref_linear F c t ρ k p hp] at h4
      exact h4

/-- Doubling the amplitude of a Ferrers bar, with sub-sampling. -/
example : (∃ v : ℝ, (PFun.ferrers : PFun XR).value true defaultDesc ([] ++ [(20 : ℝ), 1 / 2, 0, 2, 100, 30].map fin ++ []) 0 (fin 10) (fin 10) (fin 12) (fin 11) = .ok (fin v) ∧
      (PFun.ferrers : PFun XR).value true defaultDesc ([] ++ [(20 : ℝ), 1 / 2, 0, 2, 2 * 100, 30].map fin ++ []) 0 (fin 10) (fin 10) (fin 12) (fin 11) = .ok (fin (2 * v))) ∨
    ∃ e, (PFun.ferrers : PFun XR).value true defaultDesc ([] ++ [(20 : ℝ), 1 / 2, 0, 2, 100, 30].map fin ++ []) 0 (fin 10) (fin 10) (fin 12) (fin 11) = .error e ∧
      (PFun.ferrers : PFun XR).value true defaultDesc ([] ++ [(20 : ℝ), 1 / 2, 0, 2, 2 * 100, 30].map fin ++ []) 0 (fin 10) (fin 10) (fin 12) (fin 11) = .error e :=
  C55_linear .ferrers true 1 0 1 one_pos [20, 1 / 2, 0, 2, 100, 30] ⟨by norm_num, by norm_num, by norm_num, by norm_num⟩ 2 [] [] 10 10 12 11

/-- Two opposite pixels of an edge-on ring. -/
example : (PFun.edgeRing2 : PFun XR).value true defaultDesc ([] ++ [(20 : ℝ), 100, 30, 2, 5, 1].map fin ++ []) 0 (fin 10) (fin 10) (fin (10 - 30)) (fin (10 - 5)) =
    (PFun.edgeRing2 : PFun XR).value true defaultDesc ([] ++ [(20 : ℝ), 100, 30, 2, 5, 1].map fin ++ []) 0 (fin 10) (fin 10) (fin (10 + 30)) (fin (10 + 5)) :=
  C55_symmetric .edgeRing2 true 1 0 1 one_pos [20, 100, 30, 2, 5, 1] ⟨by norm_num, by norm_num, by norm_num⟩ (by show (0 : ℝ) ≤ 30; norm_num) [] [] 10 10 30 5

/-- C55 fails for the two-sided edge-on ring with a negative radius (which a fit without limits can reach): the two sides differ. -/
theorem C55_edgeRing2_false : ∃ v w : ℝ, v ≠ w ∧
    (PFun.edgeRing2 : PFun XR).value false defaultDesc ([(-90 : ℝ), 1, -1, 1 / 10, 1, 1].map fin) 0 (fin 0) (fin 0) (fin (1 / 2)) (fin 0) = .ok (fin v) ∧
    (PFun.edgeRing2 : PFun XR).value false defaultDesc ([(-90 : ℝ), 1, -1, 1 / 10, 1, 1].map fin) 0 (fin 0) (fin 0) (fin (-(1 / 2))) (fin 0) = .ok (fin w) := by
  have h := fun x => value_off .edgeRing2 1 0 1 one_pos [-90, 1, -1, 1 / 10, 1, 1] ⟨by norm_num, by norm_num, by norm_num⟩ [] [] 0 0 x 0
  simp only [adjust_one, majorAxis, neg_add_cancel, zero_mul, along, across, Real.cos_zero, Real.sin_zero, mul_one, mul_zero, sub_zero, add_zero, List.nil_append,
    List.append_nil, List.length_nil, PFun.ref, neg_neg] at h
  refine ⟨_, _, ?_, h (1 / 2), h (-(1 / 2))⟩
  rw [if_pos (by norm_num), if_pos (by norm_num), if_pos (by norm_num), if_pos (by norm_num)]
  unfold bell
  have e1 : (7 / 8 : ℝ) ≤ Real.exp (-(1 / 8)) := by
    have := Real.add_one_le_exp (-(1 / 8) : ℝ)
    linarith
  have e2 : ∀ x : ℝ, 0 ≤ x → Real.exp (-x) ≤ 1 / (x + 1) := fun x hx => by
    rw [Real.exp_neg, inv_eq_one_div]
    exact one_div_le_one_div_of_le (by linarith) (Real.add_one_le_exp x)
  have e3 := e2 (9 / 8) (by norm_num)
  have e4 := e2 (25 / 2) (by norm_num)
  have e5 := Real.exp_pos (-(225 / 2))
  norm_num at e1 e3 e4 e5 ⊢
  intro hc
  linarith

theorem pixelMean_nonneg (n : ℕ) (g : ℝ → ℝ → ℝ) (x y : ℝ) (hg : ∀ a b, 0 ≤ g a b) : 0 ≤ pixelMean n g x y := by
  unfold pixelMean
  exact div_nonneg (Finset.sum_nonneg fun i _ => Finset.sum_nonneg fun j _ => hg _ _) (by positivity)

/-- The Bessel function is not negative; nothing for the others. -/
def PFun.kNonneg : PFun XR → Prop
  | .edgeDisk k1 => ∀ x, 0 < x → 0 ≤ realK k1 x
  | _ => True

theorem brokenCode_nonneg {amp : ℝ} (h : 0 ≤ amp) (h1 h2 rb a r : ℝ) : 0 ≤ brokenCode amp h1 h2 rb a r := by
  unfold brokenCode brokenI
  split_ifs <;> positivity

theorem kingI_nonneg {amp rc rt a r : ℝ} (h : 0 ≤ amp) (hrc : 0 < rc) (hrt : 0 < rt) (ha : 0 < a) (hr : 0 ≤ r) : 0 ≤ kingI amp rc rt a r := by
  unfold kingI
  split_ifs with hlt
  · have hmono : ∀ x y : ℝ, 0 ≤ x → x ≤ y → 1 / (1 + y ^ 2) ^ (1 / a) ≤ 1 / (1 + x ^ 2) ^ (1 / a) := fun x y hx hxy => by
      apply one_div_le_one_div_of_le (by positivity)
      exact Real.rpow_le_rpow (by positivity) (by nlinarith) (by positivity)
    have h1 := hmono 0 (rt / rc) le_rfl (by positivity)
    have h2 := hmono (r / rc) (rt / rc) (by positivity) (by gcongr)
    rw [show (1 + (0 : ℝ) ^ 2) = 1 by norm_num, Real.one_rpow, div_one] at h1
    exact mul_nonneg (mul_nonneg h (Real.rpow_nonneg (by linarith) _)) (Real.rpow_nonneg (by linarith) _)
  · exact le_rfl

theorem bell_pos (m s r : ℝ) : 0 < bell m s r := Real.exp_pos _

theorem ref_nonneg (F : PFun XR) (hk : F.kNonneg) (t ρ k : ℝ) (ht : 0 < t) (hk0 : 0 ≤ k) (p : List ℝ) (hp : F.Physical p) (hamp : ∀ a, p[F.ampIndex]? = some a → 0 ≤ a)
    (u v : ℝ) : 0 ≤ F.ref (F.adjust t ρ k p) u v := by
  have hE : ∀ q, 0 ≤ ellDist q u v := fun q => ellDist_nonneg q u v
  unfold PFun.Physical at hp
  split at hp <;> first | exact False.elim hp | skip
  all_goals
    have hamp := hamp _ rfl
    simp only [PFun.adjust, PFun.ref]
  · exact brokenCode_nonneg (mul_nonneg hamp hk0) _ _ _ _ _
  · unfold doubleBrokenCode dbeCode
    split_ifs <;> positivity
  · unfold flatExpCode flatExpI
    split_ifs <;> positivity
  · exact kingI_nonneg (mul_nonneg hamp hk0) (mul_pos hp.2.1 ht) (mul_pos hp.2.2.1 ht) hp.2.2.2 (hE _)
  · exact kingI_nonneg (mul_nonneg hamp hk0) (mul_pos hp.2.1 ht) (mul_pos hp.2.2.1 (mul_pos hp.2.1 ht)) hp.2.2.2 (hE _)
  · exact mul_nonneg (mul_nonneg hamp hk0) (bell_pos _ _ _).le
  · exact mul_nonneg (mul_nonneg hamp hk0) (bell_pos _ _ _).le
  · unfold nukerI
    have hm : ∀ q, 0 ≤ max (ellDist q u v) (1 / 1000) := fun q => (hE q).trans (le_max_left _ _)
    have hrb := mul_pos hp.2.1 ht
    have := fun q => Real.rpow_nonneg (div_nonneg (hm q) hrb.le)
    exact mul_nonneg (mul_nonneg (mul_nonneg (mul_nonneg hamp hk0) (by positivity)) (Real.rpow_nonneg (div_nonneg hrb.le (hm _)) _))
      (Real.rpow_nonneg (add_nonneg zero_le_one (this _ _)) _)
  · unfold coreSersicI
    have hm : ∀ q, 0 ≤ max (ellDist q u v) (1 / 1000) := fun q => (hE q).trans (le_max_left _ _)
    have hrb := mul_pos hp.2.2.2.1 ht
    have := fun q => Real.rpow_nonneg (div_nonneg hrb.le (hm q))
    exact mul_nonneg (mul_nonneg (mul_nonneg (mul_nonneg (mul_nonneg hamp hk0) (by positivity)) (Real.exp_pos _).le)
      (Real.rpow_nonneg (add_nonneg zero_le_one (this _ _)) _)) (Real.exp_pos _).le
  · positivity
  · positivity
  · unfold ferrersI
    split_ifs with h
    · exact le_rfl
    · exact mul_nonneg (mul_nonneg hamp hk0) (Real.rpow_nonneg (by linarith) _)
  · have := fun m s r => (bell_pos m s r).le
    exact add_nonneg (mul_nonneg (mul_nonneg (mul_nonneg hamp hk0) (this _ _ _)) (this _ _ _)) (mul_nonneg (mul_nonneg (mul_nonneg hamp hk0) (this _ _ _)) (this _ _ _))
  · have := fun m s r => (bell_pos m s r).le
    exact add_nonneg (mul_nonneg (mul_nonneg (mul_nonneg hamp hk0) (this _ _ _)) (this _ _ _)) (mul_nonneg (mul_nonneg (mul_nonneg hamp hk0) (this _ _ _)) (this _ _ _))
  · exact mul_nonneg (brokenCode_nonneg (mul_nonneg hamp hk0) _ _ _ _ _) (Real.exp_pos _).le
  · exact mul_nonneg (brokenCode_nonneg hamp _ _ _ _ _) (bell_pos _ _ _).le
  · unfold edgeDiskCode sechCode
    have hh := mul_pos hp.1 ht
    have h1 : ∀ z : ℝ, 0 ≤ (1 / Real.cosh z) := fun z => (one_div_pos.2 (Real.cosh_pos z)).le
    refine mul_nonneg ?_ ?_
    · split_ifs with hu
      · exact mul_nonneg (mul_nonneg zero_le_two hh.le) (mul_nonneg hamp hk0)
      · have hu' : 0 < |u| := lt_of_le_of_ne (abs_nonneg u) (Ne.symm hu)
        have h2 := hk (|u| / _) (div_pos hu' hh)
        exact mul_nonneg (mul_nonneg (mul_nonneg (mul_nonneg zero_le_two hh.le) (mul_nonneg hamp hk0)) (div_nonneg hu'.le hh.le)) h2
    · split_ifs
      · positivity
      · exact Real.rpow_nonneg (h1 _) _
  · unfold flatBarCode
    split_ifs <;> exact brokenCode_nonneg (mul_nonneg hamp ht.le) _ _ _ _ _

/-- C55, sign: with a non-negative amplitude and intensity factor no pixel is negative. -/
theorem C55_nonneg (F : PFun XR) (hk : F.kNonneg) (doSub : Bool) (t ρ k : ℝ) (ht : 0 < t) (hk0 : 0 ≤ k) (p : List ℝ) (hp : F.Physical p)
    (hamp : ∀ a, p[F.ampIndex]? = some a → 0 ≤ a) (pre post : List XR) (x0 y0 x y : ℝ) :
    (∃ v : ℝ, F.value doSub ⟨fin t, fin ρ, fin k⟩ (pre ++ p.map fin ++ post) pre.length (fin x0) (fin y0) (fin x) (fin y) = .ok (fin v) ∧ 0 ≤ v) ∨
    ∃ e, F.value doSub ⟨fin t, fin ρ, fin k⟩ (pre ++ p.map fin ++ post) pre.length (fin x0) (fin y0) (fin x) (fin y) = .error e := by
  obtain ⟨f, hf, h⟩ := value_cases F doSub t ρ k ht p hp pre post x0 y0 x y
  rcases h with ⟨e, h1, h2⟩ | ⟨n, h1, h2⟩
  · exact .inr ⟨e, h2⟩
  · exact .inl ⟨_, h2, pixelMean_nonneg _ _ _ _ fun a b => ref_nonneg F hk t ρ k ht hk0 p hp hamp _ _⟩

/-- A King profile with a positive central intensity. -/
example : (∃ v : ℝ, (PFun.king : PFun XR).value true ⟨fin 1, fin 0, fin 1⟩ ([] ++ [(20 : ℝ), 1 / 2, 100, 5, 50, 2].map fin ++ []) 0 (fin 10) (fin 10) (fin 70) (fin 10) =
      .ok (fin v) ∧ 0 ≤ v) ∨
    ∃ e, (PFun.king : PFun XR).value true ⟨fin 1, fin 0, fin 1⟩ ([] ++ [(20 : ℝ), 1 / 2, 100, 5, 50, 2].map fin ++ []) 0 (fin 10) (fin 10) (fin 70) (fin 10) = .error e :=
  C55_nonneg .king trivial true 1 0 1 one_pos zero_le_one [20, 1 / 2, 100, 5, 50, 2] ⟨by norm_num, by norm_num, by norm_num, by norm_num⟩
    (by intro a ha; cases ha; norm_num) [] [] 10 10 70 10

end Imfit
