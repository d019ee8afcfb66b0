import Verif.Model.Rings
import Verif.Model.Driver
import Verif.Lemmas.FuncSetup
import Verif.Lemmas.Spiral
import Verif.Props.C56
import Verif.Props.C42

/-!
# C88: a Gaussian on a floor

`GaussianExtraParams`: the optional parameter `floor` is added to the Gaussian in every pixel.
-/

namespace Imfit

open Spec XR Finset

/-- The mean of a function plus a constant. -/
theorem pixelMean_add {n : ℕ} (hn : 0 < n) (g : ℝ → ℝ → ℝ) (c x y : ℝ) : pixelMean n (fun a b => g a b + c) x y = pixelMean n g x y + c := by
  have hn' : (n : ℝ) ≠ 0 := by positivity
  unfold pixelMean
  simp only [sum_add_distrib, sum_const, card_range, nsmul_eq_mul]
  field_simp

/-- The value of every pixel is the value of `Gaussian` plus the floor, whatever the sub-sampling. -/
theorem C88_value (ph : Phys) (hell : ph.ell < 1) (hsize : 1 / 10 ^ 7 ≤ ph.size) (hshape : 0 < ph.shape) (doSub : Bool) (fl : ℝ) (pre post : List XR) (x0 y0 x y : ℝ) :
    ∃ v : ℝ, EFun.gaussian.value doSub (defaultDesc : ImgDesc XR) (pre ++ EFun.gaussian.params ph ++ post) pre.length (fin x0) (fin y0) (fin x) (fin y) = .ok (fin v) ∧
      gaussFloorValue doSub (fin fl) (pre ++ EFun.gaussian.params ph ++ post) pre.length (fin x0) (fin y0) (fin x) (fin y) = .ok (fin (v + fl)) := by
  have hs0 : 0 < ph.size := lt_of_lt_of_le (by norm_num) hsize
  have hq : 0 < 1 - ph.ell := by linarith
  obtain ⟨f, hf, he, hn⟩ := setup_isEll .gaussian doSub 1 0 1 one_pos ph hell hs0 hshape pre post x0 y0
  have hph : ph.inImage 1 0 1 = ph := by unfold Phys.inImage; simp
  rw [hph] at he hn
  set R := ellRadius (1 - ph.ell) ph.angle (x - x0) (y - y0) with hR
  obtain ⟨n, h1, h2, -⟩ := galfit_ok doSub 40 3 (by norm_num) (by norm_num) (by norm_num) hsize R
  have hns : f.nsub (fin R) = .ok (n : Int) := by rw [hn]; exact h1
  have hv := ellValue_fin he x y n h2 hns
  refine ⟨pixelMean n (fun a b => EFun.gaussian.spec ph (ellRadius (1 - ph.ell) ph.angle (a - x0) (b - y0))) x y, ?_, ?_⟩
  · unfold EFun.value
    show (do let f ← EFun.gaussian.setup doSub ⟨fin 1, fin 0, fin 1⟩ _ _ _ _; _) = _
    rw [hf, ok_bind]
    exact hv
  · have hrd : ∀ (i : ℕ) (v : XR), (EFun.gaussian.params ph)[i]? = some v → rd (pre ++ EFun.gaussian.params ph ++ post) (i + pre.length) = .ok v := by
      intro i v hv
      rw [Nat.add_comm]
      exact rd_mid pre _ post i v hv
    unfold gaussFloorValue
    rw [hrd 0 _ rfl, hrd 1 _ rfl, hrd 2 _ rfl, hrd 3 _ rfl]
    simp only [ok_bind]
    have h2s : 2 * ph.size * ph.size ≠ 0 := by positivity
    have hp := planeFn_isPlane ph.pa x0 y0 (fun u v => galfitSub doSub 40 3 (fin ph.size) (ellR (1 - fin ph.ell) u v))
      (fun u v => fin ph.amp * fexp (-(ellR (1 - fin ph.ell) u v * ellR (1 - fin ph.ell) u v) / (lit 2 * fin ph.size * fin ph.size)) + fin fl)
      (fun u v => gaussProfile ph (ellDist (1 - ph.ell) u v) + fl) ?_
    · have hpv := planeValue_fin hp x y n (by
        show galfitSub doSub 40 3 (fin ph.size) (ellR (1 - fin ph.ell) _ _) = _
        rw [one_def, fin_sub, ellR_fin hq]
        exact h1)
      refine Eq.trans ?_ (hpv.trans ?_)
      · rfl
      · congr 2
        have e : ∀ a b, gaussProfile ph (ellDist (1 - ph.ell) (along ((ph.pa + 90) * degree) (a - x0) (b - y0)) (across ((ph.pa + 90) * degree) (a - x0) (b - y0))) =
          EFun.gaussian.spec ph (ellRadius (1 - ph.ell) ph.angle (a - x0) (b - y0)) := fun a b => rfl
        simp only [e, Nat.one_lt_cast, Int.toNat_natCast]
        by_cases hn1 : 1 < n
        · rw [if_pos hn1, pixelMean_add (by omega)]
        · have : n = 1 := by omega
          rw [if_neg hn1, this, pixelMean_one]
    · intro u v
      beta_reduce
      rw [one_def, fin_sub, ellR_fin hq, lit2, fin_mul, fin_mul, fin_mul, fin_neg, fin_div_of_ne h2s, fexp_fin, fin_mul, fin_add]
      unfold gaussProfile
      congr 4
      ring

/-- A floor of 7 under a Gaussian. -/
example : ∃ v : ℝ, EFun.gaussian.value true (defaultDesc : ImgDesc XR) [fin 0, fin (1 / 2), fin 100, fin 3] 0 (fin 5) (fin 5) (fin 6) (fin 5) = .ok (fin v) ∧
    gaussFloorValue true (fin 7) [fin 0, fin (1 / 2), fin 100, fin 3] 0 (fin 5) (fin 5) (fin 6) (fin 5) = .ok (fin (v + 7)) :=
  C88_value ⟨0, 1 / 2, 100, 3, 1⟩ (by norm_num) (by norm_num) (by norm_num) true 7 [] [] 5 5 6 5

/-- The word `floor`. -/
def Spec.floorWord : List Char := ['f', 'l', 'o', 'o', 'r']

/-- Optional parameters with the key `floor` (keys of a map are different): a number is stored and 1 returned; anything else is refused with -3, leaving the floor as it
was. -/
theorem C88_words {α : Type} (nl : Strtod α) (cur : α) (m : List (List Char × List Char)) (hm : (m.map Prod.fst).Nodup) (w : List Char) (h : (Spec.floorWord, w) ∈ m) :
    setFloor nl cur m = if isNumeric nl w then (1, nl.val w) else (-3, cur) := by
  have hf : m.find? (fun p => p.1 == ['f', 'l', 'o', 'o', 'r']) = some (Spec.floorWord, w) := by
    induction m with
    | nil => cases h
    | cons p m ih =>
      rw [List.map_cons, List.nodup_cons] at hm
      rcases List.mem_cons.1 h with rfl | h'
      · rfl
      · have hne : p.1 ≠ Spec.floorWord := fun e => hm.1 (e ▸ List.mem_map_of_mem (f := Prod.fst) h')
        rw [List.find?_cons_of_neg (by simpa [Spec.floorWord] using hne)]
        exact ih hm.2 h'
  unfold setFloor
  cases m with
  | nil => cases h
  | cons p m =>
    simp only [hf]

/-- Optional parameters without the key `floor` do not change the floor; no error is returned unless there are none. -/
theorem C88_unknown {α : Type} (nl : Strtod α) (cur : α) (m : List (List Char × List Char)) (h : ∀ p ∈ m, p.1 ≠ Spec.floorWord) :
    setFloor nl cur m = (if m = [] then -1 else 0, cur) := by
  have hf : m.find? (fun p => p.1 == ['f', 'l', 'o', 'o', 'r']) = none := by
    rw [List.find?_eq_none]
    intro p hp
    simpa [Spec.floorWord] using h p hp
  unfold setFloor
  cases m with
  | nil => rfl
  | cons p m => simp only [hf]; simp

/-- A misspelt key is not refused: the function is added with the floor it had. -/
theorem C88_misspelt_false {α : Type} (nl : Strtod α) (cur : α) (cat : Catalogue) (name lab : List Char) (ps : List (List Char)) (hp : cat.params name = some ps)
    (hx : ∀ m, cat.setExtra name m = (setFloor nl cur m).1) (accepts : List Char → Bool) (ha : accepts name = true) (m : List (List Char × List Char)) (hm : m ≠ [])
    (h : ∀ p ∈ m, p.1 ≠ Spec.floorWord) :
    addOne cat accepts [lab] [m] [] 0 name = .ok (some ⟨name, lab, m, ps⟩) ∧ (setFloor nl cur m).2 = cur := by
  have e := C88_unknown nl cur m h
  rw [if_neg hm] at e
  refine ⟨?_, by rw [e]⟩
  unfold addOne
  rw [hp]
  have hs : ¬ (m ≠ [] ∧ cat.setExtra name m < 0) := by
    rw [hx, e]
    rintro ⟨-, h⟩
    exact lt_irrefl (0 : Int) h
  show (if m ≠ [] ∧ cat.setExtra name m < 0 then Except.ok none else _) = _
  rw [if_neg hs]
  show (if accepts name = true then Except.ok (some _) else Except.ok none) = _
  rw [if_pos ha]

/-- The total flux reported does not contain the floor: along one row of pixels the light exceeds any bound, while the flux reported is the one of the Gaussian. -/
theorem C88_flux_false (ph : Phys) (hell : ph.ell < 1) (hsize : 1 / 10 ^ 7 ≤ ph.size) (hshape : 0 < ph.shape) (hi : 0 ≤ ph.amp) (doSub : Bool) {fl : ℝ} (hfl : 0 < fl)
    (pre post : List XR) (x0 y0 y B : ℝ) :
    gaussFloorFlux (pre ++ EFun.gaussian.params ph ++ post) pre.length = .ok (fin ((1 - ph.ell) * 2 * ((PI_FUNC : ℚ) : ℝ) * ph.amp * ph.size * ph.size)) ∧
      ∃ (v : ℕ → ℝ) (n : ℕ), (∀ i : ℕ, gaussFloorValue doSub (fin fl) (pre ++ EFun.gaussian.params ph ++ post) pre.length (fin x0) (fin y0) (fin (i : ℝ)) (fin y) = .ok (fin (v i))) ∧
        B < ∑ i ∈ range n, v i := by
  constructor
  · have hrd : ∀ (i : ℕ) (v : XR), (EFun.gaussian.params ph)[i]? = some v → rd (pre ++ EFun.gaussian.params ph ++ post) (i + pre.length) = .ok v := by
      intro i v hv
      rw [Nat.add_comm]
      exact rd_mid pre _ post i v hv
    unfold gaussFloorFlux
    rw [hrd 1 _ rfl, hrd 2 _ rfl, hrd 3 _ rfl]
    simp only [ok_bind, pure_eq_ok, one_def, lit_def, fin_sub, fin_mul]
    norm_num
  · have hs0 : 0 < ph.size := lt_of_lt_of_le (by norm_num) hsize
    have key : ∀ x : ℝ, ∃ v : ℝ, gaussFloorValue doSub (fin fl) (pre ++ EFun.gaussian.params ph ++ post) pre.length (fin x0) (fin y0) (fin x) (fin y) = .ok (fin v) ∧ fl ≤ v := by
      intro x
      obtain ⟨v, h1, h2⟩ := C88_value ph hell hsize hshape doSub fl pre post x0 y0 x y
      refine ⟨v + fl, h2, ?_⟩
      obtain ⟨N, hN, hv⟩ := C42_mean_partial .gaussian doSub 1 0 1 one_pos ph hell hs0 hshape (fun _ => by simpa [Phys.inImage, EFun.subScale] using hsize) pre post x0 y0
      have h3 := (hv x y).symm.trans h1
      injection h3 with h3
      injection h3 with h3
      have : 0 ≤ v := by
        rw [← h3]
        refine div_nonneg (sum_nonneg fun i _ => sum_nonneg fun j _ => ?_) (by positivity)
        show 0 ≤ gaussProfile _ _
        unfold gaussProfile Phys.inImage
        positivity
      linarith
    choose v hv hle using fun i : ℕ => key (i : ℝ)
    obtain ⟨n, hn⟩ := exists_nat_gt (B / fl)
    refine ⟨v, n, hv, lt_of_lt_of_le ((div_lt_iff₀ hfl).1 hn) ?_⟩
    have : ∑ i ∈ range n, fl ≤ ∑ i ∈ range n, v i := sum_le_sum fun i _ => hle i
    simpa using this

end Imfit
