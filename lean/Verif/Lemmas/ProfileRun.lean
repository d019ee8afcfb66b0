import Verif.Lemmas.Profile
import Verif.Props.C39
import Mathlib.Algebra.BigOperators.Field

/-!
# Model values and deviates of profile fits
-/

namespace Imfit

open Spec XR

/-- The value of the model with the intensities `f` that belongs to data point `z`, before the conversion to magnitudes. -/
noncomputable def seenAt (n : Nat) (X : Nat → ℝ) (f : ℝ → ℝ) (z : Nat) : Option (Nat × (Nat → ℝ)) → ℝ
  | none => f (X z)
  | some (p, P) => ∑ k ∈ Finset.range p, P k / (∑ k ∈ Finset.range p, P k) * f (wideX n p X (p + z + p / 2 - k))

/-- The number that is compared with the data. -/
noncomputable def asData (mags : Bool) (zp v : ℝ) : XR := if mags then toMag1 (fin zp) (fin v) else fin v

theorem map_tab {β γ : Type} (n : Nat) (f : Nat → β) (g : β → γ) : (tab n f).map g = tab n fun i => g (f i) := by
  simp [tab, List.map_map, Function.comp_def]

/-- The model vector. -/
theorem modelVec1_at {s : P1 XR} {zp : ℝ} {sets : List FnSet} {n : Nat} {X : Nat → ℝ} {q : Option (Nat × (Nat → ℝ))} (hz : s.zp = fin zp) (hf : s.fns = modelFns sets)
    (hok : SetsOK sets) (hq : PsfSeen s n X q) :
    ∃ (N : Nat) (V : Nat → ℝ), modelVec1 s ((modelPars sets).map fin) = .ok (tab N fun j => asData s.mags zp (V j)) ∧ s.off + n ≤ N ∧
      ∀ z, z < n → V (s.off + z) = seenAt n X (intensity zp sets) z q := by
  match q, hq with
  | none, ⟨h1, h2, h3, h4⟩ =>
    refine ⟨n, fun j => intensity zp sets (X j), ?_, by omega, ?_⟩
    · rw [modelVec1_eq hz hf hok h2 h3, h4]
      simp only [Bool.false_eq_true, if_false, pure_eq_ok, ok_bind]
      unfold asData
      cases s.mags
      · rfl
      · simp only [if_true, map_tab]
    · intro z hz
      rw [h1, Nat.zero_add]
      rfl
  | some (p, P), ⟨h1, h2, h3, h4, h5⟩ =>
    refine ⟨n + 2 * p, fun i => ∑ k ∈ Finset.range p, P k / (∑ k ∈ Finset.range p, P k) *
      zeroBeyond (n + 2 * p) (fun j => intensity zp sets (wideX n p X j)) ((i : ℤ) - ((k : ℤ) - (p / 2 : Nat))), ?_, by omega, ?_⟩
    · rw [modelVec1_eq hz hf hok h2 h3, h4]
      simp only [if_true, h5, pure_eq_ok, ok_bind]
      unfold asData
      cases s.mags
      · rfl
      · simp only [if_true, map_tab]
    · intro z hz
      simp only [seenAt]
      refine Finset.sum_congr rfl fun k hk => ?_
      rw [Finset.mem_range] at hk
      unfold zeroBeyond
      rw [h1, if_pos (by omega)]
      congr 3
      omega

/-- Data points at equal distances. -/
def EvenlySpaced (n : Nat) (X : Nat → ℝ) (dx : ℝ) : Prop := ∀ z, z < n → X z = X 0 + z * dx

theorem wideX_even {n p : Nat} {X : Nat → ℝ} {dx : ℝ} (hn : 2 ≤ n) (h : EvenlySpaced n X dx) (j : Nat) : wideX n p X j = X 0 + ((j : ℝ) - p) * dx := by
  have h1 := h 1 (by omega)
  have h2 := h (n - 1) (by omega)
  rw [Nat.cast_one, one_mul] at h1
  unfold wideX
  split_ifs with a b
  · rw [h1]; ring
  · rw [h _ (by omega), Nat.cast_sub (by omega)]
  · rw [h1, h2, Nat.cast_sub (by omega : 1 ≤ n), Nat.cast_sub (by omega : n ≤ j - p), Nat.cast_sub (by omega : p ≤ j)]
    push_cast
    ring

/-- For data points at equal distances the model values are those of the function seen through the PSF. -/
theorem seenAt_even {n p : Nat} {X : Nat → ℝ} {dx : ℝ} (hn : 2 ≤ n) (h : EvenlySpaced n X dx) (P : Nat → ℝ) (f : ℝ → ℝ) {z : Nat} (hz : z < n) :
    seenAt n X f z (some (p, P)) = seen p P dx f (X z) := by
  simp only [seenAt, seen, Finset.sum_div]
  refine Finset.sum_congr rfl fun k hk => ?_
  rw [Finset.mem_range] at hk
  rw [wideX_even hn h, h z hz, Nat.cast_sub (by omega)]
  push_cast
  rw [div_mul_eq_mul_div]
  congr 3
  ring

theorem asData_fin {mags : Bool} {zp v : ℝ} (h : mags = true → 0 < v) : asData mags zp v = fin (if mags then mag zp v else v) := by
  unfold asData
  cases mags
  · rfl
  · have hv := h rfl
    have h10 : Real.log 10 ≠ 0 := (Real.log_pos (by norm_num)).ne'
    simp only [if_true, toMag1, flog10, flog_fin_of_pos hv, lit_def]
    rw [flog_fin_of_pos (by norm_num), fin_div_of_ne (by exact_mod_cast h10), fin_mul, fin_sub]
    congr 1
    unfold mag
    push_cast
    norm_num

/-- The model at the data points, from `CreateModelImage` and `GetModelVector`. -/
theorem getModel1_at {s : P1 XR} {zp : ℝ} {sets : List FnSet} {n : Nat} {X : Nat → ℝ} {q : Option (Nat × (Nat → ℝ))} (hn : s.base.nDataVals = n) (hz : s.zp = fin zp)
    (hf : s.fns = modelFns sets) (hok : SetsOK sets) (hq : PsfSeen s n X q) :
    (do let t ← createModel1 s ((modelPars sets).map fin); getModelVector1 t) = .ok (some (tab n fun z => asData s.mags zp (seenAt n X (intensity zp sets) z q))) := by
  obtain ⟨N, V, h1, h2, h3⟩ := modelVec1_at hz hf hok hq
  unfold createModel1 getModelVector1 withModel
  rw [h1, ok_bind]
  simp only [pure_eq_ok, ok_bind, if_true, hn]
  rw [loopMap_ok n _ fun z => asData s.mags zp (seenAt n X (intensity zp sets) z q)]
  · rfl
  · intro z hz
    rw [rdp_tab _ (by omega), h3 z hz]

/-- The deviates. -/
theorem deviates1_at {s : P1 XR} {zp : ℝ} {sets : List FnSet} {n : Nat} {X : Nat → ℝ} {q : Option (Nat × (Nat → ℝ))} {W D : Nat → XR} {nv : Int}
    (hb : BaseOK s.base n W D nv) (hz : s.zp = fin zp) (hf : s.fns = modelFns sets) (hok : SetsOK sets) (hq : PsfSeen s n X q) :
    deviates1 s ((modelPars sets).map fin) = .ok (tab n fun z => W z * (D z - asData s.mags zp (seenAt n X (intensity zp sets) z q))) := by
  obtain ⟨N, V, h1, h2, h3⟩ := modelVec1_at hz hf hok hq
  unfold deviates1 createModel1 withModel
  rw [h1, ok_bind]
  simp only [pure_eq_ok, ok_bind, hb.nData, hb.boot, Bool.false_eq_true, if_false]
  rw [loopMap_ok n _ fun z => W z * (D z - asData s.mags zp (seenAt n X (intensity zp sets) z q))]
  · rfl
  · intro z hz
    rw [hb.weight, hb.data, rdp_tab _ hz, ok_bind, rdp_tab _ hz, ok_bind, rdp_tab _ (by omega), ok_bind, h3 z hz]

/-- The fit statistic without a PSF. -/
theorem fitStat1_at {s : P1 XR} {zp : ℝ} {sets : List FnSet} {n : Nat} {X : Nat → ℝ} {W D : Nat → XR} {nv : Int}
    (hb : BaseOK s.base n W D nv) (hz : s.zp = fin zp) (hf : s.fns = modelFns sets) (hok : SetsOK sets) (hq : PsfSeen s n X none) :
    fitStat1 s ((modelPars sets).map fin) = .ok (mpEnorm (tab n fun z => W z * (D z - asData s.mags zp (intensity zp sets (X z)))) *
      mpEnorm (tab n fun z => W z * (D z - asData s.mags zp (intensity zp sets (X z))))) := by
  obtain ⟨N, V, h1, h2, h3⟩ := modelVec1_at hz hf hok hq
  obtain ⟨h4, -, -, h5⟩ := hq
  have hm : maybeUpdateWeights { s.base with modelVec := some (tab N fun j => asData s.mags zp (V j)), modelImageComputed := true } =
      .ok { s.base with modelVec := some (tab N fun j => asData s.mags zp (V j)), modelImageComputed := true } := by
    unfold maybeUpdateWeights
    simp only [hb.merr, Bool.false_eq_true, if_false]
  unfold fitStat1 createModel1 withModel
  rw [h1, ok_bind]
  simp only [pure_eq_ok, ok_bind, hm]
  simp only [nTerms, hb.boot, Bool.false_eq_true, if_false, hb.nData]
  rw [loopMap_ok n _ fun z => W z * (D z - asData s.mags zp (intensity zp sets (X z)))]
  · rfl
  · intro z hz
    simp only [termPixel, Bool.false_eq_true, if_false, pure_eq_ok, ok_bind, chiIndex1, h5, false_and, modelIndex]
    unfold chiDeviate
    simp only [hb.weight, hb.data]
    have := h3 z hz
    rw [h4, Nat.zero_add] at this
    rw [rdp_tab _ hz, ok_bind, rdp_tab _ hz, ok_bind, rdp_tab _ (by omega), ok_bind, this]
    rfl

end Imfit
