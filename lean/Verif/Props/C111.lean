import Verif.Model.Memory
import Mathlib.Tactic.Ring
import Mathlib.Tactic.Linarith

/-!
# C111 — The estimate of memory is not too small
-/

namespace Imfit

namespace Spec

/-- Bytes of arrays. -/
def bytes (l : List Arr) : Nat := (l.map fun a => a.count * a.size).sum

end Spec

open Spec

theorem bytes_append (a b : List Arr) : bytes (a ++ b) = bytes a + bytes b := by simp [bytes]

theorem bytes_arrIf (b : Bool) (l : List Arr) : bytes (arrIf b l) = if b then bytes l else 0 := by
  cases b <;> rfl

theorem bytes_cons (a : Arr) (l : List Arr) : bytes (a :: l) = a.count * a.size + bytes l := by simp [bytes]

theorem bytes_nil : bytes [] = 0 := rfl

theorem bytes_flatMap {β : Type} (l : List β) (f : β → List Arr) : bytes (l.flatMap f) = (l.map fun b => bytes (f b)).sum := by
  induction l with
  | nil => rfl
  | cons b l ih => rw [List.flatMap_cons, bytes_append, ih, List.map_cons, List.sum_cons]

/-- Everything that is allocated for a convolution is in its estimate, which has one byte more for each pixel of the PSF. -/
theorem C111_convolver (imCols imRows psfCols psfRows : Nat) :
    bytes (convolverArrays imCols imRows psfCols psfRows) + psfCols * psfRows = estimateConvolver imCols imRows psfCols psfRows := by
  simp only [convolverArrays, estimateConvolver, bytes_cons, bytes_nil]
  ring

theorem bytes_statistic (r : MemRun) (h : (r.noiseImage && r.cash) = false) : bytes (statisticArrays r) + bytes (arrIf r.maskImage [⟨r.n, 8⟩]) + bytes (arrIf r.noiseImage [⟨r.n, 8⟩]) =
    (if r.cash then 3 else 2) * (r.n * 8) := by
  unfold statisticArrays
  cases hc : r.cash <;> cases hn : r.noiseImage <;> cases hm : r.maskImage <;> simp_all [bytes, arrIf] <;> ring

theorem bytes_fit (r : MemRun) : bytes (fitArrays r) = (if r.levMar then 2 + r.nFree else 0) * (r.n * 8) + (if r.cash then 0 else 1) * (r.n * 8) := by
  unfold fitArrays
  cases r.levMar <;> cases r.cash <;> simp [bytes, arrIf] <;> ring

/-- The estimate is enough for all arrays: no oversampled regions; Levenberg-Marquardt, or the Cash statistic or MLR; no noise image that is not used. -/
theorem C111_enough_partial (r : MemRun) (hp : ∀ p, r.psf = some p → 1 ≤ p.1 ∧ 1 ≤ p.2) (hr : r.regions = []) (hs : r.levMar = true ∨ r.cash = true) (hn : (r.noiseImage && r.cash) = false)
    (hb : r.bootstrap = false) (hw : r.saveWeights = false) : bytes (runArrays r) ≤ estimate r := by
  have h1 := bytes_statistic r hn
  have h2 := bytes_fit r
  have hfit : (if r.levMar then 2 + r.nFree else 0) + (if r.cash then 0 else 1) ≤ (if r.levMar then 3 + r.nFree else 0) := by
    rcases hs with h | h
    · rw [h]; cases r.cash <;> simp <;> omega
    · rw [h]; cases r.levMar <;> simp
  have hfit' : bytes (fitArrays r) ≤ (if r.levMar then 3 + r.nFree else 0) * (r.n * 8) := by
    rw [h2, ← Nat.add_mul]
    exact Nat.mul_le_mul_right _ hfit
  unfold runArrays inputArrays outputArrays estimate estimateUse
  rw [hr, hb, hw]
  simp only [List.flatMap_nil, List.append_nil, bytes_append, List.map_nil, List.sum_nil, Nat.add_zero]
  simp only [bytes_arrIf r.saveResidual, bytes_arrIf (r.saveModel && r.psf.isSome), bytes_arrIf false, bytes_cons, bytes_nil, Nat.add_zero]
  have hcash : (if r.cash then 3 else 2) * (r.n * 8) = 2 * (r.n * 8) + (if r.cash then 1 else 0) * (r.n * 8) := by cases r.cash <;> simp <;> ring
  have hout : (if (r.saveModel && r.psf.isSome) = true then r.n * 8 else 0) + (if r.saveResidual = true then r.n * 8 else 0) ≤
      ((if r.saveResidual then 1 else 0) + (if r.saveModel then 1 else 0)) * (r.n * 8) := by
    cases r.saveModel <;> cases r.saveResidual <;> cases r.psf.isSome <;> simp <;> omega
  have hN : r.cols * r.rows = r.n := rfl
  rw [hcash] at h1
  cases hpsf : r.psf with
  | none =>
    rw [hpsf] at hout
    simp only [modelArrays, hpsf, Option.getD_none, lt_irrefl, if_false, bytes_cons, bytes_nil, Bool.false_eq_true, hN] at h1 hout ⊢
    nlinarith [h1, hfit', hout]
  | some p =>
    obtain ⟨p1, p2⟩ := hp p hpsf
    have hpos : 0 < p.1 := p1
    rw [hpsf] at hout
    have hc := C111_convolver (r.cols + 2 * p.1) (r.rows + 2 * p.2) p.1 p.2
    have hbig : r.n + 4 * (p.1 * p.2) ≤ (r.cols + 2 * p.1) * (r.rows + 2 * p.2) := by rw [← hN]; nlinarith [Nat.zero_le (r.cols * p.2), Nat.zero_le (p.1 * r.rows)]
    simp only [modelArrays, hpsf, Option.getD_some, hpos, if_true, bytes_append, bytes_cons, bytes_nil, Bool.false_eq_true, if_false, hN] at h1 hout ⊢
    nlinarith [h1, hfit', hout, hc, hbig]

/-- Without PSF and output it is exact (Levenberg-Marquardt and chi^2). -/
theorem C111_exact (r : MemRun) (hp : r.psf = none) (hr : r.regions = []) (hl : r.levMar = true) (hc : r.cash = false) (hb : r.bootstrap = false) (hw : r.saveWeights = false) (hm : r.saveModel = false) :
    bytes (runArrays r) = estimate r := by
  have h1 := bytes_statistic r (by rw [hc, Bool.and_false])
  have h2 := bytes_fit r
  unfold runArrays inputArrays outputArrays estimate estimateUse modelArrays
  rw [hr, hb, hw, hp, hm]
  have hN : r.cols * r.rows = r.n := rfl
  simp only [List.flatMap_nil, List.append_nil, bytes_append, List.map_nil, List.sum_nil, Nat.add_zero, bytes_arrIf r.saveResidual, bytes_arrIf false, bytes_cons, bytes_nil,
    Option.getD_none, lt_irrefl, if_false, Bool.false_and, Bool.false_eq_true, hl, hc, if_true, hN] at h1 h2 ⊢
  cases r.saveResidual <;> simp <;> nlinarith [h1, h2]

/-! ## Where the code differs -/

/-- With the other solvers and chi^2 the deviates are not counted: without PSF and output one array out of five is missing. -/
theorem C111_solver_false (r : MemRun) (hp : r.psf = none) (hr : r.regions = []) (hl : r.levMar = false) (hc : r.cash = false) (hb : r.bootstrap = false) (hw : r.saveWeights = false)
    (hm : r.saveModel = false) (hs : r.saveResidual = false) : bytes (runArrays r) = 5 * (r.n * 8) ∧ estimate r = 4 * (r.n * 8) := by
  have h1 := bytes_statistic r (by rw [hc, Bool.and_false])
  have h2 := bytes_fit r
  unfold runArrays inputArrays outputArrays estimate estimateUse modelArrays
  rw [hr, hb, hw, hp, hm, hs]
  have hN : r.cols * r.rows = r.n := rfl
  simp only [List.flatMap_nil, List.append_nil, bytes_append, List.map_nil, List.sum_nil, Nat.add_zero, bytes_arrIf false, bytes_cons, bytes_nil,
    Option.getD_none, lt_irrefl, if_false, Bool.false_and, Bool.false_eq_true, hl, hc, hN] at h1 h2 ⊢
  constructor <;> nlinarith [h1, h2]

/-- Bootstrap resampling and the image of weights are not counted. -/
theorem C111_output_false (r : MemRun) : estimate { r with bootstrap := true, saveWeights := true } = estimate { r with bootstrap := false, saveWeights := false } ∧
    bytes (runArrays { r with bootstrap := true, saveWeights := true }) = bytes (runArrays { r with bootstrap := false, saveWeights := false }) + (r.nValid + r.n) * 8 := by
  refine ⟨rfl, ?_⟩
  have e : ∀ b w, bytes (runArrays { r with bootstrap := b, saveWeights := w }) = bytes (inputArrays r ++ modelArrays r ++ r.regions.flatMap (regionArrays r) ++ statisticArrays r ++ fitArrays r) +
      bytes (outputArrays { r with bootstrap := b, saveWeights := w }) := fun b w => bytes_append _ _
  rw [e, e]
  simp only [outputArrays, bytes_append, bytes_arrIf, bytes_cons, bytes_nil, if_true, Bool.false_eq_true, if_false, MemRun.n]
  ring

/-- A region inside the image with its own PSF: one byte is counted for each pixel of the PSF, instead of eight. -/
theorem C111_region_false (r : MemRun) (g : MemRegion) (hx : 1 ≤ g.x1 ∧ g.x2 ≤ r.cols) (hy : 1 ≤ g.y1 ∧ g.y2 ≤ r.rows) :
    bytes (regionArrays r g) + g.psfCols * g.psfRows * 8 = estimateRegion g + 7 * (g.psfCols * g.psfRows) := by
  have h := C111_convolver ((g.x2 + 1 - g.x1) * g.scale + 2 * g.psfCols) ((g.y2 + 1 - g.y1) * g.scale + 2 * g.psfRows) g.psfCols g.psfRows
  simp only [regionArrays, estimateRegion, Nat.min_eq_left hx.2, Nat.min_eq_left hy.2, Nat.max_eq_left hx.1, Nat.max_eq_left hy.1, bytes_append, bytes_cons, bytes_nil]
  omega

/-- An image of 1000 by 1000 pixels with a PSF, ten free parameters. -/
def exMem : MemRun := ⟨1000, 1000, some (51, 51), [], true, false, false, true, 10, 999000, false, true, true, false⟩

example : bytes (runArrays exMem) ≤ estimate exMem := C111_enough_partial exMem (by rintro p ⟨⟩; decide) rfl (.inl rfl) rfl rfl rfl

example : bytes (runArrays { exMem with psf := none, saveModel := false }) = 18 * 8000000 := by
  rw [C111_exact _ rfl rfl rfl rfl rfl rfl rfl]
  decide +kernel

end Imfit
