import Verif.Lemmas.FitPix
import Verif.Model.Image

/-!
# C08 — data pixels and padded model pixels correspond one to one
-/

namespace Imfit

open Spec XR

/-- The geometry used by `CreateModelImage` (`core/model_object.cpp:1155-1161`): padded size and PSF size of the object. -/
def MO.geom {α : Type} (s : MO α) : Geom := ⟨s.nModelCols, s.nModelRows, s.nPSFCols, s.nPSFRows⟩

theorem run_geom {i : FitInput XR} {c : Chars i} (sh : Shapes i) :
    (runState i c).geom = match i.psf with
      | some (a, b) => ⟨i.nCols + 2 * a, i.nRows + 2 * b, a, b⟩
      | none => ⟨i.nCols, i.nRows, 0, 0⟩ := by
  have f := setupFacts i c sh
  cases hp : i.psf with
  | some p =>
    obtain ⟨a, b⟩ := p
    obtain ⟨h1, h2, h3, h4⟩ := f.psf a b hp
    show (⟨(postSetup i c).nModelCols, (postSetup i c).nModelRows, (postSetup i c).nPSFCols, (postSetup i c).nPSFRows⟩ : Geom) = _
    rw [h1, h2, h3, h4]
  | none =>
    obtain ⟨h1, h2⟩ := f.mcols hp
    have h3 : (postSetup i c).nPSFCols = 0 ∧ (postSetup i c).nPSFRows = 0 := by
      unfold postSetup
      cases i.stat <;> simp [useCashStatistic, usePoissonMLR, useModelErrors, onesWeights, postMask, preMask, hp]
    show (⟨(postSetup i c).nModelCols, (postSetup i c).nModelRows, (postSetup i c).nPSFCols, (postSetup i c).nPSFRows⟩ : Geom) = _
    rw [h1, h2, h3.1, h3.2]

theorem padIndex_divmod {i : FitInput XR} (sh : Shapes i) (a b : Nat) (z : Nat) :
    ((z / i.nCols + b) * (i.nCols + 2 * a) + (z % i.nCols + a)) / (i.nCols + 2 * a) = z / i.nCols + b ∧
    ((z / i.nCols + b) * (i.nCols + 2 * a) + (z % i.nCols + a)) % (i.nCols + 2 * a) = z % i.nCols + a := by
  have hc : 0 < i.nCols := sh.cols
  have hlt : z % i.nCols + a < i.nCols + 2 * a := by
    have := Nat.mod_lt z hc; omega
  constructor
  · rw [Nat.mul_comm, Nat.mul_add_div (by omega), Nat.div_eq_of_lt hlt, Nat.add_zero]
  · rw [Nat.mul_comm, Nat.mul_add_mod, Nat.mod_eq_of_lt hlt]

theorem padIndex_lt {i : FitInput XR} (sh : Shapes i) {z : Nat} (hz : z < i.n) : padIndex i z < padLen i := by
  have hc : 0 < i.nCols := sh.cols
  unfold padIndex padLen
  cases hp : i.psf with
  | none => exact hz
  | some p =>
    obtain ⟨a, b⟩ := p
    have h1 := Nat.mod_lt z hc
    have h2 : z / i.nCols < i.nRows := (Nat.div_lt_iff_lt_mul hc).2 (by rw [Nat.mul_comm]; exact hz)
    show (z / i.nCols + b) * (i.nCols + 2 * a) + (z % i.nCols + a) < (i.nCols + 2 * a) * (i.nRows + 2 * b)
    calc (z / i.nCols + b) * (i.nCols + 2 * a) + (z % i.nCols + a)
        < (z / i.nCols + b) * (i.nCols + 2 * a) + (i.nCols + 2 * a) := by omega
      _ = (i.nCols + 2 * a) * (z / i.nCols + b + 1) := by ring
      _ ≤ _ := Nat.mul_le_mul_left _ (by omega)

theorem padIndex_inj {i : FitInput XR} (sh : Shapes i) {z z' : Nat} (h : padIndex i z = padIndex i z') : z = z' := by
  unfold padIndex at h
  cases hp : i.psf with
  | none => rw [hp] at h; exact h
  | some p =>
    obtain ⟨a, b⟩ := p
    rw [hp] at h
    simp only at h
    have e1 := padIndex_divmod sh a b z
    have e2 := padIndex_divmod sh a b z'
    rw [h] at e1
    have q : z / i.nCols = z' / i.nCols := by omega
    have r : z % i.nCols = z' % i.nCols := by omega
    rw [← Nat.div_add_mod z i.nCols, ← Nat.div_add_mod z' i.nCols, q, r]

/-- The model pixel paired with data pixel `z` lies inside the model image, is evaluated at the 1-based coordinate
(column + 1, row + 1) of pixel `z`, and different data pixels have different model pixels. -/
theorem C08_coordinates (i : FitInput XR) (c : Chars i) (sh : Shapes i) (s : MO XR) (st : Int) (hrun : runSetup i = .ok (s, st)) :
    (∀ z, z < i.n → modelIndex s z < padLen i ∧ s.geom.n = padLen i ∧
      (mainX s.geom (modelIndex s z) : XR) = fin ((z % i.nCols : Nat) + 1) ∧
      (mainY s.geom (modelIndex s z) : XR) = fin ((z / i.nCols : Nat) + 1)) ∧
    (∀ z z', z < i.n → z' < i.n → modelIndex s z = modelIndex s z' → z = z') := by
  rw [runSetup_eq (c := c) sh] at hrun
  simp only [Except.ok.injEq, Prod.mk.injEq] at hrun
  obtain ⟨rfl, -⟩ := hrun
  constructor
  · intro z hz
    rw [modelIndex_pad sh]
    refine ⟨padIndex_lt sh hz, ?_, ?_⟩
    · rw [run_geom sh]
      unfold padLen Geom.n
      cases i.psf <;> rfl
    · rw [run_geom sh]
      unfold padIndex mainX mainY
      cases hp : i.psf with
      | none => simp; exact ⟨by norm_cast, by norm_cast⟩
      | some p =>
        obtain ⟨a, b⟩ := p
        simp only
        obtain ⟨h1, h2⟩ := padIndex_divmod sh a b z
        rw [h1, h2]
        simp; exact ⟨by norm_cast, by norm_cast⟩
  · intro z z' _ _ h
    rw [modelIndex_pad sh, modelIndex_pad sh] at h
    exact padIndex_inj sh h

/-- Every chi-squared deviate compares data pixel `z` with model pixel `padIndex i z` and with no other (weights not
from the model). -/
theorem C08_deviates (i : FitInput XR) (c : Chars i) (sh : Shapes i) (s : MO XR) (st : Int) (hrun : runSetup i = .ok (s, st))
    (hstat : i.stat = .chi2Data ∨ ∃ code, i.stat = .chi2User code) (img : List XR) (hl : img.length = padLen i) :
    ∃ d w, s.dataVec = some d ∧ s.weightVec = some w ∧
      ∀ s' T, Mode i.n (count i.n (Used i)) s s' T →
        ∃ t, computeDeviates (withModel s' img) =
          .ok (t, T.map fun z => pix w z * (pix d z - pix img (padIndex i z))) := by
  rw [runSetup_eq (c := c) sh] at hrun
  simp only [Except.ok.injEq, Prod.mk.injEq] at hrun
  obtain ⟨rfl, -⟩ := hrun
  refine ⟨_, _, run_data sh, run_weight sh, ?_⟩
  intro s' T hm
  obtain ⟨T0, IT⟩ := run_tabs0 (c := c) sh hm img hl
  obtain ⟨hme, -, -, -, -, hmlr, -⟩ := mode_fields sh hm
  have hp : (withModel s' img).poissonMLR = false := by
    show s'.poissonMLR = false; rw [hmlr]
    rcases hstat with h | ⟨_, h⟩ <;> simp [h]
  have hme' : (withModel s' img).modelErrors = false := by
    show s'.modelErrors = false; rw [hme]
    rcases hstat with h | ⟨_, h⟩ <;> simp [h]
  rw [computeDeviates_terms T0 IT hp]
  refine ⟨_, congrArg Except.ok (Prod.ext rfl ?_)⟩
  apply List.map_congr_left
  intro b hb
  have hb := IT.lt b hb
  have e1 : pix (tab i.n (fData i)) b = fData i b := by
    unfold pix tab; simp [List.getD_eq_getElem?_getD, hb]
  have e2 : pix (tab i.n (fWeight i c)) b = fWeight i c b := by
    unfold pix tab; simp [List.getD_eq_getElem?_getD, hb]
  rw [e1, e2]
  unfold upW imgAt
  rw [hme', modelIndex_pad sh]
  rfl

/-- Two model images that agree at the paired pixels give the same statistic and the same deviates, for every fit statistic and in
every mode: no other model pixel is looked at (also not for the weight update). -/
theorem C08_only_paired_pixels (i : FitInput XR) (c : Chars i) (sh : Shapes i) (s : MO XR) (st : Int)
    (hrun : runSetup i = .ok (s, st)) (img img' : List XR) (hl : img.length = padLen i) (hl' : img'.length = padLen i)
    (hsame : ∀ z, z < i.n → pix img (padIndex i z) = pix img' (padIndex i z)) (s' : MO XR) (T : List Nat)
    (hm : Mode i.n (count i.n (Used i)) s s' T) :
    (∃ t t' y, computeDeviates (withModel s' img) = .ok (t, y) ∧ computeDeviates (withModel s' img') = .ok (t', y)) ∧
    (∃ t t' v, getFitStatistic (withModel s' img) = .ok (t, v) ∧ getFitStatistic (withModel s' img') = .ok (t', v)) := by
  rw [runSetup_eq (c := c) sh] at hrun
  simp only [Except.ok.injEq, Prod.mk.injEq] at hrun
  obtain ⟨rfl, -⟩ := hrun
  obtain ⟨T0, IT⟩ := run_tabs0 (c := c) sh hm img hl
  obtain ⟨T0', IT'⟩ := run_tabs0 (c := c) sh hm img' hl'
  obtain ⟨hme, -, -, -, -, hmlr, hcash, hex⟩ := mode_fields sh hm
  have hf : ∀ z, z < i.n → imgAt (runState i c) img z = imgAt (runState i c) img' z := by
    intro z hz
    unfold imgAt
    rw [modelIndex_pad sh]; exact hsame z hz
  have hw : ∀ b ∈ T, upW (withModel s' img) (fMask i) (fWeight i c) (imgAt (runState i c) img) b =
      upW (withModel s' img') (fMask i) (fWeight i c) (imgAt (runState i c) img') b := by
    intro b hb
    unfold upW
    rw [hf b (IT.lt b hb)]
    rfl
  have hchi : (T.map fun b => upW (withModel s' img) (fMask i) (fWeight i c) (imgAt (runState i c) img) b *
        (fData i b - imgAt (runState i c) img b)) =
      (T.map fun b => upW (withModel s' img') (fMask i) (fWeight i c) (imgAt (runState i c) img') b *
        (fData i b - imgAt (runState i c) img' b)) := by
    apply List.map_congr_left
    intro b hb
    rw [hw b hb, hf b (IT.lt b hb)]
  have hexT : (i.stat = .cash ∨ i.stat = .poissonMLR) → s'.extraVec = some (tab i.n (fExtra i c)) := by
    intro h; rw [hex]; exact run_extra sh h
  constructor
  · by_cases hp : i.stat = .poissonMLR
    · have h1 : s'.poissonMLR = true := by rw [hmlr]; simp [hp]
      rw [computeDeviates_mlr_terms T0 IT h1 (hexT (Or.inr hp)), computeDeviates_mlr_terms T0' IT' h1 (hexT (Or.inr hp))]
      refine ⟨_, _, _, rfl, congrArg Except.ok (Prod.ext rfl ?_)⟩
      apply List.map_congr_left
      intro b hb
      unfold mlrD
      rw [hw b hb, hf b (IT.lt b hb)]
      rfl
    · have h1 : s'.poissonMLR = false := by rw [hmlr]; simp [hp]
      rw [computeDeviates_terms T0 IT h1, computeDeviates_terms T0' IT' h1]
      exact ⟨_, _, _, rfl, congrArg Except.ok (Prod.ext rfl hchi.symm)⟩
  · unfold getFitStatistic
    have hu : (withModel s' img).useCash = s'.useCash := rfl
    have hu' : (withModel s' img').useCash = s'.useCash := rfl
    rw [hu, hu']
    by_cases hp : i.stat = .cash ∨ i.stat = .poissonMLR
    · have h1 : s'.useCash = true := by rw [hcash]; rcases hp with h | h <;> simp [h]
      rw [h1]
      simp only [if_true]
      rw [cashStatistic_terms T0 IT (hexT hp), cashStatistic_terms T0' IT' (hexT hp)]
      refine ⟨_, _, _, rfl, congrArg Except.ok (Prod.ext rfl ?_)⟩
      show lit 2 * _ = lit 2 * _
      congr 1
      unfold cashFold
      apply List.foldl_ext
      intro a b hb
      rw [hf b (IT.lt b hb)]
      rfl
    · have h1 : s'.useCash = false := by rw [hcash]; cases hs : i.stat <;> simp_all
      rw [h1]
      simp only [Bool.false_eq_true, if_false]
      rw [chiSquared_terms T0 IT, chiSquared_terms T0' IT']
      refine ⟨_, _, _, rfl, congrArg Except.ok (Prod.ext rfl ?_)⟩
      rw [hchi]

/-- End to end, without convolution of the values (no PSF, or a convolver that changes nothing): with one ordinary image function of
finite values, the image computed by `CreateModelImage` has at the pixel paired with data pixel `z` the function's value at
`(column + 1, row + 1)` of pixel `z`. -/
theorem C08_evaluated_at_own_coordinate (i : FitInput XR) (c : Chars i) (sh : Shapes i) (s : MO XR) (st : Int)
    (hrun : runSetup i = .ok (s, st)) (m m' : Img XR) (hg : m.geom = s.geom) (hc : m.conv = none ∨ m.conv = some id)
    (hr : m.regions = []) (o : FnObj XR) (ho : m.fns = [o]) (hs : m.starts = [true]) (hpt : o.desc.isPoint = false)
    (x0 y0 : XR) (ps : List XR) (hps : ps.length = o.desc.nParams) (v : ℝ → ℝ → ℝ)
    (hv : ∀ x y, o.desc.val ps x0 y0 (fin x) (fin y) = fin (v x y))
    (hm : createModelImage m (x0 :: y0 :: ps) = .ok m') (z : Nat) (hz : z < i.n) :
    pix m'.modelVec (modelIndex s z) = fin (v ((z % i.nCols : Nat) + 1) ((z / i.nCols : Nat) + 1)) := by
  obtain ⟨hC, -⟩ := C08_coordinates i c sh s st hrun
  obtain ⟨h1, h2, h3, h4⟩ := hC z hz
  unfold createModelImage at hm
  have hfs : fnSetup o (x0 :: y0 :: ps) 2 x0 y0 = .ok { o with pars := ps, x0 := x0, y0 := y0 } := by
    unfold fnSetup
    rw [loopMap_ok _ _ (fun k => ps.getD k (fin 0))]
    · rw [← hps, ← eq_range_map_getD]; rfl
    · intro k hk
      rw [Nat.add_comm]
      show rd (x0 :: y0 :: ps) (k + 1 + 1) = _
      have : rd (x0 :: y0 :: ps) (k + 1 + 1) = rd ps k := by simp [rd]
      rw [this]
      exact rd_getD _ (by omega)
  have hset : setupFns (x0 :: y0 :: ps) (m.fns.zip m.starts) ⟨0, 0, 0⟩ =
      .ok ([{ o with pars := ps, x0 := x0, y0 := y0 }], ⟨2 + o.desc.nParams, x0, y0⟩) := by
    rw [ho, hs]
    simp only [List.zip_cons_cons, List.zip_nil_right, setupFns, newSet, if_true]
    have e0 : rd (x0 :: y0 :: ps) 0 = .ok x0 := rfl
    have e1 : rd (x0 :: y0 :: ps) (0 + 1) = .ok y0 := rfl
    simp only [e0, e1, ok_bind, pure_eq_ok, Nat.zero_add, hfs]
  rw [hset, ok_bind] at hm
  have hfill : fillImage m.geom.n (mainX m.geom) (mainY m.geom) [{ o with pars := ps, x0 := x0, y0 := y0 }] =
      .ok (tab m.geom.n fun k => fin (v (((k % m.geom.cols : Nat) : Int) - (m.geom.psfCols : Int) + 1 : Int)
        (((k / m.geom.cols : Nat) : Int) - (m.geom.psfRows : Int) + 1 : Int))) := by
    unfold fillImage
    apply loopMap_ok
    intro k hk
    simp only [pixelSum, pixelStep, hpt, if_true, fnValue, Bool.false_eq_true, if_false, ok_bind, pure_eq_ok]
    have ex : (mainX m.geom k : XR) = fin ((((k % m.geom.cols : Nat) : Int) - (m.geom.psfCols : Int) + 1 : Int) : ℝ) := by
      unfold mainX; simp
    have ey : (mainY m.geom k : XR) = fin ((((k / m.geom.cols : Nat) : Int) - (m.geom.psfRows : Int) + 1 : Int) : ℝ) := by
      unfold mainY; simp
    rw [ex, ey, hv]
    simp [kahanAdd]
  simp only [] at hm
  rw [hfill, ok_bind] at hm
  have hap : ∀ l, applyConv m.conv l = l := by
    intro l
    rcases hc with h | h <;> rw [h] <;> rfl
  have hpts : m.points = false := by unfold Img.points; rw [ho]; simp [hpt]
  simp only [hap, pointStep, hpts, Bool.false_eq_true, if_false, ok_bind, hr, computeRegions, pure_eq_ok] at hm
  cases hm
  have hx := h3
  have hy := h4
  rw [← hg] at hx hy h2
  unfold mainX at hx
  unfold mainY at hy
  have hx' := XR.fin.inj hx
  have hy' := XR.fin.inj hy
  have e : pix (tab m.geom.n fun k => fin (v (((k % m.geom.cols : Nat) : Int) - (m.geom.psfCols : Int) + 1 : Int)
        (((k / m.geom.cols : Nat) : Int) - (m.geom.psfRows : Int) + 1 : Int))) (modelIndex s z) =
      fin (v (((modelIndex s z % m.geom.cols : Nat) : Int) - (m.geom.psfCols : Int) + 1 : Int)
        (((modelIndex s z / m.geom.cols : Nat) : Int) - (m.geom.psfRows : Int) + 1 : Int)) := by
    unfold pix tab
    rw [h2]
    simp [List.getD_eq_getElem?_getD, h1]
  rw [e]
  rw [← hx', ← hy']
  push_cast; rfl

/-- Example: data pixel 3 of the 2 x 2 image with a 3 x 3 PSF is paired with pixel (column 4, row 4) of the 8 x 8 model image,
evaluated at (2, 2). -/
example : ∃ s st, runSetup exInput = .ok (s, st) ∧ modelIndex s 3 = 36 ∧ (mainX s.geom 36 : XR) = fin 2 := by
  refine ⟨_, _, runSetup_eq (c := exChars) exShapes, ?_, ?_⟩
  · rw [modelIndex_pad exShapes]; rfl
  · obtain ⟨h, -⟩ := C08_coordinates exInput exChars exShapes _ _ (runSetup_eq (c := exChars) exShapes)
    have := (h 3 (by decide)).2.2.1
    rw [modelIndex_pad exShapes] at this
    have e : padIndex exInput 3 = 36 := rfl
    rw [e] at this
    rw [this]
    congr 1
    have e3 : 3 % exInput.nCols = 1 := rfl
    rw [e3]; norm_num

end Imfit
