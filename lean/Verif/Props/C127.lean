import Verif.Props.C121
import Verif.Props.C05
import Verif.Props.C06
import Verif.Props.C118

/-!
# C127 — Nothing fits an image better than the model it was made with

If the data are the image that makeimage makes for some parameters, no parameters have a lower fit statistic than these, for any statistic.
-/

namespace Imfit

open Spec XR

namespace Spec

/-- The data are the model image, at the pixels that are used. -/
def MadeWith (i : FitInput XR) (img : List ℝ) : Prop := ∀ z, z < i.n → Used i z → pix i.data z = fin (modelAt i img z)

end Spec

variable {i : FitInput XR}

/-- C127, chi-squared (any weights): it is 0 for the model the data were made with; for another model it is not negative, and 0 only if no pixel that has a weight differs. -/
theorem C127_chi2 (c : Chars i) (sh : Shapes i) (s : MO XR) (hrun : runSetup i = .ok (s, 0)) (hstat : i.stat ≠ .cash ∧ i.stat ≠ .poissonMLR)
    (img img2 : List ℝ) (hl : img.length = padLen i) (hl2 : img2.length = padLen i) (hmade : MadeWith i img)
    (hpos : i.stat = .chi2Model → ∀ z, z < i.n → Used i z → 0 < c.modelVariance (modelAt i img z) ∧ 0 < c.modelVariance (modelAt i img2 z)) :
    (∃ t, getFitStatistic (withModel s (img.map fin)) = .ok (t, fin 0)) ∧
    ∃ t v, ∃ w : Nat → ℝ, getFitStatistic (withModel s (img2.map fin)) = .ok (t, fin v) ∧ 0 ≤ v ∧ (∀ z, z < i.n → Used i z → 0 ≤ w z ∧ PixWeight c img2 z (w z)) ∧
      (v = 0 ↔ ∀ z, z < i.n → Used i z → w z = 0 ∨ modelAt i img2 z = modelAt i img z) := by
  obtain ⟨w, -, h2⟩ := C05_chi2_partial i c sh s hrun hstat img hl (fun h z hz hu => (hpos h z hz hu).1) (modelAt i img) hmade
  obtain ⟨w', g1, g2⟩ := C05_chi2_partial i c sh s hrun hstat img2 hl2 (fun h z hz hu => (hpos h z hz hu).2) (modelAt i img) hmade
  obtain ⟨-, t, v, e1, -, e2, -⟩ := h2 s _ .plain
  obtain ⟨-, t', v', f1, f2, f3, -⟩ := g2 s _ .plain
  refine ⟨⟨t, ?_⟩, t', v', w', f1, f2, g1, ?_⟩
  · rw [e1, e2.2 fun z _ _ => .inr rfl]
  · rw [f3]
    refine ⟨fun h z hz hu => ?_, fun h z hz hu => ?_⟩
    · exact (h z (List.mem_range.2 hz) hu).imp id Eq.symm
    · exact (h z (List.mem_range.1 hz) hu).imp id Eq.symm

/-- Cash terms of two models with positive counts, for data made with the first: they differ by the Poisson-MLR term. -/
theorem cashTerm_made {g k m m2 e q q2 : ℝ} (hM : 0 < g * (m + k)) (hM2 : 0 < g * (m2 + k)) (h : cashTerm (fin g) (fin k) (fin m) (fin m) (fin e) = fin q)
    (h2 : cashTerm (fin g) (fin k) (fin m) (fin m2) (fin e) = fin q2) : q2 = q + mlrTerm (g * (m + k)) (g * (m2 + k)) := by
  unfold cashTerm logModel at h h2
  simp only [fin_add, fin_mul, zero_def, fle_fin, not_le.mpr hM, decide_false, Bool.false_eq_true, if_false, flog_fin_of_pos hM, fin_sub] at h
  simp only [fin_add, fin_mul, zero_def, fle_fin, not_le.mpr hM2, decide_false, Bool.false_eq_true, if_false, flog_fin_of_pos hM2, fin_sub] at h2
  have e1 := XR.fin.inj h
  have e2 := XR.fin.inj h2
  rw [← e1, ← e2]
  unfold mlrTerm
  rw [Real.log_div hM.ne' hM2.ne']
  ring

/-- C127, Cash statistic and Poisson-MLR: for positive counts no model has a lower value than the one the data were made with, and only models that agree with it at all pixels that are
used have the same value. -/
theorem C127_counts (c : Chars i) (sh : Shapes i) (s : MO XR) (st : Int) (hrun : runSetup i = .ok (s, st)) (hstat : i.stat = .cash ∨ i.stat = .poissonMLR)
    (img img2 : List ℝ) (hl : img.length = padLen i) (hl2 : img2.length = padLen i) (hmade : MadeWith i img)
    (hx : i.stat = .poissonMLR → ∀ z, z < i.n → ¬ Used i z → pix i.data z ≠ nan ∧ pix i.data z ≠ pinf)
    (hM : ∀ z, z < i.n → Used i z → 0 < c.counts (modelAt i img z) ∧ 0 < c.counts (modelAt i img2 z)) :
    ∃ t t' v v', getFitStatistic (withModel s (img.map fin)) = .ok (t, fin v) ∧ getFitStatistic (withModel s (img2.map fin)) = .ok (t', fin v') ∧ v ≤ v' ∧
      (v' = v ↔ ∀ z, z < i.n → Used i z → modelAt i img2 z = modelAt i img z) := by
  rw [runSetup_eq (c := c) sh] at hrun
  obtain ⟨rfl, -⟩ := Prod.mk.inj (Except.ok.inj hrun)
  obtain ⟨q, q1, q2, t, q3⟩ := cash_sum c sh hstat img hl hx
  obtain ⟨p, p1, p2, t', p3⟩ := cash_sum c sh hstat img2 hl2 hx
  have hg := effGain_pos c
  classical
  have key : ∀ z, z < i.n → p z = q z + if Used i z then mlrTerm (c.counts (modelAt i img z)) (c.counts (modelAt i img2 z)) else 0 := by
    intro z hz
    by_cases hu : Used i z
    · rw [if_pos hu]
      have a := q1 z hz hu
      have b := p1 z hz hu
      rw [hmade z hz hu] at a b
      obtain ⟨e, he⟩ : ∃ e, fExtra i c z = fin e := by
        unfold fExtra
        by_cases hp : i.stat = .poissonMLR
        · rw [if_pos hp]
          refine extra_fin hg _ ?_ ?_ <;> rw [hmade z hz hu] <;> intro h <;> cases h
        · rw [if_neg hp]; exact ⟨0, rfl⟩
      rw [he] at a b
      exact cashTerm_made (hM z hz hu).1 (hM z hz hu).2 a b
    · rw [if_neg hu, q2 z hu, p2 z hu, add_zero]
  have hterm : ∀ z, z < i.n → Used i z → 0 ≤ mlrTerm (c.counts (modelAt i img z)) (c.counts (modelAt i img2 z)) ∧
      (mlrTerm (c.counts (modelAt i img z)) (c.counts (modelAt i img2 z)) = 0 ↔ modelAt i img2 z = modelAt i img z) := by
    intro z hz hu
    obtain ⟨h1, h2⟩ := mlrTerm_nonneg (hM z hz hu).1.le (hM z hz hu).2
    refine ⟨h1, h2.trans ?_⟩
    unfold Chars.counts
    rw [mul_right_inj' hg.ne', add_left_inj]
  have hsum : ((List.range i.n).map p).sum = ((List.range i.n).map q).sum +
      ((List.range i.n).map fun z => if Used i z then mlrTerm (c.counts (modelAt i img z)) (c.counts (modelAt i img2 z)) else 0).sum := by
    rw [← List.sum_map_add]
    exact congrArg List.sum (List.map_congr_left fun z hz => key z (List.mem_range.1 hz))
  have hnn : ∀ x ∈ (List.range i.n).map fun z => if Used i z then mlrTerm (c.counts (modelAt i img z)) (c.counts (modelAt i img2 z)) else 0, 0 ≤ x := by
    intro x hx
    obtain ⟨z, hz, rfl⟩ := List.mem_map.1 hx
    split
    · rename_i hu; exact (hterm z (List.mem_range.1 hz) hu).1
    · exact le_rfl
  refine ⟨t, t', _, _, q3, p3, ?_, ?_⟩
  · rw [hsum]
    have := List.sum_nonneg hnn
    linarith
  · rw [hsum]
    have e : 2 * (((List.range i.n).map q).sum + ((List.range i.n).map fun z => if Used i z then mlrTerm (c.counts (modelAt i img z)) (c.counts (modelAt i img2 z)) else 0).sum) =
        2 * ((List.range i.n).map q).sum ↔ ((List.range i.n).map fun z => if Used i z then mlrTerm (c.counts (modelAt i img z)) (c.counts (modelAt i img2 z)) else 0).sum = 0 := by
      constructor <;> intro h <;> linarith
    rw [e]
    constructor
    · intro h z hz hu
      have h0 := List.all_zero_of_le_zero_le_of_sum_eq_zero (l := (List.range i.n).map fun z => if Used i z then mlrTerm (c.counts (modelAt i img z)) (c.counts (modelAt i img2 z)) else 0)
        hnn h (List.mem_map_of_mem (List.mem_range.2 hz))
      simp only [if_pos hu] at h0
      exact (hterm z hz hu).2.1 h0
    · intro h
      refine List.sum_eq_zero fun x hx => ?_
      obtain ⟨z, hz, rfl⟩ := List.mem_map.1 hx
      split
      · rename_i hu; exact (hterm z (List.mem_range.1 hz) hu).2.2 (h z (List.mem_range.1 hz) hu)
      · rfl

/-- C127, images: the data that makeimage writes for the parameters `p` are made with the model image of a fit that has the parameters `p`. -/
theorem C127_made {m m' : Img XR} (sh : Shapes i) (hf : Fits m i.nCols i.nRows) (hp : PsfOf i m) (p : List XR) (hok : createModelImage m p = .ok m') (img : List ℝ) (hl : img.length = m.geom.n)
    (hv : m'.modelVec = img.map fin) (hd : cutOut m' i.nCols i.nRows = .ok i.data) : MadeWith i img := by
  intro z hz _
  obtain ⟨h1, h2, h3⟩ := pix_parts sh hz
  have := cut_model hf hp (create_keeps hok).1 (create_keeps hok).2 hl hv hd h1 h2
  rw [h3] at this
  unfold pix
  rw [List.getD_eq_getElem?_getD, this]
  rfl

theorem padLen_img {m : Img XR} (hf : Fits m i.nCols i.nRows) (hp : PsfOf i m) : padLen i = m.geom.n := by
  unfold padLen
  rw [hp]
  cases hc : m.conv with
  | none =>
    obtain ⟨h1, h2, -⟩ := hf.bare hc
    show i.nCols * i.nRows = m.geom.cols * m.geom.rows
    rw [h1, h2]
  | some k =>
    obtain ⟨h1, h2⟩ := hf.pad (by rw [hc]; rfl)
    show (i.nCols + 2 * m.geom.psfCols) * (i.nRows + 2 * m.geom.psfRows) = m.geom.cols * m.geom.rows
    rw [h1, h2]

/-- **C127.** The data are the image that makeimage makes for the parameters `p`; then no parameters `p2` have a lower statistic than `p`. Missing: model values that are not finite,
and for the Cash statistic and Poisson-MLR counts that are not positive (`C127_false`), for model-based errors variances that are not positive. -/
theorem C127_partial {m m' m2 : Img XR} (c : Chars i) (sh : Shapes i) (s : MO XR) (hrun : runSetup i = .ok (s, 0)) (hf : Fits m i.nCols i.nRows) (hp : PsfOf i m) (p p2 : List XR)
    (hok : createModelImage m p = .ok m') (_hok2 : createModelImage m p2 = .ok m2) (img img2 : List ℝ) (hl : img.length = m.geom.n) (hl2 : img2.length = m.geom.n)
    (hv : m'.modelVec = img.map fin) (hv2 : m2.modelVec = img2.map fin) (hd : cutOut m' i.nCols i.nRows = .ok i.data)
    (hpos : i.stat = .chi2Model → ∀ z, z < i.n → Used i z → 0 < c.modelVariance (modelAt i img z) ∧ 0 < c.modelVariance (modelAt i img2 z))
    (hM : i.stat = .cash ∨ i.stat = .poissonMLR → ∀ z, z < i.n → Used i z → 0 < c.counts (modelAt i img z) ∧ 0 < c.counts (modelAt i img2 z)) :
    ∃ t t' v v', getFitStatistic (withModel s m'.modelVec) = .ok (t, fin v) ∧ getFitStatistic (withModel s m2.modelVec) = .ok (t', fin v') ∧ v ≤ v' := by
  have hmade := C127_made sh hf hp p hok img hl hv hd
  have hpl := padLen_img hf hp
  rw [hv, hv2]
  by_cases hs : i.stat = .cash ∨ i.stat = .poissonMLR
  · have hfin : ∀ z, z < i.n → pix i.data z ≠ nan ∧ pix i.data z ≠ pinf := by
      intro z hz
      obtain ⟨h1, h2, h3⟩ := pix_parts sh hz
      have := cut_model hf hp (create_keeps hok).1 (create_keeps hok).2 hl hv hd h1 h2
      rw [h3] at this
      unfold pix
      rw [List.getD_eq_getElem?_getD, this]
      exact ⟨fun h => (by cases h), fun h => (by cases h)⟩
    obtain ⟨t, t', v, v', h1, h2, h3, -⟩ := C127_counts c sh s 0 hrun hs img img2 (hl.trans hpl.symm) (hl2.trans hpl.symm) hmade (fun _ z hz _ => hfin z hz) (hM hs)
    exact ⟨t, t', v, v', h1, h2, h3⟩
  · obtain ⟨⟨t, h1⟩, t', v', -, h2, h3, -⟩ := C127_chi2 c sh s hrun ⟨fun h => hs (.inl h), fun h => hs (.inr h)⟩ img img2 (hl.trans hpl.symm) (hl2.trans hpl.symm) hmade hpos
    exact ⟨t, t', 0, v', h1, h2, h3⟩

/-! ## Fits that start there -/

/-- C127, deviates: at the model the data were made with they are all 0 (chi-squared; for Poisson-MLR if the counts are positive). -/
theorem C127_deviates (c : Chars i) (sh : Shapes i) (s : MO XR) (hrun : runSetup i = .ok (s, 0)) (hstat : i.stat ≠ .cash) (img : List ℝ) (hl : img.length = padLen i) (hmade : MadeWith i img)
    (hpos : i.stat = .chi2Model → ∀ z, z < i.n → Used i z → 0 < c.modelVariance (modelAt i img z))
    (hx : i.stat = .poissonMLR → ∀ z, z < i.n → ¬ Used i z → pix i.data z ≠ nan ∧ pix i.data z ≠ pinf)
    (hM : i.stat = .poissonMLR → ∀ z, z < i.n → Used i z → 0 < c.counts (modelAt i img z)) :
    ∃ t y, computeDeviates (withModel s (img.map fin)) = .ok (t, y) ∧ ∀ x ∈ y, x = fin 0 := by
  by_cases hs : i.stat = .poissonMLR
  · obtain ⟨h1, h2⟩ := C06_poissonMLR_partial i c sh s hrun hs img hl (hx hs) (modelAt i img) hmade (fun z hz hu => (hM hs z hz hu).le) (hM hs)
    obtain ⟨y, -, ⟨t, h3⟩, -, -, h4⟩ := h2 s _ .plain
    refine ⟨t, _, h3, fun x hx => ?_⟩
    rw [h4] at hx
    simp only [List.map_map, List.mem_map, List.mem_range, Function.comp] at hx
    obtain ⟨z, hz, rfl⟩ := hx
    have : mlrAt c (modelAt i img) img z = 0 := by
      unfold mlrAt
      split
      · rename_i hu; exact (h1 z hz hu).2.2 rfl
      · rfl
    rw [this, mul_zero, Real.sqrt_zero]
  · obtain ⟨w, -, h2⟩ := C05_chi2_partial i c sh s hrun ⟨hstat, hs⟩ img hl hpos (modelAt i img) hmade
    obtain ⟨⟨t, h3⟩, -⟩ := h2 s _ .plain
    refine ⟨t, _, h3, fun x hx => ?_⟩
    simp only [List.map_map, List.mem_map, List.mem_range, Function.comp] at hx
    obtain ⟨z, hz, rfl⟩ := hx
    unfold resid
    split
    · rw [sub_self, mul_zero]
    · rfl

theorem chiOf_nonneg (dev : List XR → List XR) (v : List XR) (b : ℝ) (h : chiOf dev v = fin b) : 0 ≤ b := by
  unfold chiOf at h
  cases he : mpEnorm (dev v) with
  | fin e =>
    rw [he, fin_mul] at h
    rw [← XR.fin.inj h]
    exact mul_self_nonneg e
  | pinf => rw [he] at h; cases h
  | ninf => rw [he] at h; cases h
  | nan => rw [he] at h; cases h

/-- C127, start: a Levenberg-Marquardt fit that starts at the parameters the data were made with (all deviates are 0) ends there. -/
theorem C127_stays (E : SolverEnv XR) (params : List XR) (info : List (MPPar XR)) (tol : XR) (limitsExist : Bool) (name : List Char) (useLHS : Bool) (r : Fitted XR)
    (h0 : ∀ x ∈ E.dev params, x = fin 0) (h : dispatchToSolver E 1 params info tol limitsExist name useLHS = .ok r) : r.params = params := by
  rcases C118_not_worse_partial E params info tol limitsExist name useLHS r h with h | ⟨a, b, h1, h2, h3⟩
  · exact h
  · exfalso
    have e : E.dev params = (List.replicate (E.dev params).length (0 : ℝ)).map fin := by
      rw [List.map_replicate]
      exact List.eq_replicate_iff.2 ⟨rfl, h0⟩
    have h4 : mpEnorm (E.dev params) = fin 0 := by
      rw [e, C39_exact_partial _ (.inl fun x hx => .inl (List.eq_of_mem_replicate hx))]
      congr 1
      rw [Real.sqrt_eq_zero (sumSq_nonneg _)]
      unfold Spec.sumSq
      rw [List.map_replicate]
      simp
    unfold chiOf at h1
    rw [h4, fin_mul, mul_zero] at h1
    have := chiOf_nonneg _ _ _ h2
    have := XR.fin.inj h1
    linarith

/-! ## Counts that are not positive -/

theorem c06Made : MadeWith c06Input [1] := by
  intro z hz _
  have : z = 0 := by have hz : z < 1 := hz; omega
  subst this
  rfl

/-- One pixel with one count, made with a model of one count: a model of 0 counts has a lower Poisson-MLR statistic, because the logarithm of a model value that is not positive is replaced
by 10⁻²⁵ (see C06). -/
theorem C127_false : MadeWith c06Input [1] ∧ ∃ s t t' v v', runSetup c06Input = .ok (s, 0) ∧ getFitStatistic (withModel s ([(1 : ℝ)].map fin)) = .ok (t, fin v) ∧
    getFitStatistic (withModel s [fin 0]) = .ok (t', fin v') ∧ v' < v := by
  obtain ⟨s, v', y, h1, ⟨t', h2⟩, -, h3, -⟩ := C06_false
  have hg : c06Chars.effGain = 1 := by simp [Chars.effGain, c06Chars, c06Input, c05Input]
  have hone : ∀ z, z < c06Input.n → z = 0 := by intro z hz; have hz : z < 1 := hz; omega
  have hc : c06Chars.counts 1 = 1 := by unfold Chars.counts; rw [hg]; simp [c06Chars]
  obtain ⟨-, H⟩ := C06_poissonMLR_partial c06Input c06Chars c06Shapes s h1 rfl [1] rfl (fun z hz hu => by rw [hone z hz] at hu; exact absurd c06Used hu) (fun _ => 1)
    (fun z hz hu => c06Made z hz hu |>.trans (by rw [hone z hz]; rfl)) (fun _ _ _ => by rw [hc]; norm_num) (fun z hz _ => by
      rw [hone z hz, show modelAt c06Input [1] 0 = 1 from rfl, hc]; norm_num)
  obtain ⟨y', -, -, ⟨t, h4⟩, -⟩ := H s _ .plain
  refine ⟨c06Made, s, t, t', _, v', h1, h4, h2, lt_of_lt_of_le h3 ?_⟩
  unfold sumSq
  exact List.sum_nonneg fun x hx => by
    obtain ⟨z, -, rfl⟩ := List.mem_map.1 hx
    positivity

/-! ## Example -/

/-- For this pixel a model of 3 counts is worse than the model of 1 count that it was made with. -/
example : ∃ s t t' v v', runSetup c06Input = .ok (s, 0) ∧ getFitStatistic (withModel s ([(1 : ℝ)].map fin)) = .ok (t, fin v) ∧
    getFitStatistic (withModel s ([(3 : ℝ)].map fin)) = .ok (t', fin v') ∧ v < v' := by
  obtain ⟨s, hs⟩ := c06Run
  have hg : c06Chars.effGain = 1 := by simp [Chars.effGain, c06Chars, c06Input, c05Input]
  have hone : ∀ z, z < c06Input.n → z = 0 := by intro z hz; have hz : z < 1 := hz; omega
  have hc : ∀ x, c06Chars.counts x = x := by intro x; unfold Chars.counts; rw [hg]; simp [c06Chars]
  obtain ⟨t, t', v, v', h1, h2, h3, h4⟩ := C127_counts c06Chars c06Shapes s 0 hs (.inr rfl) [1] [3] rfl rfl c06Made (fun _ z hz hu => by rw [hone z hz] at hu; exact absurd c06Used hu)
    (fun z hz _ => by
      rw [hone z hz, show modelAt c06Input [1] 0 = 1 from rfl, show modelAt c06Input [3] 0 = 3 from rfl, hc, hc]; norm_num)
  refine ⟨s, t, t', v, v', hs, h1, h2, lt_of_le_of_ne h3 fun e => ?_⟩
  have : modelAt c06Input [3] 0 = modelAt c06Input [1] 0 := h4.1 e.symm 0 (show 0 < 1 by norm_num) c06Used
  have : (3 : ℝ) = 1 := this
  norm_num at this

end Imfit
