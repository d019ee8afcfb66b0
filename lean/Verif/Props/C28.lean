import Verif.Lemmas.LevMarXR

/-!
# C28: Levenberg-Marquardt never returns a worse fit and reports its value

Exact arithmetic (with infinities and NaN), every objective and every result of the linear algebra, whatever the reason for stopping.

* `C28_partial`: the vector returned is the start vector, or its statistic is smaller. In terms of sums of squares: `C28_squares_partial`.
* `C28_reported_partial`: the reported value is the statistic of the vector returned, or of the last trial vector. It is the latter if that trial was rejected
  because it was worse (`C28_false`): `bestnorm` is the larger of the two norms. If the fit ends because the Jacobian is not finite, zero is reported
  (`C28_nan_false`).
-/

namespace Imfit

open XR

/-- The fit statistic of a vector of parameters. -/
noncomputable def chiOf (dev : List XR → List XR) (v : List XR) : XR := mpEnorm (dev v) * mpEnorm (dev v)

/-- The last vector evaluated that is not for a derivative. -/
def lastTrial (t : List (Bool × List XR)) : Option (List XR) := ((t.filter fun p => !p.1).map (·.2)).getLast?

theorem lastTrial_append (t : List (Bool × List XR)) (v : List XR) : lastTrial (t ++ [(false, v)]) = some v := by
  simp [lastTrial]

theorem lastTrial_deriv (t : List (Bool × List XR)) (vs : List (List XR)) : lastTrial (t ++ vs.map fun v => (true, v)) = lastTrial t := by
  simp [lastTrial, List.filter_append, List.filter_map, Function.comp_def]

/-- A vector is determined by the free parameters. -/
theorem agrees_unique {fr : List Nat} {start v w x : List XR} (hv : Agrees fr start (fun j a => x[j]? = some a) v)
    (hw : Agrees fr start (fun j a => x[j]? = some a) w) : v = w := by
  apply List.ext_getElem?
  intro k
  by_cases hk : k ∈ fr
  · obtain ⟨j, hj, rfl⟩ := List.getElem_of_mem hk
    obtain ⟨a, h1, h2⟩ := hv.on j _ (List.getElem?_eq_getElem hj)
    obtain ⟨b, h3, h4⟩ := hw.on j _ (List.getElem?_eq_getElem hj)
    rw [h2] at h4
    rw [h1, h3, Option.some.inj h4]
  · rw [hv.off k hk, hw.off k hk]

/-- Kept by the loops: `fnorm` is the norm at the current point, which is the start or better; `fnorm1` is the norm at the last trial. -/
structure BestInv (dev : List XR → List XR) (fr : List Nat) (start : List XR) (s : LMSt XR) : Prop where
  base : LMInv fr start (fun _ _ => True) (fun _ _ => True) s
  cur : ∃ v, Agrees fr start (fun j a => s.x[j]? = some a) v ∧ s.fnorm = mpEnorm (dev v) ∧
    (v = start ∨ ∃ a b, mpEnorm (dev start) = fin a ∧ s.fnorm = fin b ∧ 0 ≤ b ∧ b < a)
  last : ∃ w, lastTrial s.trace = some w ∧ (s.fnorm1 = mpEnorm (dev w) ∨ (s.fnorm1 = fin (-1) ∧ s.fnorm = mpEnorm (dev start)))

theorem outerTurn_best {dev : List XR → List XR} {c : MPConf XR} {fr : List Nat} {lims : List (FreeLim XR)} {la : OuterLA XR} {start : List XR}
    (hnd : fr.Nodup) {s : LMSt XR} (hs : BestInv dev fr start s) {r : LMSt XR × Option Int} (h : outerTurn c fr lims la s = .ok r) :
    BestInv dev fr start r.1 := by
  obtain ⟨hb, hx, hf, hf1⟩ := outerTurn_inv (lims := lims) hnd hs.base (fun _ _ _ => trivial) (fun _ _ _ => trivial) h
  refine ⟨hb, ?_, ?_⟩
  · rw [hx, hf]; exact hs.cur
  · rw [hf, hf1]
    unfold outerTurn at h
    obtain ⟨xnew, _, h⟩ := bind_ok h
    obtain ⟨pts, _, h⟩ := bind_ok h
    cases h
    simp only [lastTrial_deriv]
    exact hs.last

theorem innerTurn_best {dev : List XR → List XR} {c : MPConf XR} {fr : List Nat} {lims : List (FreeLim XR)} {la : InnerLA XR} {start : List XR}
    (hnd : fr.Nodup) {s : LMSt XR} (hs : BestInv dev fr start s) {r : LMSt XR × LMNext} (h : innerTurn dev c fr lims la s = .ok r) :
    BestInv dev fr start r.1 := by
  have hb := innerTurn_inv hnd hs.base (fun _ _ _ _ => trivial) h
  refine ⟨hb, ?_, ?_⟩
  · unfold innerTurn at h
    obtain ⟨p, hp, h⟩ := bind_ok h
    obtain ⟨xnew, hx, h⟩ := bind_ok h
    cases h
    simp only
    by_cases hg : fle (lit (1 / 10000)) (gainRatio (actRed s.fnorm (mpEnorm (dev xnew))) (preRed la p.2 s.fnorm).1) = true
    · simp only [hg, if_true]
      obtain ⟨v, hv, hfv, hcur⟩ := hs.cur
      refine ⟨xnew, scatter_agrees hnd hs.base.len hs.base.off (fun j hj => List.getElem?_eq_getElem hj) hx, rfl, Or.inr ?_⟩
      obtain ⟨a, b, ha, hb', h0, hlt⟩ := accept_lt (by rw [hfv]; exact mpEnorm_nonNeg _) (mpEnorm_nonNeg _) hg
      rcases hcur with rfl | ⟨a', b', h1, h2, h3, h4⟩
      · exact ⟨a, b, by rw [← hfv, ha], hb', h0, hlt⟩
      · rw [ha] at h2
        have := XR.fin.inj h2
        exact ⟨a', b, h1, hb', h0, by linarith⟩
    · simp only [hg]
      exact hs.cur
  · unfold innerTurn at h
    obtain ⟨p, hp, h⟩ := bind_ok h
    obtain ⟨xnew, hx, h⟩ := bind_ok h
    cases h
    exact ⟨xnew, lastTrial_append _ _, Or.inl rfl⟩

/-- How a run of `mpfit` ends: without changing the parameters, with an error; or with the state of the loops. -/
theorem mpfit_ends {dev : List XR → List XR} {m : Nat} {c : MPConf XR} {pars : Option (List (MPPar XR))} {outer : Nat → OuterLA XR}
    {inner : Nat → InnerLA XR} {fuel : Nat} {start : List XR} {r : LMOut XR} (h : mpfit dev m c pars outer inner fuel start = .ok r) :
    (r.xall = start ∧ r.status < 0) ∨ ∃ s fr, BestInv dev fr start s ∧ Agrees fr start (fun j a => s.x[j]? = some a) r.xall ∧
      r.bestnorm = dmax s.fnorm s.fnorm1 * dmax s.fnorm s.fnorm1 ∧ r.trace = s.trace ∧ r.orignorm = chiOf dev start := by
  unfold mpfit at h
  simp only at h
  split at h
  · cases h; exact Or.inl ⟨rfl, Int.negSucc_lt_zero _⟩
  split at h
  · rename_i e he
    cases h
    refine Or.inl ⟨rfl, ?_⟩
    have hneg : ∀ (ps : List (MPPar XR)) (xs : List XR) (e : Int), checkPars ps xs = some e → e < 0 := by
      intro ps
      induction ps with
      | nil => intro xs e h; simp [checkPars] at h
      | cons q ps ih =>
        intro xs e h
        cases xs with
        | nil => simp [checkPars] at h
        | cons y ys =>
          simp only [checkPars] at h
          split at h
          · rename_i e' he'
            cases h
            unfold checkPar at he'
            split at he'
            · cases he'; decide
            · split at he'
              · cases he'; decide
              · cases he'
          · exact ih ys e h
    unfold checkStart at he
    split at he
    · cases he
    · exact hneg _ _ _ he
  obtain ⟨lims, hl, h⟩ := bind_ok h
  split at h
  · cases h; exact Or.inl ⟨rfl, Int.negSucc_lt_zero _⟩
  split at h
  · cases h; exact Or.inl ⟨rfl, Int.negSucc_lt_zero _⟩
  have hnd := freeIdx_nodup pars start.length
  unfold lmIterate at h
  obtain ⟨x, hx, h⟩ := bind_ok h
  obtain ⟨hx1, hx2⟩ := loopMap_elems hx
  obtain ⟨q, hq, h⟩ := bind_ok h
  have hA : Agrees (freeIdx pars start.length) start (fun j a => x[j]? = some a) start := by
    refine ⟨rfl, fun _ _ => rfl, ?_⟩
    intro j k e
    have hj : j < x.length := by rw [hx1]; exact (List.getElem?_eq_some_iff.1 e).1
    obtain ⟨k', hk, h2⟩ := bind_ok (hx2 j hj)
    obtain ⟨a, b⟩ := rd_eq_ok_iff.1 hk
    obtain ⟨c, d⟩ := rd_eq_ok_iff.1 h2
    have : k' = k := by rw [List.getElem?_eq_getElem a, b] at e; exact Option.some.inj e
    subst this
    exact ⟨_, List.getElem?_eq_getElem c, by rw [d]; exact List.getElem?_eq_getElem hj⟩
  have hinv : BestInv dev (freeIdx pars start.length) start q.1 := by
    refine lmLoop_inv (BestInv dev (freeIdx pars start.length) start) (fun k s r hs hr => outerTurn_best hnd hs hr)
      (fun k s r hs hr => innerTurn_best hnd hs hr) ?_ hq
    refine ⟨⟨fun _ _ => trivial, hx1, rfl, fun _ _ => rfl, ?_, ?_⟩, ⟨start, hA, rfl, Or.inl rfl⟩, ⟨start, rfl, Or.inr ⟨rfl, rfl⟩⟩⟩
    · intro v hv _; rw [List.mem_singleton.1 hv]; exact hA.mono fun _ _ _ => trivial
    · intro v hv hf; rw [List.mem_singleton.1 hv] at hf; cases hf
  unfold lmLeave at h
  split at h
  · rename_i he
    cases h
    exact Or.inl ⟨rfl, by simp only [lmFail, he]; decide⟩
  · unfold lmFinish at h
    obtain ⟨y, hy, h⟩ := bind_ok h
    cases h
    exact Or.inr ⟨q.1, _, hinv, scatter_agrees hnd rfl (fun _ _ => rfl) (fun j hj => List.getElem?_eq_getElem hj) hy, rfl, rfl, rfl⟩

/-- **C28, first part.** The vector returned is the start vector, or its statistic is smaller. -/
theorem C28_partial (dev : List XR → List XR) (m : Nat) (ftol : XR) (limitsExist : Bool) (pars : List (MPPar XR)) (outer : Nat → OuterLA XR)
    (inner : Nat → InnerLA XR) (fuel : Nat) (start : List XR) (r : LMOut XR)
    (h : levMarFit dev m ftol limitsExist pars outer inner fuel start = .ok r) :
    r.xall = start ∨ ∃ a b, chiOf dev start = fin a ∧ chiOf dev r.xall = fin b ∧ b < a := by
  unfold levMarFit at h
  rcases mpfit_ends h with ⟨e, _⟩ | ⟨s, fr, hs, hA, _, _, _⟩
  · exact Or.inl e
  · obtain ⟨v, hv, hfv, hcur⟩ := hs.cur
    have hvx : v = r.xall := agrees_unique hv hA
    subst hvx
    rcases hcur with e | ⟨a, b, h1, h2, h3, h4⟩
    · exact Or.inl e
    · refine Or.inr ⟨a * a, b * b, ?_, ?_, by nlinarith⟩
      · unfold chiOf; rw [h1, fin_mul]
      · unfold chiOf; rw [← hfv, h2, fin_mul]

/-- The same in terms of the sums of the squares of the deviates: if they are finite and neither too small nor too large for `mp_enorm` (see C39). -/
theorem C28_squares_partial (dev : List ℝ → List ℝ) (hd : ∀ v, ∀ x ∈ dev v, x = 0 ∨ smallSize < |x|) (devX : List XR → List XR)
    (hX : ∀ v : List ℝ, devX (v.map fin) = (dev v).map fin) (m : Nat) (ftol : XR) (limitsExist : Bool) (pars : List (MPPar XR)) (outer : Nat → OuterLA XR)
    (inner : Nat → InnerLA XR) (fuel : Nat) (start final : List ℝ) (r : LMOut XR) (hr : r.xall = final.map fin)
    (h : levMarFit devX m ftol limitsExist pars outer inner fuel (start.map fin) = .ok r) : Spec.sumSq (dev final) ≤ Spec.sumSq (dev start) := by
  have key : ∀ v : List ℝ, chiOf devX (v.map fin) = fin (Spec.sumSq (dev v)) := by
    intro v
    unfold chiOf
    rw [hX, C39_exact_partial (dev v) (Or.inl (hd v)), fin_mul, Real.mul_self_sqrt (sumSq_nonneg _)]
  rcases C28_partial devX m ftol limitsExist pars outer inner fuel _ r h with e | ⟨a, b, h1, h2, h3⟩
  · rw [hr] at e
    have : final = start := by
      have hinj : Function.Injective (List.map fin) := List.map_injective_iff.2 fun _ _ h => XR.fin.inj h
      exact hinj e
    rw [this]
  · rw [key] at h1
    rw [hr, key] at h2
    rw [XR.fin.inj h1, XR.fin.inj h2]
    exact h3.le

/-- **C28, second part.** After a fit that did not fail, the reported value is the statistic of the vector returned or of the last trial vector; the reported
start value is the statistic of the start vector. -/
theorem C28_reported_partial (dev : List XR → List XR) (m : Nat) (ftol : XR) (limitsExist : Bool) (pars : List (MPPar XR)) (outer : Nat → OuterLA XR)
    (inner : Nat → InnerLA XR) (fuel : Nat) (start : List XR) (r : LMOut XR) (hnum : mpEnorm (dev start) ≠ nan)
    (h : levMarFit dev m ftol limitsExist pars outer inner fuel start = .ok r) (hst : 0 < r.status) :
    r.orignorm = chiOf dev start ∧ ∃ w, lastTrial r.trace = some w ∧ (r.bestnorm = chiOf dev r.xall ∨ r.bestnorm = chiOf dev w) := by
  unfold levMarFit at h
  rcases mpfit_ends h with ⟨_, e⟩ | ⟨s, fr, hs, hA, hbest, htr, horig⟩
  · omega
  refine ⟨horig, ?_⟩
  obtain ⟨v, hv, hfv, _⟩ := hs.cur
  have hvx : v = r.xall := agrees_unique hv hA
  subst hvx
  obtain ⟨w, hw, hlast⟩ := hs.last
  refine ⟨w, by rw [htr, hw], ?_⟩
  rw [hbest]
  unfold chiOf
  rw [← hfv]
  rcases hlast with h1 | ⟨h1, h2⟩
  · rw [← h1]
    unfold dmax
    split
    · exact Or.inl rfl
    · exact Or.inr rfl
  · left
    have : dmax s.fnorm s.fnorm1 = s.fnorm := by
      rw [h1]
      rcases mpEnorm_nonNeg (dev start) with e | e | ⟨x, hx, e⟩
      · exact absurd e hnum
      · rw [h2, e]; rfl
      · rw [h2, e]
        unfold dmax
        rw [fle_fin, if_pos]
        simp only [decide_eq_true_eq]
        linarith
    rw [this]

/-- If the last trial vector is the one returned, its statistic is reported. -/
theorem C28_reported_last_partial (dev : List XR → List XR) (m : Nat) (ftol : XR) (limitsExist : Bool) (pars : List (MPPar XR)) (outer : Nat → OuterLA XR)
    (inner : Nat → InnerLA XR) (fuel : Nat) (start : List XR) (r : LMOut XR) (hnum : mpEnorm (dev start) ≠ nan)
    (h : levMarFit dev m ftol limitsExist pars outer inner fuel start = .ok r) (hst : 0 < r.status) (hlast : lastTrial r.trace = some r.xall) :
    r.bestnorm = chiOf dev r.xall := by
  obtain ⟨_, w, hw, hb⟩ := C28_reported_partial dev m ftol limitsExist pars outer inner fuel start r hnum h hst
  rw [hlast] at hw
  cases hw
  rcases hb with hb | hb <;> exact hb

/-! ### A run that reports the value of a rejected trial -/

theorem enorm_one (x : ℝ) (hx : 1 ≤ x) : mpEnorm [fin x] = fin x := by
  have := C39_exact_partial [x] (Or.inl (by
    intro y hy
    right
    rw [List.mem_singleton.1 hy, abs_of_pos (by linarith)]
    unfold smallSize
    norm_num
    linarith))
  rw [List.map_cons, List.map_nil] at this
  rw [this]
  congr 1
  simp only [Spec.sumSq, List.map_cons, List.map_nil, List.sum_cons, List.sum_nil, add_zero]
  exact Real.sqrt_sq (by linarith)

/-- One deviate: equal to the parameter near the start value 1, and 2 at zero. -/
noncomputable def bumpDev : List XR → List XR
  | [fin r] => if r < 1 / 2 then [fin 2] else [fin r]
  | _ => [fin 1]

/-- The linear algebra for `bumpDev` at 1: derivative 1, so the step is to 0. -/
noncomputable def bumpOuter : Nat → OuterLA XR := fun _ => ⟨true, fin 1, fin 1⟩
noncomputable def bumpInner : Nat → InnerLA XR := fun _ => ⟨[fin 1], fin 0, fin 1, fin 1, fin 1, true⟩

/-- The first trial is worse than the start; the user stops the fit. -/
theorem bump_run : ∃ nfev tr orig, levMarFit bumpDev 1 (fin (1 / 100)) false [] bumpOuter bumpInner 2 [fin 1] = .ok ⟨[fin 1], MP_SIGINT, fin 4, orig, nfev, tr⟩ := by
  have d1 : bumpDev [fin 1] = [fin 1] := by norm_num [bumpDev]
  have d0 : bumpDev [fin 0] = [fin 2] := by norm_num [bumpDev]
  have n1 := enorm_one 1 (by norm_num)
  have n2 := enorm_one 2 (by norm_num)
  have hm : ((MACHEP0 : ℚ) : ℝ) < 1 / 100 := by unfold MACHEP0; norm_num
  have hm0 := machep_pos
  have e4 : badConf (levMarConf (fin (1 / 100))) = false := by
    simp only [badConf, levMarConf, zero_def, lit_def, flt_fin]
    norm_num
  have e8 : outerExit (levMarConf (fin (1 / 100))) (bumpOuter 0) = none := by
    simp only [outerExit, levMarConf, bumpOuter, lit_def, fle_fin, Bool.not_true, Bool.false_eq_true, if_false]
    rw [if_neg]
    norm_num
  have hnew : newPoint [] [fin 1] (bumpInner 0).dir = .ok ([fin 0], fin 1) := by
    show (do let wa2 ← loopMap 1 _; pure (wa2, 1) : Res _) = _
    simp only [loopMap, rd, bumpInner, List.getElem?_cons_zero, ok_bind, pure_eq_ok, List.nil_append, fin_neg, fin_add, one_def]
    norm_num
  have hact : actRed (fin 1) (fin 2) = fin (-3) := by
    have a : flt (lit (1 / 10) * fin 2) (fin 1) = true := by
      simp only [lit_def, fin_mul, flt_fin]; norm_num
    unfold actRed
    rw [a, if_pos rfl, fin_div_of_ne (by norm_num), fin_mul, one_def, fin_sub]
    norm_num
  have hpre : preRed (bumpInner 0) (fin 1) (fin 1) = (fin 1, fin (-1)) := by
    simp only [preRed, bumpInner, fin_mul, lit_def, mul_zero]
    rw [fsqrt_fin_of_nonneg (le_refl _), Real.sqrt_zero, fin_mul, fin_div_of_ne (by norm_num), fin_div_of_ne (by norm_num)]
    simp only [fin_mul, fin_add]
    rw [fin_div_of_ne (by norm_num)]
    norm_num
  have hrat : gainRatio (fin (-3)) (fin 1) = fin (-3) := by
    have a : feq (fin 1) (0 : XR) = false := by
      simp only [feq, zero_def, fle_fin]; norm_num
    unfold gainRatio
    rw [a, if_neg (by decide), fin_div_of_ne (by norm_num)]
    norm_num
  have hgood : fle (lit (1 / 10000)) (fin (-3)) = false := by
    simp only [lit_def, fle_fin]
    norm_num
  have hupd : updateDelta (fin (-3)) (fin (-1)) (fin (-3)) (fin 1) (fin 2) (fin 1) (fin 1) (fin 0) = (fin (1 / 5), fin 0) := by
    have b1 : fle (fin (-3)) (lit (1 / 4) : XR) = true := by simp only [lit_def, fle_fin]; norm_num
    have b2 : fle (0 : XR) (fin (-3)) = false := by simp only [zero_def, fle_fin]; norm_num
    have b3 : (lit (1 / 2) * fin (-1) / (fin (-1) + lit (1 / 2) * fin (-3)) : XR) = fin (1 / 5) := by
      simp only [lit_def, fin_mul, fin_add]
      rw [fin_div_of_ne (by norm_num)]
      norm_num
    have b4 : fle (fin 1) (lit (1 / 10) * fin 2 : XR) = false := by simp only [lit_def, fin_mul, fle_fin]; norm_num
    have b5 : flt (fin (1 / 5)) (lit (1 / 10) : XR) = false := by simp only [lit_def, flt_fin]; norm_num
    have b6 : dmin (fin 1) (fin 1 / lit (1 / 10) : XR) = fin 1 := by
      have b7 : fle (fin 1) (fin 1 / lit (1 / 10) : XR) = true := by
        rw [lit_def, fin_div_of_ne (by norm_num), fle_fin]; norm_num
      unfold dmin
      rw [b7, if_pos rfl]
    unfold updateDelta
    simp only [b1, b2, b3, b4, b5, b6, if_true, Bool.false_eq_true, if_false, Bool.or_self, fin_mul, mul_one]
    rw [fin_div_of_ne (by norm_num), zero_div]
  have hinfo : infoAfter (levMarConf (fin (1 / 100))) (fin (-3)) (fin 1) (fin (-3)) (fin (1 / 5)) (fin 1) (fin 1) 1 true = MP_SIGINT := by
    have h3 : |(-3 : ℝ)| = 3 := by norm_num
    have a1 : chiSmall (levMarConf (fin (1 / 100))).ftol (fin (-3)) (fin 1) (fin (-3)) = false := by
      simp only [chiSmall, levMarConf, zero_def, flt_fin, fabs_fin, h3]
      norm_num
    have a2 : chiSmall (lit MACHEP0) (fin (-3)) (fin 1) (fin (-3)) = false := by
      have : ¬ (3 : ℝ) ≤ ((MACHEP0 : ℚ) : ℝ) := by linarith
      simp only [chiSmall, lit_def, fabs_fin, h3, fle_fin, this, decide_false, Bool.false_and]
    have a3 : fle (fin (1 / 5)) ((levMarConf (fin (1 / 100))).xtol * fin 1) = false := by
      simp only [levMarConf, lit_def, fin_mul, fle_fin]
      norm_num
    have a4 : fle (fin (1 / 5)) (lit MACHEP0 * fin 1) = false := by
      have : ¬ (1 / 5 : ℝ) ≤ ((MACHEP0 : ℚ) : ℝ) * 1 := by linarith
      simp only [lit_def, fin_mul, fle_fin, this, decide_false]
    have a5 : fle (fin 1) (lit MACHEP0 : XR) = false := by
      have : ¬ (1 : ℝ) ≤ ((MACHEP0 : ℚ) : ℝ) := by linarith
      simp only [lit_def, fle_fin, this, decide_false]
    have a6 : ¬ (levMarConf (fin (1 / 100))).maxiter ≤ 1 := by simp [levMarConf]
    unfold infoAfter
    simp only [a1, a2, a3, a4, a5, a6, if_false, Bool.false_eq_true, Bool.false_and, bne_self_eq_false, if_true]
  have hd0 : dmin (fin (100 * 1)) (fin 1) = fin 1 := by
    have a : fle (fin (100 * 1)) (fin 1) = false := by simp only [fle_fin]; norm_num
    unfold dmin; rw [a, if_neg (by decide)]
  have hstep : feq (fin (100 * 1)) (0 : XR) = false := by
    simp only [feq, zero_def, fle_fin]; norm_num
  have hsf : (levMarConf (fin (1 / 100))).stepfactor = fin 100 := by
    simp only [levMarConf, lit_def]; norm_num
  have hmax : dmax (fin 1) (fin 2) = fin 2 := by
    have a : fle (fin 2) (fin 1) = false := by simp only [fle_fin]; norm_num
    unfold dmax; rw [a, if_neg (by decide)]
  have hbp : (bumpInner 0).pnorm = fin 1 := rfl
  have hbq : (bumpInner 0).par = fin 0 := rfl
  have hbs : (bumpInner 0).stop = true := rfl
  have hbx : (bumpOuter 0).xnorm = fin 1 := rfl
  have hbg : (bumpOuter 0).gnorm = fin 1 := rfl
  have hfr : freeIdx (none : Option (List (MPPar XR))) 1 = [0] := rfl
  have hfd : fdPoints [0] ([] : List (FreeLim XR)) [fin 1] = .ok [[fin 1 + fdStep none (fin 1)]] := rfl
  have hsc1 : scatter [0] [fin 1] [fin 1] = .ok [fin 1] := rfl
  have hsc2 : scatter [0] [fin 0] [fin 1] = .ok [fin 0] := rfl
  have hx0 : (loopMap 1 fun i => do
      let k ← rd [0] i
      rd [fin 1] k : Res (List XR)) = .ok [fin 1] := rfl
  refine ⟨3, [(false, [fin 1]), (true, [fin 1 + fdStep none (fin 1)]), (false, [fin 0])], fin (1 * 1), ?_⟩
  unfold levMarFit mpfit
  simp only [Bool.false_eq_true, if_false, List.length_cons, List.length_nil, Nat.zero_add, hfr, checkStart, freeLims, ok_bind, List.cons_ne_nil, e4, lt_irrefl]
  unfold lmIterate
  simp only [List.length_cons, List.length_nil, Nat.zero_add, hx0, ok_bind, d1, n1, lmLoop, outerTurn, hsc1, hfd, pure_eq_ok, e8, innerTurn, hnew, hsc2, d0, n2,
    hact, hpre, hrat, hgood, if_true, Bool.false_eq_true, if_false, hsf, hbx, hbg, hbp, hbq, hbs, fin_mul, hstep, hd0, hupd, hinfo, lmNext]
  norm_num [MP_SIGINT, MP_ERR_NAN, lmLeave, lmFinish]
  rw [hsc1, hmax, ok_bind, fin_mul]
  norm_num

/-- The reported value may be the statistic of a rejected trial: 4 is reported, the statistic of the vector returned is 1. -/
theorem C28_false : ¬ ∀ (dev : List XR → List XR) (m : Nat) (ftol : XR) (limitsExist : Bool) (pars : List (MPPar XR)) (outer : Nat → OuterLA XR)
    (inner : Nat → InnerLA XR) (fuel : Nat) (start : List XR) (r : LMOut XR),
    levMarFit dev m ftol limitsExist pars outer inner fuel start = .ok r → 0 < r.status → r.bestnorm = chiOf dev r.xall := by
  intro H
  obtain ⟨nfev, tr, orig, h⟩ := bump_run
  have := H _ _ _ _ _ _ _ _ _ _ h (by show (0 : Int) < MP_SIGINT; decide)
  have d1 : bumpDev [fin 1] = [fin 1] := by norm_num [bumpDev]
  rw [chiOf, d1, enorm_one 1 (by norm_num), fin_mul] at this
  have := XR.fin.inj this
  norm_num at this

/-- If the Jacobian is not finite, zero is reported, whatever the statistic of the vector returned. -/
theorem C28_nan_false : ∃ r, levMarFit bumpDev 1 (fin (1 / 100)) false [] (fun _ => ⟨false, nan, nan⟩) bumpInner 1 [fin 1] = .ok r ∧ r.status = MP_ERR_NAN ∧
    r.xall = [fin 1] ∧ r.bestnorm = fin 0 ∧ chiOf bumpDev r.xall = fin 1 := by
  have d1 : bumpDev [fin 1] = [fin 1] := by norm_num [bumpDev]
  have e4 : badConf (levMarConf (fin (1 / 100))) = false := by
    simp only [badConf, levMarConf, zero_def, lit_def, flt_fin]
    norm_num
  have hfr : freeIdx (none : Option (List (MPPar XR))) 1 = [0] := rfl
  have hfd : fdPoints [0] ([] : List (FreeLim XR)) [fin 1] = .ok [[fin 1 + fdStep none (fin 1)]] := rfl
  have hsc1 : scatter [0] [fin 1] [fin 1] = .ok [fin 1] := rfl
  have hx0 : (loopMap 1 fun i => do
      let k ← rd [0] i
      rd [fin 1] k : Res (List XR)) = .ok [fin 1] := rfl
  refine ⟨lmFail [fin 1] MP_ERR_NAN 0 [(false, [fin 1]), (true, [fin 1 + fdStep none (fin 1)])], ?_, rfl, rfl, rfl, ?_⟩
  · unfold levMarFit mpfit
    simp only [Bool.false_eq_true, if_false, List.length_cons, List.length_nil, Nat.zero_add, hfr, checkStart, freeLims, ok_bind, List.cons_ne_nil, e4, lt_irrefl]
    unfold lmIterate
    simp only [List.length_cons, List.length_nil, Nat.zero_add, hx0, ok_bind, lmLoop, outerTurn, hsc1, hfd, pure_eq_ok, outerExit, Bool.not_false, if_true,
      lmLeave, lmFail]
    rfl
  · rw [chiOf]
    simp only [lmFail]
    rw [d1, enorm_one 1 (by norm_num), fin_mul]
    norm_num

/-- Non-vacuous: the hypotheses of the positive theorems hold for the run above. -/
example : ∃ r, levMarFit bumpDev 1 (fin (1 / 100)) false [] bumpOuter bumpInner 2 [fin 1] = .ok r ∧ 0 < r.status ∧ mpEnorm (bumpDev [fin 1]) ≠ nan := by
  obtain ⟨nfev, tr, orig, h⟩ := bump_run
  refine ⟨_, h, by show (0 : Int) < MP_SIGINT; decide, ?_⟩
  have d1 : bumpDev [fin 1] = [fin 1] := by norm_num [bumpDev]
  rw [d1, enorm_one 1 (by norm_num)]
  intro h; cases h

end Imfit
