import Verif.Lemmas.MpfitReal

/-!
# The invariants of the loops of `mpfit` in exact arithmetic
-/

namespace Imfit
open XR Finset Spec Matrix

/-! ### Judging a step -/

theorem mpEnorm_reals {m : ℕ} (v : Fin m → ℝ) : ∃ r : ℝ, mpEnorm (reals v) = fin r ∧ 0 ≤ r ∧ (r = 0 ↔ v = 0) := by
  obtain ⟨r, h1, h2, -, -, h5⟩ := C39_bounds_partial (List.ofFn v)
  refine ⟨r, ?_, h2, ?_⟩
  · rw [← h1, List.map_ofFn]
    rfl
  · rw [h5, List.forall_mem_ofFn_iff]
    exact ⟨fun h => funext h, fun h j => congrFun h j⟩

theorem actRed_real {f f1 : ℝ} (hf1 : 0 ≤ f1) : ∃ A, actRed (fin f) (fin f1) = fin A := by
  unfold actRed
  rw [lit_def, fin_mul, flt_fin]
  split_ifs with h
  · simp only [decide_eq_true_eq] at h
    have : (((1 / 10 : ℚ) : ℝ)) = 1 / 10 := by norm_num
    rw [this] at h
    rw [fin_div_of_ne (by linarith), fin_mul, one_def, fin_sub]
    exact ⟨_, rfl⟩
  · exact ⟨-1, rfl⟩

theorem preRed_real {la : InnerLA XR} {f alpha jn pn q : ℝ} (hf : 0 < f) (ha : 0 ≤ alpha) (hq : 0 ≤ q) (h1 : la.jnorm = fin jn) (h2 : la.pnorm = fin pn)
    (h3 : la.par = fin q) :
    ∃ P E, preRed la (fin alpha) (fin f) = (fin P, fin E) ∧ 0 ≤ P ∧ E ≤ 0 ∧ P = (jn * alpha / f) ^ 2 + 2 * (Real.sqrt (alpha * q) * pn / f) ^ 2 := by
  unfold preRed
  rw [h1, h2, h3, lit_def, fin_mul, fin_mul, fsqrt_fin_of_nonneg (mul_nonneg ha hq), fin_mul, fin_div_of_ne hf.ne', fin_div_of_ne hf.ne']
  simp only [fin_mul, fin_add, fin_neg]
  rw [fin_div_of_ne (by norm_num), fin_add]
  have e : (((1 / 2 : ℚ) : ℝ)) = 1 / 2 := by norm_num
  refine ⟨_, _, rfl, ?_, ?_, ?_⟩
  · rw [e]; exact add_nonneg (mul_self_nonneg _) (div_nonneg (mul_self_nonneg _) (by norm_num))
  · rw [neg_nonpos]; exact add_nonneg (mul_self_nonneg _) (mul_self_nonneg _)
  · rw [e]; ring

theorem gainRatio_real (A P : ℝ) : gainRatio (fin A) (fin P) = fin (if P = 0 then 0 else A / P) := by
  unfold gainRatio
  rw [zero_def, feq_fin]
  by_cases h : P = 0
  · simp [h]
  · simp [h, fin_div_of_ne h]

theorem updateDelta_real {A E R f f1 pn d q : ℝ} (hE : E ≤ 0) (hp : 0 ≤ pn) (hd : 0 ≤ d) (hq : 0 ≤ q) :
    ∃ d' q', updateDelta (fin A) (fin E) (fin R) (fin f) (fin f1) (fin pn) (fin d) (fin q) = (fin d', fin q') ∧ 0 ≤ d' ∧ 0 ≤ q' ∧
      (R ≤ 1 / 4 → d' ≤ d / 2) ∧ (0 < pn → 0 < d → 0 < d') := by
  have e1 : (((1 / 4 : ℚ) : ℝ)) = 1 / 4 := by norm_num
  have e2 : (((1 / 2 : ℚ) : ℝ)) = 1 / 2 := by norm_num
  have e3 : (((1 / 10 : ℚ) : ℝ)) = 1 / 10 := by norm_num
  have e4 : (((3 / 4 : ℚ) : ℝ)) = 3 / 4 := by norm_num
  unfold updateDelta
  simp only [lit_def, zero_def, e1, e2, e3, e4, fle_fin]
  by_cases hR : R ≤ 1 / 4
  · simp only [hR, decide_true, if_true]
    have ht0 : ∃ t0, (if decide (0 ≤ A) = true then fin (1 / 2) else fin (1 / 2) * fin E / (fin E + fin (1 / 2) * fin A)) = fin t0 ∧ t0 ≤ 1 / 2 := by
      by_cases hA : 0 ≤ A
      · exact ⟨1 / 2, by simp [hA], le_rfl⟩
      · have hA : A < 0 := not_le.1 hA
        have hden : E + 1 / 2 * A < 0 := by linarith
        refine ⟨1 / 2 * E / (E + 1 / 2 * A), ?_, ?_⟩
        · simp only [not_le.2 hA, decide_false, Bool.false_eq_true, if_false, fin_mul, fin_add]
          rw [fin_div_of_ne hden.ne]
        · rw [div_le_iff_of_neg hden]
          linarith
    obtain ⟨t0, h1, h2⟩ := ht0
    rw [h1]
    have ht : ∃ t, (if (fle (fin f) (fin (1 / 10) * fin f1) || flt (fin t0) (fin (1 / 10))) = true then fin (1 / 10) else fin t0) = fin t ∧ 1 / 10 ≤ t ∧ t ≤ 1 / 2 := by
      rw [flt_fin]
      by_cases ht : t0 < 1 / 10
      · exact ⟨1 / 10, by rw [decide_eq_true ht, Bool.or_true, if_pos rfl], le_rfl, by norm_num⟩
      · simp only [ht, decide_false, Bool.or_false]
        by_cases hc : fle (fin f) (fin (1 / 10) * fin f1) = true
        · exact ⟨1 / 10, by rw [if_pos hc], le_rfl, by norm_num⟩
        · exact ⟨t0, by rw [if_neg hc], not_lt.1 ht, h2⟩
    obtain ⟨t, h3, h4, h5⟩ := ht
    simp only [fin_mul] at h3 ⊢
    rw [h3, fin_div_of_ne (by norm_num), fin_div_of_ne (by linarith), mp_dmin_fin, fin_mul]
    have hm : 0 ≤ min d (pn / (1 / 10)) := le_min hd (by positivity)
    refine ⟨_, _, rfl, mul_nonneg (by linarith) hm, div_nonneg hq (by linarith), fun _ => ?_, fun h1 h2 => mul_pos (by linarith) (lt_min h2 (by positivity))⟩
    have : min d (pn / (1 / 10)) ≤ d := min_le_left _ _
    nlinarith
  · simp only [hR, decide_false, Bool.false_eq_true, if_false, false_imp_iff, true_and]
    split_ifs
    · rw [fin_div_of_ne (by norm_num), fin_mul]
      exact ⟨_, _, rfl, by positivity, by positivity, fun h1 _ => by positivity⟩
    · exact ⟨_, _, rfl, hd, hq, fun _ h => h⟩

/-- The ways in which the loops end. -/
def endCodes : List Int := [1, 2, 3, 4, 5, 6, 7, 8, 100]

theorem infoAfter_codes (c : MPConf XR) (A P R d xn g : XR) (iter : ℕ) (stop : Bool) :
    infoAfter c A P R d xn g iter stop = 0 ∨ infoAfter c A P R d xn g iter stop ∈ endCodes := by
  unfold infoAfter endCodes MP_OK_CHI MP_OK_PAR MP_OK_BOTH MP_SIGINT MP_MAXITER MP_FTOL MP_XTOL MP_GTOL
  simp only
  generalize chiSmall c.ftol A P R = b1
  generalize chiSmall (lit MACHEP0) A P R = b2
  generalize fle d (c.xtol * xn) = b3
  generalize fle d (lit MACHEP0 * xn) = b4
  generalize fle g (lit MACHEP0) = b5
  generalize decide (c.maxiter ≤ iter) = b6
  by_cases b6 : c.maxiter ≤ iter <;> cases b1 <;> cases b2 <;> cases b3 <;> cases b4 <;> cases b5 <;> cases stop <;> simp [b6]

theorem infoAfter_zero {c : MPConf XR} {A P R d xn g : XR} {iter : ℕ} {stop : Bool} (h : infoAfter c A P R d xn g iter stop = 0) :
    fle d (c.xtol * xn) = false ∧ iter < c.maxiter := by
  unfold infoAfter MP_OK_CHI MP_OK_PAR MP_OK_BOTH MP_SIGINT MP_MAXITER MP_FTOL MP_XTOL MP_GTOL at h
  simp only at h
  revert h
  generalize chiSmall c.ftol A P R = b1
  generalize chiSmall (lit MACHEP0) A P R = b2
  generalize fle d (c.xtol * xn) = b3
  generalize fle d (lit MACHEP0 * xn) = b4
  generalize fle g (lit MACHEP0) = b5
  by_cases b6 : c.maxiter ≤ iter <;> cases b1 <;> cases b2 <;> cases b3 <;> cases b4 <;> cases b5 <;> cases stop <;> simp [b6] <;> omega

/-! ### The invariants -/

/-- The points that a fit may visit: fixed parameters as at the start, the others within their limits. -/
def Reach {p n : ℕ} (fr : Fin n → Fin p) (ls : Fin n → Limit) (x0 x : Fin p → ℝ) : Prop :=
  (∀ k, (¬ ∃ j, fr j = k) → x k = x0 k) ∧ ∀ j, (ls j).Within (x (fr j))

/-- A fit of deviates that are real functions of the parameters, of moderate size. -/
structure Setup {p m n : ℕ} (dev : List XR → List XR) (D : (Fin p → ℝ) → Fin m → ℝ) (fr : Fin n → Fin p) (lims : List (FreeLim XR)) (ls : Fin n → Limit)
    (x0 : Fin p → ℝ) (c : MPConf XR) : Prop where
  comp : Computes dev D
  inj : Function.Injective fr
  lims : LimitArrays lims ls
  hnm : n ≤ m
  size : n * m ≤ 2147483647
  cols : ∀ x, Reach fr ls x0 x → ∀ h : Fin n → ℝ, (∀ j, |h j| = stepSize (x (fr j))) →
    ColumnsBelow (fun i j => quotient D x (fr j) (h j) i) (largeSize / m)
  xtol : ∃ t, c.xtol = fin t ∧ 0 < t
  gtol : ∃ t, c.gtol = fin t ∧ 0 < t
  factor : ∃ t, c.stepfactor = fin t ∧ 0 < t

/-- At every point of the loops: `x` are the current parameters. -/
structure BaseOk {p m n : ℕ} (D : (Fin p → ℝ) → Fin m → ℝ) (fr : Fin n → Fin p) (ls : Fin n → Limit) (x0 x : Fin p → ℝ) (st : FullSt XR) : Prop where
  reach : Reach fr ls x0 x
  ex : st.s.x = reals fun j => x (fr j)
  fvec : st.fvec = reals (D x)
  xnew : ∃ z, st.s.xnew = reals z ∧ ∀ k, (¬ ∃ j, fr j = k) → z k = x0 k
  fnorm : st.s.fnorm = mpEnorm (reals (D x))
  par : ∃ q, st.s.par = fin q ∧ 0 ≤ q

/-- The scales and the bound. -/
structure ScaleOk {p n : ℕ} (fr : Fin n → Fin p) (x : Fin p → ℝ) (st : FullSt XR) (E : Fin n → ℝ) (d xn : ℝ) : Prop where
  diag : HoldsVec st.diag E
  pos : ∀ j, 0 < E j
  delta : st.s.delta = fin d
  dpos : 0 < d
  xnorm : st.s.xnorm = fin xn
  xnn : 0 ≤ xn
  xzero : xn = 0 ↔ ∀ j, x (fr j) = 0

/-- At the beginning of the outer loop. -/
structure OuterOk {p m n : ℕ} (D : (Fin p → ℝ) → Fin m → ℝ) (fr : Fin n → Fin p) (ls : Fin n → Limit) (x0 x : Fin p → ℝ) (st : FullSt XR) : Prop where
  base : BaseOk D fr ls x0 x st
  scale : st.s.iter ≠ 1 → ∃ E d xn, ScaleOk fr x st E d xn
  iter : 1 ≤ st.s.iter

/-- At the beginning of the inner loop. -/
structure InnerOk {p m n : ℕ} (D : (Fin p → ℝ) → Fin m → ℝ) (fr : Fin n → Fin p) (ls : Fin n → Limit) (x0 x : Fin p → ℝ) (J : Matrix (Fin m) (Fin n) ℝ)
    (E : Fin n → ℝ) (d xn : ℝ) (st : FullSt XR) : Prop where
  base : BaseOk D fr ls x0 x st
  scale : ScaleOk fr x st E d xn
  iter : 1 ≤ st.s.iter
  nonzero : D x ≠ 0
  cols : ColumnsBelow J (largeSize / m)
  arr : ∃ a, HoldsMat a J ∧ (∀ i k, i ≤ k → k < n → st.r i k = setDiag (qrfac m n a).a (qrfac m n a).rdiag i k) ∧ st.ipvt = (qrfac m n a).ipvt ∧
    st.qtf = (qtfLoop m n (qrfac m n a).a (ofEntries (reals (D x)))).2

/-- The Jacobian of one outer turn: difference quotients, columns of blocked parameters cleared. -/
def TurnJac {p m n : ℕ} (D : (Fin p → ℝ) → Fin m → ℝ) (fr : Fin n → Fin p) (ls : Fin n → Limit) (x : Fin p → ℝ) (J : Matrix (Fin m) (Fin n) ℝ) : Prop :=
  ∃ h : Fin n → ℝ, (∀ j, |h j| = stepSize (x (fr j))) ∧ (∀ j, h j < 0 → (ls j).upper ≠ none) ∧
    J = cleared ls (fun j => x (fr j)) (D x) fun i j => quotient D x (fr j) (h j) i

section
variable {p m n : ℕ} {dev : List XR → List XR} {D : (Fin p → ℝ) → Fin m → ℝ} {fr : Fin n → Fin p} {lims : List (FreeLim XR)} {ls : Fin n → Limit}
  {x0 : Fin p → ℝ} {c : MPConf XR}

theorem qr_allFinite {J : Matrix (Fin m) (Fin n) ℝ} {a : Arr2 XR} (hnm : n ≤ m) (ha : HoldsMat a J) (hJ : ColumnsBelow J (largeSize / m)) :
    allFinite n (setDiag (qrfac m n a).a (qrfac m n a).rdiag) = true := by
  obtain ⟨B, rd, wa, σ, h⟩ := qrfac_inv ha.nat (moderate_of hJ)
  unfold allFinite
  simp only [List.all_eq_true, List.mem_range]
  intro j hj i hi
  unfold setDiag
  split_ifs
  · rw [h.erd j hj]; rfl
  · rw [h.ea i j (by omega) hj]; rfl

theorem fdPoints_total (hl : LimitArrays lims ls) (fr : Fin n → Fin p) (x : Fin p → ℝ) : ∃ pts, fdPoints (freeList fr) lims (reals x) = .ok pts := by
  unfold fdPoints
  obtain ⟨r, h, -⟩ := loopMap_run (f := fun j => do
    let k ← rd (freeList fr) j
    let temp ← rd (reals x) k
    wr (reals x) k (temp + fdStep lims[j]? temp)) (fun _ _ => True) (freeList fr).length (by
      intro z hz
      have hn : z < n := by simpa using hz
      have e1 := freeList_rd fr ⟨z, hn⟩
      have e2 := hl.step ⟨z, hn⟩ (x (fr ⟨z, hn⟩))
      simp only at e1 e2
      rw [e1]
      simp only [ok_bind]
      rw [reals_rd]
      simp only [ok_bind]
      rw [e2, fin_add, reals_wr]
      exact ⟨_, rfl, trivial⟩)
  exact ⟨r, h⟩

/-- The scales and the bound of the first turn: lengths of the columns, one for columns of zeros; the bound is `stepfactor` times the length of the scaled
parameters. -/
structure FirstScale {m n : ℕ} (c : MPConf XR) (J : Matrix (Fin m) (Fin n) ℝ) (E x : Fin n → ℝ) (d xn : ℝ) : Prop where
  cols : ∀ j, E j = if colLength J j = 0 then 1 else colLength J j
  size : vecNorm n (fun l => fin (natVec (fun j => E j * x j) l)) = fin xn
  delta : ∀ sf, c.stepfactor = fin sf → d = if sf * xn = 0 then sf else sf * xn

/-- The part of the outer loop before the inner loop. -/
theorem outer_run (S : Setup dev D fr lims ls x0 c) {x : Fin p → ℝ} {st : FullSt XR} (h : OuterOk D fr ls x0 x st) :
    ∃ st' e J, outerFull dev m c (freeList fr) lims st = .ok (st', e) ∧ st'.s.iter = st.s.iter ∧ st'.s.x = st.s.x ∧ (e = none ∨ e = some MP_OK_DIR) ∧
      TurnJac D fr ls x J ∧
      (e = none ↔ fle (scaledGradient m n (ofColumns (List.ofFn fun j => reals fun i => J i j)) (ofEntries (reals (D x)))) c.gtol = false) ∧
      (e = none → fle st'.s.gnorm c.gtol = false ∧ ∃ E d xn, InnerOk D fr ls x0 x J E d xn st' ∧ (st.s.iter = 1 → FirstScale c J E (fun j => x (fr j)) d xn)) := by
  obtain ⟨z, hz1, hz2⟩ := h.base.xnew
  have hext : Function.extend fr (fun j => x (fr j)) z = x := by
    funext k
    by_cases hk : ∃ j, fr j = k
    · obtain ⟨j, rfl⟩ := hk
      rw [S.inj.extend_apply]
    · rw [Function.extend_apply' _ _ _ hk, hz2 k hk, h.base.reach.1 k hk]
  have hsc : scatter (freeList fr) st.s.x st.s.xnew = .ok (reals x) := by
    rw [h.base.ex, hz1, scatter_reals S.inj, hext]
  obtain ⟨h0, hh1, hh2, hjac⟩ := C94_quotient D dev S.comp fr lims ls S.lims x S.size
  have hh3 : ∀ j, h0 j < 0 → (ls j).upper ≠ none := fun j hj e => by
    obtain ⟨b, hb, -⟩ := (hh2 j).1 hj
    rw [hb] at e
    cases e
  set J0 : Matrix (Fin m) (Fin n) ℝ := fun i j => quotient D x (fr j) (h0 j) i with hJ0
  have hpeg := C95_pegged lims ls S.lims (fun j => x (fr j)) (D x) J0
  have hB0 : ColumnsBelow J0 (largeSize / m) := S.cols x h.base.reach h0 hh1
  set J := cleared ls (fun j => x (fr j)) (D x) J0 with hJ
  have hB : ColumnsBelow J (largeSize / m) := cleared_below ls _ _ _ hB0
  set cols : List (List XR) := List.ofFn fun j => reals fun i => J i j with hcols
  have hlen : cols.length = n := by simp [hcols]
  have ha : HoldsMat (ofColumns cols) J := holds_columns J
  obtain ⟨π, Q, R, -, -, -, hac, -⟩ := C71_qr_partial S.hnm J _ ha hB
  obtain ⟨pts, hpts⟩ := fdPoints_total S.lims fr x
  obtain ⟨f, hf1, hf2, hf3⟩ := mpEnorm_reals (D x)
  obtain ⟨gt, hg1, hg2⟩ := S.gtol
  obtain ⟨sf, hs1, hs2⟩ := S.factor
  set la := outerArrays m cols st with hla
  have hfin : la.1.finite = true := by
    rw [hla]
    simp only [outerArrays, hlen]
    exact qr_allFinite S.hnm ha hB
  -- the scales
  set ac : Fin n → ℝ := fun k => Real.sqrt (∑ i, J i k ^ 2) with hacdef
  have hacn : ∀ k, 0 ≤ ac k := fun k => Real.sqrt_nonneg _
  set d0 : ℕ → XR := if st.s.iter = 1 then firstDiag (qrInit m (ofColumns cols)).rdiag else st.diag with hd0
  have hd0' : ∃ E0 : Fin n → ℝ, HoldsVec d0 E0 ∧ (∀ j, 0 < E0 j) ∧ (st.s.iter = 1 → ∀ j, E0 j = if ac j = 0 then 1 else ac j) := by
    by_cases hi : st.s.iter = 1
    · refine ⟨fun j => if ac j = 0 then 1 else ac j, fun j => ?_, fun j => ?_, fun _ j => rfl⟩
      · rw [hd0, if_pos hi]
        unfold firstDiag
        rw [hac, zero_def, feq_fin, one_def]
        by_cases hz : ac j = 0
        · simp only [hz, if_true]
          rw [if_pos (by simpa using hz)]
        · simp only [hz, if_false]
          rw [if_neg (by simpa using hz)]
      · beta_reduce
        split_ifs with hz
        · exact one_pos
        · exact lt_of_le_of_ne (hacn j) (Ne.symm hz)
    · obtain ⟨E, d, xn, hs⟩ := h.scale hi
      exact ⟨E, by rw [hd0, if_neg hi]; exact hs.diag, hs.pos, fun e => absurd e hi⟩
  obtain ⟨E0, hE0, hE0p, hE01⟩ := hd0'
  have hxn : ∃ xn, la.1.xnorm = fin xn ∧ 0 ≤ xn ∧ (xn = 0 ↔ ∀ j, x (fr j) = 0) ∧ vecNorm n (fun l => fin (natVec (fun j => E0 j * x (fr j)) l)) = fin xn := by
    rw [hla]
    simp only [outerArrays, hlen]
    have hv : ∀ l, l < n → d0 l * ofEntries st.s.x l = fin (natVec (fun j => E0 j * x (fr j)) l) := by
      intro l hl
      have e := hE0 ⟨l, hl⟩
      have e2 := natVec_val (fun j => E0 j * x (fr j)) ⟨l, hl⟩
      simp only at e e2
      rw [e, h.base.ex, ofEntries_reals _ hl, fin_mul, e2]
    obtain ⟨r, h1, h2, h3, -⟩ := vecNorm_fin (n := n) (w := fun j => d0 j * ofEntries st.s.x j) (u := natVec fun j => E0 j * x (fr j)) hv
    refine ⟨r, h1, h2, ⟨fun hr j => ?_, fun hx => h3.2 fun l hl => ?_⟩, ?_⟩
    · have := h3.1 hr j j.2
      rw [natVec_val] at this
      exact (mul_eq_zero.1 this).resolve_left (hE0p j).ne'
    · have e2 := natVec_val (fun j => E0 j * x (fr j)) ⟨l, hl⟩
      simp only at e2
      rw [e2, hx, mul_zero]
    · rw [← h1]
      unfold vecNorm
      rw [List.map_congr_left fun l hl => hv l (List.mem_range.1 hl)]
  obtain ⟨xn, hxn1, hxn2, hxn3, hxn4⟩ := hxn
  have hturn : ∃ r, outerTurn c (freeList fr) lims la.1 st.s = .ok r ∧ r.1.iter = st.s.iter ∧ r.1.x = st.s.x ∧ r.1.xnew = reals x ∧ r.1.fnorm = st.s.fnorm ∧
      r.1.par = st.s.par ∧ r.1.delta = (if st.s.iter = 1 then (if feq (c.stepfactor * la.1.xnorm) 0 then c.stepfactor else c.stepfactor * la.1.xnorm) else st.s.delta) ∧
      r.1.xnorm = (if st.s.iter = 1 then la.1.xnorm else st.s.xnorm) ∧ r.2 = outerExit c la.1 ∧ r.1.gnorm = la.1.gnorm := by
    unfold outerTurn
    rw [hsc]
    simp only [ok_bind]
    rw [hpts]
    simp only [ok_bind]
    exact ⟨_, rfl, rfl, rfl, rfl, rfl, rfl, rfl, rfl, rfl, rfl⟩
  obtain ⟨r, ht, hr1, hr2, hr3, hr4, hr5, hr6, hr7, hr8, hr9⟩ := hturn
  have hrun : outerFull dev m c (freeList fr) lims st = .ok ({ la.2 with s := r.1 }, r.2) := by
    unfold outerFull
    rw [hsc]
    simp only [ok_bind]
    rw [h.base.fvec, hjac]
    simp only [ok_bind]
    rw [h.base.ex, hpeg]
    simp only [ok_bind]
    rw [← hla, ht]
    rfl
  have hsg : la.1.gnorm = scaledGradient m n (ofColumns cols) (ofEntries (reals (D x))) := by
    rw [hla]
    unfold outerArrays scaledGradient
    simp only [hlen, h.base.fvec, h.base.fnorm]
    congr 1
    unfold vecNorm
    congr 1
    refine List.ext_getElem (by simp [reals]) fun k h1 h2 => ?_
    have hk : k < m := by simpa [reals] using h1
    simp [reals, ofEntries, hk]
  refine ⟨_, _, J, hrun, hr1, hr2, ?_, ⟨h0, hh1, hh3, rfl⟩, ?_, ?_⟩
  · rw [hr8]
    unfold outerExit
    rw [hfin]
    simp only [Bool.not_true, Bool.false_eq_true, if_false]
    split_ifs
    · exact Or.inr rfl
    · exact Or.inl rfl
  · rw [hr8, ← hsg]
    unfold outerExit
    rw [hfin]
    simp only [Bool.not_true, Bool.false_eq_true, if_false]
    cases fle la.1.gnorm c.gtol <;> simp
  · intro he
    have hpos : ∃ d, r.1.delta = fin d ∧ 0 < d ∧ (st.s.iter = 1 → d = if sf * xn = 0 then sf else sf * xn) := by
      rw [hr6]
      by_cases hi : st.s.iter = 1
      · rw [if_pos hi, hs1, hxn1, fin_mul, zero_def, feq_fin]
        by_cases h0 : sf * xn = 0
        · exact ⟨sf, by simp [h0], hs2, fun _ => by rw [if_pos h0]⟩
        · exact ⟨sf * xn, by simp [h0], lt_of_le_of_ne (mul_nonneg hs2.le hxn2) (Ne.symm h0), fun _ => by rw [if_neg h0]⟩
      · rw [if_neg hi]
        obtain ⟨_, d, _, hs⟩ := h.scale hi
        exact ⟨d, hs.delta, hs.dpos, fun e => absurd e hi⟩
    have hxn' : ∃ xn', r.1.xnorm = fin xn' ∧ 0 ≤ xn' ∧ (xn' = 0 ↔ ∀ j, x (fr j) = 0) ∧ (st.s.iter = 1 → xn' = xn) := by
      rw [hr7]
      by_cases hi : st.s.iter = 1
      · rw [if_pos hi]; exact ⟨xn, hxn1, hxn2, hxn3, fun _ => rfl⟩
      · rw [if_neg hi]
        obtain ⟨_, _, xn, hs⟩ := h.scale hi
        exact ⟨xn, hs.xnorm, hs.xnn, hs.xzero, fun e => absurd e hi⟩
    obtain ⟨d, hd1, hd2, hd3⟩ := hpos
    obtain ⟨xn', hx1, hx2, hx3, hx4⟩ := hxn'
    have hmax : st.s.iter = 1 → (fun j => max (E0 j) (ac j)) = E0 := fun hi => by
      funext j
      rw [hE01 hi]
      beta_reduce
      split_ifs with hz
      · rw [hz]; norm_num
      · exact max_self _
    refine ⟨?_, fun j => max (E0 j) (ac j), d, xn', ⟨⟨h.base.reach, hr2.trans h.base.ex, h.base.fvec, ⟨x, hr3, h.base.reach.1⟩,
      hr4.trans h.base.fnorm, by rw [hr5]; exact h.base.par⟩, ⟨fun j => ?_, fun j => lt_max_of_lt_left (hE0p j), hd1, hd2, hx1, hx2, hx3⟩,
      by rw [hr1]; exact h.iter, ?_, hB, ofColumns cols, ha, ?_, ?_, ?_⟩, fun hi => ⟨fun j => ?_, ?_, fun t ht => ?_⟩⟩
    · change fle r.1.gnorm c.gtol = false
      rw [hr9]
      rw [hr8] at he
      unfold outerExit at he
      rw [hfin] at he
      simp only [Bool.not_true, Bool.false_eq_true, if_false] at he
      cases hb : fle la.1.gnorm c.gtol with
      | false => rfl
      | true => rw [hb, if_pos rfl] at he; cases he
    · change dmax (d0 j) ((qrInit m (ofColumns cols)).rdiag j) = _
      rw [hE0, hac, mp_dmax_fin]
    · intro hz
      rw [hr8] at he
      unfold outerExit at he
      rw [hfin] at he
      simp only [Bool.not_true, Bool.false_eq_true, if_false] at he
      have : la.1.gnorm = fin 0 := by
        rw [hla]
        simp only [outerArrays]
        unfold gradNorm
        rw [h.base.fnorm, hf1, hf3.2 hz, zero_def, feq_fin]
        simp
      rw [this, hg1, fle_fin, if_pos (by simpa using hg2.le)] at he
      cases he
    · intro i k _ _
      simp [hla, outerArrays, hlen]
    · simp [hla, outerArrays, hlen]
    · simp [hla, outerArrays, hlen, h.base.fvec]
    · rw [congrFun (hmax hi) j, hE01 hi]
      rfl
    · have hm : ∀ j, max (E0 j) (ac j) = E0 j := fun j => congrFun (hmax hi) j
      simp only [hm]
      rw [hxn4, hx4 hi]
    · rw [hs1] at ht
      rw [hd3 hi, hx4 hi, XR.fin.inj ht]

/-- What happens in one turn of the inner loop: the parameter `q` and the direction `w` found, the step `s` taken, the part `alpha` of it, the new point `y`, the
norms, the reductions and their ratio, the new bound and the new parameter. -/
structure LmTurn (dev : List XR → List XR) (D : (Fin p → ℝ) → Fin m → ℝ) (fr : Fin n → Fin p) (lims : List (FreeLim XR)) (ls : Fin n → Limit) (x0 : Fin p → ℝ)
    (c : MPConf XR) (x : Fin p → ℝ) (J : Matrix (Fin m) (Fin n) ℝ) (E : Fin n → ℝ) (d xn : ℝ) (st : FullSt XR) (stop : Bool) where
  (q alpha f g A P G R pn jn d0 d' q' xn' : ℝ)
  (w s : Fin n → ℝ)
  y : Fin p → ℝ
  la : InnerLA XR × Arr2 XR
  st' : FullSt XR
  step : LmStep J (D x) E w q
  lmq : (lmpar n st.r st.ipvt st.diag st.qtf st.s.delta st.s.par (fun _ => 0) (fun _ => 0)).1 = fin q
  lmw : HoldsVec (lmpar n st.r st.ipvt st.diag st.qtf st.s.delta st.s.par (fun _ => 0) (fun _ => 0)).2.1 w
  tri : ∀ i k, i ≤ k → k < n → la.2 i k = st.r i k
  arrays : innerArrays lims stop st = .ok la
  dir : la.1.dir = reals w
  alpha0 : 0 ≤ alpha
  reach : Reach fr ls x0 y
  nolim : anyLim lims ≠ true → (∀ j, y (fr j) = x (fr j) - w j) ∧ s = -w ∧ alpha = 1
  ef : mpEnorm (reals (D x)) = fin f
  f0 : 0 < f
  eg : mpEnorm (reals (D y)) = fin g
  g0 : 0 ≤ g
  eA : actRed (fin f) (fin g) = fin A
  epn : vecNorm n (fun l => st.diag l * ofEntries (reals s) l) = fin pn
  pn0 : 0 ≤ pn
  pnz : pn = 0 ↔ s = 0
  ejn : vecNorm n (predVec n la.2 st.ipvt (ofEntries (reals s)) fun _ => 0) = fin jn
  eP : P = (jn * alpha / f) ^ 2 + 2 * (Real.sqrt (alpha * q) * pn / f) ^ 2
  eR : R = if P = 0 then 0 else A / P
  ed0 : d0 = if st.s.iter = 1 then min d pn else d
  upd : updateDelta (fin A) (fin G) (fin R) (fin f) (fin g) (fin pn) (fin d0) (fin q) = (fin d', fin q')
  d'0 : 0 ≤ d'
  q'0 : 0 ≤ q'
  half : R ≤ 1 / 4 → d' ≤ d0 / 2
  d'pos : 0 < pn → 0 < d'
  xn'0 : 0 ≤ xn'
  xn'z : xn' = 0 ↔ ∀ j, y (fr j) = 0
  exn : vecNorm n (fun l => st.diag l * ofEntries (reals fun j => y (fr j)) l) = fin xn'
  run : innerFull dev c (freeList fr) lims stop st =
    .ok (st', lmNext (infoAfter c (fin A) (fin P) (fin R) st'.s.delta st'.s.xnorm st.s.gnorm st'.s.iter stop) (fin R))
  sx : st'.s.x = if 1 / 10000 ≤ R then reals fun j => y (fr j) else st.s.x
  sxnew : st'.s.xnew = reals y
  sfnorm : st'.s.fnorm = if 1 / 10000 ≤ R then fin g else st.s.fnorm
  sfnorm1 : st'.s.fnorm1 = fin g
  sgnorm : st'.s.gnorm = st.s.gnorm
  sdelta : st'.s.delta = fin d'
  spar : st'.s.par = fin q'
  sxnorm : st'.s.xnorm = if 1 / 10000 ≤ R then fin xn' else st.s.xnorm
  siter : st'.s.iter = if 1 / 10000 ≤ R then st.s.iter + 1 else st.s.iter
  sfvec : st'.fvec = if 1 / 10000 ≤ R then reals (D y) else st.fvec
  srest : st'.diag = st.diag ∧ st'.r = la.2 ∧ st'.ipvt = st.ipvt ∧ st'.qtf = st.qtf

theorem inner_turn (S : Setup dev D fr lims ls x0 c) {x : Fin p → ℝ} {J : Matrix (Fin m) (Fin n) ℝ} {E : Fin n → ℝ} {d xn : ℝ} {st : FullSt XR}
    (h : InnerOk D fr ls x0 x J E d xn st) (stop : Bool) : Nonempty (LmTurn dev D fr lims ls x0 c x J E d xn st stop) := by
  obtain ⟨a, ha, hr, hip, hqt⟩ := h.arr
  obtain ⟨q0, hq0, hq0n⟩ := h.base.par
  obtain ⟨q, w, hout1, hout2, hstep, hout3, -⟩ := C72_step_partial S.hnm J (D x) E a (ofEntries (reals (D x))) st.diag ha (holds_entries _) h.scale.diag h.cols
    h.scale.pos d q0 h.scale.dpos hq0n (fun _ => 0) (fun _ => 0) st.r hr
  rw [← hip, ← hqt, ← h.scale.delta, ← hq0] at hout1 hout2 hout3
  set out := lmpar n st.r st.ipvt st.diag st.qtf st.s.delta st.s.par (fun _ => 0) (fun _ => 0) with hout
  have hxl : st.s.x.length = n := by rw [h.base.ex, reals_length]
  have hdir : (List.range n).map out.2.1 = reals w := by
    refine List.ext_getElem (by simp [reals]) fun k h1 h2 => ?_
    have hk : k < n := by simpa using h1
    have e := hout2 ⟨k, hk⟩
    simp only at e
    simp [reals, e]
  obtain ⟨v, s, alpha, hnp, hts, hal, hv, hno⟩ := newPoint_reals S.lims (fun j => x (fr j)) h.base.reach.2 w
  rw [← h.base.ex] at hnp hts
  set la : InnerLA XR := stepLA n out.2.2 st.ipvt st.diag (ofEntries (reals s)) (fun _ => 0) out.1 (vecNorm n fun j => st.diag j * ofEntries (reals v) j)
    (reals w) stop with hla
  have hia : innerArrays lims stop st = .ok (la, out.2.2) := by
    unfold innerArrays
    rw [hxl]
    simp only
    rw [← hout, hdir, hts]
    simp only [ok_bind]
    rw [hnp]
    rfl
  -- the numbers
  have hEs : ∀ l, l < n → st.diag l * ofEntries (reals s) l = fin (natVec (fun j => E j * s j) l) := fun l hl => by
    have e := h.scale.diag ⟨l, hl⟩
    have e2 := natVec_val (fun j => E j * s j) ⟨l, hl⟩
    simp only at e e2
    rw [e, ofEntries_reals _ hl, fin_mul, e2]
  obtain ⟨pn, hpn1, hpn2, hpn3, -⟩ := vecNorm_fin hEs
  obtain ⟨xn', hxn1, hxn2, hxn3, -⟩ := vecNorm_fin (n := n) (w := fun j => st.diag j * ofEntries (reals v) j) (u := natVec fun j => E j * v j) fun l hl => by
    have e := h.scale.diag ⟨l, hl⟩
    have e2 := natVec_val (fun j => E j * v j) ⟨l, hl⟩
    simp only at e e2
    rw [e, ofEntries_reals _ hl, fin_mul, e2]
  have hjn : ∃ jn, la.jnorm = fin jn := by
    obtain ⟨π, Q, R, hqr, hpi, hR, -, -⟩ := C71_qr_partial S.hnm J a ha h.cols
    have hrR : ∀ i k, i ≤ k → k < n → out.2.2 i k = fin (natMat R i k) := fun i k hik hk => by
      have e := hR ⟨i, by have := S.hnm; omega⟩ ⟨k, hk⟩ hik
      have e2 := natMat_val R ⟨i, by have := S.hnm; omega⟩ ⟨k, hk⟩
      simp only at e e2
      rw [hout3 i k hik hk, hr i k hik hk, e, e2]
    have hsv : ∀ j, j < n → ofEntries (reals s) (st.ipvt j) = fin (natVec (s ∘ π) j) := fun j hj => by
      have e := hpi ⟨j, hj⟩
      have e2 := natVec_val (s ∘ π) ⟨j, hj⟩
      simp only at e e2
      rw [hip, e, ofEntries_reals _ (π _).2, e2]
      rfl
    obtain ⟨jn, hj, -⟩ := vecNorm_fin (predVec_fin hrR hsv fun _ => 0)
    exact ⟨jn, hj⟩
  obtain ⟨jn, hjn⟩ := hjn
  obtain ⟨z, hz1, hz2⟩ := h.base.xnew
  set y := Function.extend fr v z with hy
  have hyfr : ∀ j, y (fr j) = v j := fun j => S.inj.extend_apply v z j
  have hyreach : Reach fr ls x0 y := ⟨fun k hk => by rw [hy, Function.extend_apply' _ _ _ hk, hz2 k hk], fun j => by rw [hyfr]; exact hv j⟩
  have hsc : scatter (freeList fr) (reals v) st.s.xnew = .ok (reals y) := by rw [hz1, scatter_reals S.inj]
  obtain ⟨f, hf1, hf2, hf3⟩ := mpEnorm_reals (D x)
  have hfpos : 0 < f := lt_of_le_of_ne hf2 fun e => h.nonzero (hf3.1 e.symm)
  obtain ⟨g, hg1, hg2, -⟩ := mpEnorm_reals (D y)
  have hfn : st.s.fnorm = fin f := h.base.fnorm.trans hf1
  have hdn : mpEnorm (dev (reals y)) = fin g := by rw [S.comp, hg1]
  obtain ⟨A, hA⟩ := actRed_real (f := f) hg2
  obtain ⟨P, G, hPG, hP, hG, hPe⟩ := preRed_real (la := la) hfpos hal hstep.nonneg hjn hpn1 hout1
  have hratio := gainRatio_real A P
  set R : ℝ := if P = 0 then 0 else A / P with hR
  set d0 : ℝ := if st.s.iter = 1 then min d pn else d with hd0
  have hd01 : (if st.s.iter = 1 then dmin st.s.delta la.pnorm else st.s.delta) = fin d0 := by
    have e : la.pnorm = fin pn := hpn1
    rw [e, h.scale.delta, mp_dmin_fin, hd0]
    split_ifs <;> rfl
  have hd02 : 0 ≤ d0 := by
    rw [hd0]
    split_ifs
    · exact le_min h.scale.dpos.le hpn2
    · exact h.scale.dpos.le
  have hd0p : 0 < pn → 0 < d0 := by
    intro hp
    rw [hd0]
    split_ifs
    · exact lt_min h.scale.dpos hp
    · exact h.scale.dpos
  obtain ⟨d', q', hup, hd', hq', hhalf, hdp⟩ := updateDelta_real (A := A) (E := G) (R := R) (f := f) (f1 := g) hG hpn2 hd02 hstep.nonneg
  have e4 : (((1 / 10000 : ℚ) : ℝ)) = 1 / 10000 := by norm_num
  have hgood : (fle (lit (1 / 10000)) (fin R) = true) = (1 / 10000 ≤ R) := by rw [lit_def, fle_fin, e4, decide_eq_true_eq]
  have hturn : ∃ s', innerTurn dev c (freeList fr) lims la st.s = .ok (s', lmNext (infoAfter c (fin A) (fin P) (fin R) s'.delta s'.xnorm st.s.gnorm s'.iter stop) (fin R)) ∧
      s'.x = (if 1 / 10000 ≤ R then reals v else st.s.x) ∧ s'.xnew = reals y ∧
      s'.fnorm = (if 1 / 10000 ≤ R then fin g else st.s.fnorm) ∧ s'.fnorm1 = fin g ∧ s'.gnorm = st.s.gnorm ∧ s'.delta = fin d' ∧ s'.par = fin q' ∧
      s'.xnorm = (if 1 / 10000 ≤ R then fin xn' else st.s.xnorm) ∧
      s'.iter = (if 1 / 10000 ≤ R then st.s.iter + 1 else st.s.iter) := by
    unfold innerTurn
    have e1 : la.dir = reals w := rfl
    have e2 : la.pnorm = fin pn := hpn1
    have e3 : la.par = fin q := hout1
    have e4 : la.xnorm = fin xn' := hxn1
    have e5 : la.stop = stop := rfl
    rw [e1, hnp]
    simp only [ok_bind]
    rw [hsc]
    simp only [ok_bind]
    rw [hd01, hdn, hfn, hA, hPG]
    simp only
    rw [hratio, e2, e3, hup, e4, e5]
    simp only [hgood]
    exact ⟨_, rfl, rfl, rfl, rfl, rfl, rfl, rfl, rfl, rfl, rfl⟩
  obtain ⟨s', ht, hs1, hs2, hs3, hs31, hs32, hs4, hs5, hs6, hs7⟩ := hturn
  have hrun : innerFull dev c (freeList fr) lims stop st = .ok ({ st with s := s', r := out.2.2, fvec := if s'.iter = st.s.iter then st.fvec else dev s'.xnew },
      lmNext (infoAfter c (fin A) (fin P) (fin R) s'.delta s'.xnorm st.s.gnorm s'.iter stop) (fin R)) := by
    unfold innerFull
    rw [hia]
    simp only [ok_bind]
    rw [ht]
    rfl
  refine ⟨⟨q, alpha, f, g, A, P, G, R, pn, jn, d0, d', q', xn', w, s, y, (la, out.2.2), _, hstep, hout1, hout2, hout3, hia, rfl, hal, hyreach, ?_, hf1, hfpos, hg1, hg2,
    hA, hpn1, hpn2, ?_, hjn, hPe, hR, hd0, hup, hd', hq', hhalf, fun hp => hdp hp (hd0p hp), hxn2, ?_, by simp only [hyfr]; exact hxn1, hrun, ?_, hs2, hs3, hs31, hs32, hs4, hs5, hs6, hs7, ?_,
    rfl, rfl, rfl, rfl⟩⟩
  · intro hna
    obtain ⟨h1, h2, h3⟩ := hno hna
    exact ⟨fun j => by rw [hyfr, h1]; rfl, h2, h3⟩
  · rw [hpn3]
    constructor
    · intro hz
      funext j
      have := hz j j.2
      rw [natVec_val] at this
      exact (mul_eq_zero.1 this).resolve_left (h.scale.pos j).ne'
    · intro hz l hl
      have e := natVec_val (fun j => E j * s j) ⟨l, hl⟩
      simp only at e
      rw [e, hz]
      simp
  · refine ⟨fun e j => ?_, fun hy => hxn3.2 fun l hl => ?_⟩
    · have := hxn3.1 e j j.2
      rw [natVec_val] at this
      rw [hyfr]
      exact (mul_eq_zero.1 this).resolve_left (h.scale.pos j).ne'
    · have e2 := natVec_val (fun j => E j * v j) ⟨l, hl⟩
      simp only at e2
      rw [e2, ← hyfr, hy, mul_zero]
  · simp only [hyfr]
    exact hs1
  · simp only
    by_cases hR' : 1 / 10000 ≤ R
    · rw [if_pos hR'] at hs7 ⊢
      rw [if_neg (by omega), hs2, S.comp]
    · rw [if_neg hR'] at hs7 ⊢
      rw [if_pos hs7]

/-- The turn again: how the loops go on. -/
theorem inner_run (S : Setup dev D fr lims ls x0 c) {x : Fin p → ℝ} {J : Matrix (Fin m) (Fin n) ℝ} {E : Fin n → ℝ} {d xn : ℝ} {st : FullSt XR}
    (h : InnerOk D fr ls x0 x J E d xn st) (stop : Bool) :
    ∃ st' nx la, innerFull dev c (freeList fr) lims stop st = .ok (st', nx) ∧ innerArrays lims stop st = .ok la ∧ AllFin la.1.dir ∧
      (∃ x', Reach fr ls x0 x' ∧ st'.s.x = reals fun j => x' (fr j)) ∧
      (∀ i, nx = .stop i → i ∈ endCodes) ∧
      (nx = .inner → st'.s.iter = st.s.iter ∧ ∃ d', d' ≤ d / 2 ∧ (∀ t, c.xtol = fin t → t * xn < d') ∧ InnerOk D fr ls x0 x J E d' xn st') ∧
      (nx = .outer → st'.s.iter = st.s.iter + 1 ∧ st'.s.iter < c.maxiter ∧ ∃ x', OuterOk D fr ls x0 x' st') := by
  obtain ⟨T⟩ := inner_turn S h stop
  obtain ⟨a, ha, hr, hip, hqt⟩ := h.arr
  have e4 : (((1 / 10000 : ℚ) : ℝ)) = 1 / 10000 := by norm_num
  obtain ⟨xt, hxt1, hxt2⟩ := S.xtol
  have hd0 : T.d0 ≤ d := by
    rw [T.ed0]
    split_ifs
    · exact min_le_left _ _
    · exact le_rfl
  refine ⟨_, _, _, T.run, T.arrays, ?_, ?_, ?_, ?_, ?_⟩
  · rw [T.dir]
    intro b hb
    unfold reals at hb
    rw [List.mem_ofFn] at hb
    obtain ⟨j, hj⟩ := hb
    exact ⟨T.w j, hj.symm⟩
  · by_cases hgood : 1 / 10000 ≤ T.R
    · exact ⟨T.y, T.reach, by rw [T.sx, if_pos hgood]⟩
    · exact ⟨x, h.base.reach, by rw [T.sx, if_neg hgood, h.base.ex]⟩
  · intro i hi
    unfold lmNext at hi
    split_ifs at hi with h1
    cases hi
    rcases infoAfter_codes c (fin T.A) (fin T.P) (fin T.R) T.st'.s.delta T.st'.s.xnorm st.s.gnorm T.st'.s.iter stop with e | e
    · exact absurd e h1
    · exact e
  · intro hi
    unfold lmNext at hi
    split_ifs at hi with h1 h2
    have h1 := not_not.1 h1
    rw [lit_def, flt_fin, e4, decide_eq_true_eq] at h2
    have hgood : ¬ 1 / 10000 ≤ T.R := not_le.2 h2
    obtain ⟨hz, -⟩ := infoAfter_zero h1
    rw [T.sdelta, T.sxnorm, if_neg hgood, h.scale.xnorm, hxt1, fin_mul, fle_fin, decide_eq_false_iff_not, not_le] at hz
    have hd'pos : 0 < T.d' := lt_of_le_of_lt (mul_nonneg hxt2.le h.scale.xnn) hz
    refine ⟨by rw [T.siter, if_neg hgood], T.d', ?_, ?_, ⟨⟨h.base.reach, by rw [T.sx, if_neg hgood, h.base.ex], by rw [T.sfvec, if_neg hgood, h.base.fvec],
      ⟨T.y, T.sxnew, T.reach.1⟩, by rw [T.sfnorm, if_neg hgood, h.base.fnorm], T.q', T.spar, T.q'0⟩,
      ⟨by rw [T.srest.1]; exact h.scale.diag, h.scale.pos, T.sdelta, hd'pos, by rw [T.sxnorm, if_neg hgood, h.scale.xnorm], h.scale.xnn, h.scale.xzero⟩,
      by rw [T.siter, if_neg hgood]; exact h.iter, h.nonzero, h.cols, a, ha, ?_, by rw [T.srest.2.2.1, hip], by rw [T.srest.2.2.2, hqt]⟩⟩
    · have := T.half (by linarith)
      linarith
    · intro t ht
      rw [hxt1] at ht
      rw [← XR.fin.inj ht]
      exact hz
    · intro i k hik hk
      rw [T.srest.2.1, T.tri i k hik hk, hr i k hik hk]
  · intro hi
    unfold lmNext at hi
    split_ifs at hi with h1 h2
    have h1 := not_not.1 h1
    rw [lit_def, flt_fin, e4, decide_eq_true_eq] at h2
    have hgood : 1 / 10000 ≤ T.R := not_lt.1 h2
    obtain ⟨hz, hit⟩ := infoAfter_zero h1
    rw [T.sdelta, T.sxnorm, if_pos hgood, hxt1, fin_mul, fle_fin, decide_eq_false_iff_not, not_le] at hz
    have hd'pos : 0 < T.d' := lt_of_le_of_lt (mul_nonneg hxt2.le T.xn'0) hz
    exact ⟨by rw [T.siter, if_pos hgood], hit, T.y, ⟨⟨T.reach, by rw [T.sx, if_pos hgood], by rw [T.sfvec, if_pos hgood], ⟨T.y, T.sxnew, T.reach.1⟩,
      by rw [T.sfnorm, if_pos hgood, T.eg], T.q', T.spar, T.q'0⟩, fun _ => ⟨E, T.d', T.xn', by rw [T.srest.1]; exact h.scale.diag, h.scale.pos, T.sdelta, hd'pos,
      by rw [T.sxnorm, if_pos hgood], T.xn'0, T.xn'z⟩, by rw [T.siter, if_pos hgood]; omega⟩⟩

end

end Imfit
