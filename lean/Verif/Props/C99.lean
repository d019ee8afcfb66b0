import Verif.Props.C97
import Verif.Lemmas.BootErr

/-!
# C99: bootstrap resampling after Ctrl-C
-/

namespace Imfit
open XR Finset Spec Matrix

section
variable {p m : ℕ} {dev : List XR → List XR} {D : (Fin p → ℝ) → Fin m → ℝ} {limitsExist : Bool} {ls : Fin p → Limit} {pars : List (MPPar XR)} {x0 : Fin p → ℝ}

/-- After Ctrl-C there is no second turn. -/
theorem infoAfter_stop (c : MPConf XR) (a b r d x g : XR) (i : Nat) {s : Bool} (hs : s = true) : infoAfter c a b r d x g i s ≠ 0 := by
  subst hs
  unfold infoAfter
  simp only
  split_ifs <;> first | (simp_all; done) | (intro h; cases h; done)

/-- **C99.** Once Ctrl-C has been typed, each further fit ends after at most one step: one turn of the outer loop and one turn of the inner loop; with one of the end
codes 1–8 or 100 (`MP_SIGINT`), all of them positive. The result is allowed by the limits. Missing from the full claim: exact arithmetic, moderate sizes. -/
theorem C99_ends_partial (F : Fit dev D limitsExist ls pars x0) (ftol : XR) (stop : ℕ → Bool) (hstop : ∀ k, stop k = true) :
    ∃ r, (∀ fuel, 2 ≤ fuel → levMarFull dev m ftol limitsExist pars stop fuel (reals x0) = .ok r) ∧ r.status ∈ [1, 2, 3, 4, 5, 6, 7, 8, 100] ∧
      ∃ x, r.xall = reals x ∧ Allowed ls x0 x := by
  obtain ⟨n, fr, lims, h1, h2, S, hn, hnp, hex, h3⟩ := F.setup ftol
  obtain ⟨st', e, J, g1, gi, gx, g2, g3, g4, g5⟩ := outer_run S (startSt_ok F)
  rcases g2 with rfl | rfl
  · obtain ⟨-, E, d, xn, hI, -⟩ := g5 rfl
    obtain ⟨T⟩ := inner_turn S hI (stop st'.s.kIn)
    obtain ⟨st2, nx, la, k1, -, -, ⟨x', r1, r2⟩, k3, -, -⟩ := inner_run S hI (stop st'.s.kIn)
    have hnx : ∃ i, nx = .stop i := by
      have := T.run
      rw [k1] at this
      have := congrArg Prod.snd (Except.ok.inj this)
      simp only at this
      exact ⟨_, this.trans (if_pos (infoAfter_stop _ _ _ _ _ _ _ _ (hstop _)))⟩
    obtain ⟨i, rfl⟩ := hnx
    obtain ⟨out, o1, o2, o3⟩ := leave_reals (o := mpEnorm (dev (reals x0)) * mpEnorm (dev (reals x0))) S (r := (st2.s, i)) (k3 i rfl) r1 r2
    refine ⟨out, fun fuel hf => ?_, by rw [o2]; exact k3 i rfl, x', o3, reach_allowed F hex r1⟩
    obtain ⟨fuel, rfl⟩ := Nat.exists_eq_add_of_le hf
    rw [levMarFull_eq F h1 h2 hn hnp h3, Nat.add_comm]
    simp only [fullLoop, g1, k1, ok_bind]
    exact o1
  · obtain ⟨out, o1, o2, o3⟩ := leave_reals (o := mpEnorm (dev (reals x0)) * mpEnorm (dev (reals x0))) S (r := (st'.s, MP_OK_DIR)) (by simp [endCodes, MP_OK_DIR])
      (startSt_ok F).base.reach gx
    refine ⟨out, fun fuel hf => ?_, by rw [o2]; simp [MP_OK_DIR], x0, o3, reach_allowed F hex (startSt_ok F).base.reach⟩
    obtain ⟨fuel, rfl⟩ := Nat.exists_eq_add_of_le hf
    rw [levMarFull_eq F h1 h2 hn hnp h3, Nat.add_comm]
    simp only [fullLoop, g1, ok_bind]
    exact o1

end

/-! ### A fit broken off -/

/-- One deviate of one parameter, zero at six: `x - 4`, but `x / 2 - 3` above two. -/
noncomputable def kinkD (x : Fin 1 → ℝ) (_ : Fin 1) : ℝ := min (x 0 - 4) (x 0 / 2 - 3)

noncomputable def kinkDev : List XR → List XR
  | [fin x] => [fin (min (x - 4) (x / 2 - 3))]
  | _ => []

theorem kink_fit : Fit kinkDev kinkD false (fun _ => noLimit) [⟨false, false, false, fin 0, fin 0⟩] (fun _ => 1) where
  comp := by
    intro x
    simp [reals, kinkDev, kinkD]
  pars := by
    refine List.Forall₂.cons ?_ List.Forall₂.nil
    exact ⟨rfl, ⟨rfl, rfl, fun a h => (by cases h), fun a h => (by cases h)⟩⟩
  lims := Or.inr fun _ => rfl
  start := fun _ => ⟨fun a h => (by cases h), fun a h => by cases h⟩
  order := fun _ a b _ h => by cases h
  hfree := ⟨0, rfl⟩
  enough := le_rfl
  size := by norm_num
  cols := by
    intro x _ k h _ hh
    obtain rfl : k = 0 := Subsingleton.elim _ _
    rw [Fin.sum_univ_one, Nat.cast_one, div_one]
    have hl := largeSize_big
    have hh0 : 0 < |h| := by rw [hh]; exact stepSize_pos _
    have hq : |quotient kinkD x 0 h 0| ≤ 1 := by
      unfold quotient kinkD
      simp only [Function.update_self]
      rw [abs_div, div_le_one hh0]
      refine (abs_min_sub_min_le_max _ _ _ _).trans (max_le (le_of_eq ?_) ?_)
      · congr 1; ring
      · have : (x 0 + h) / 2 - 3 - (x 0 / 2 - 3) = h / 2 := by ring
        rw [this, abs_div, abs_two]
        linarith
    have := abs_le.1 hq
    nlinarith

/-- Near one, the deviate has slope one. -/
theorem kink_jac {n : ℕ} {fr : Fin n → Fin 1} {J : Matrix (Fin 1) (Fin n) ℝ} (hJ : TurnJac kinkD fr (fun _ => noLimit) (fun _ => 1) J) : J = fun _ _ => 1 := by
  obtain ⟨t, h1, -, rfl⟩ := hJ
  funext i j
  unfold cleared
  rw [if_neg (by rintro (⟨h1, _⟩ | ⟨h1, _⟩) <;> cases h1)]
  have ht := h1 j
  have h0 := stepSize_pos (1 : ℝ)
  have h2 : stepSize (1 : ℝ) < 1 := by
    unfold stepSize
    rw [if_neg one_ne_zero, abs_one, mul_one]
    exact eps_small.trans (by norm_num)
  have ht1 : t j < 1 := lt_of_le_of_lt (le_abs_self _) (ht ▸ h2)
  have ht0 : t j ≠ 0 := by
    intro e
    rw [e, abs_zero] at ht
    exact h0.ne ht
  have hf : fr j = 0 := Subsingleton.elim _ _
  unfold Spec.quotient kinkD
  simp only [hf, Function.update_self]
  rw [min_eq_left (by linarith), min_eq_left (by norm_num)]
  field_simp
  ring

/-- The first step of the fit that is broken off. -/
theorem kink_turn {n : ℕ} {fr : Fin n → Fin 1} {lims : List (FreeLim XR)} (hn : n = 1)
    (S : Setup kinkDev kinkD fr lims (fun _ => noLimit) (fun _ => 1) (levMarConf (fin (1 / 10 ^ 8)))) (hlims : anyLim lims ≠ true)
    {E : Fin n → ℝ} {d xn : ℝ} {st : FullSt XR} {J : Matrix (Fin 1) (Fin n) ℝ} (hJ : J = fun _ _ => 1)
    (hI : InnerOk kinkD fr (fun _ => noLimit) (fun _ => 1) (fun _ => 1) J E d xn st) (hi : st.s.iter = 1)
    (hF : FirstScale (levMarConf (fin (1 / 10 ^ 8))) J E (fun _ => 1) d xn) (hg : fle st.s.gnorm (fin (1 / 10 ^ 10)) = false) :
    ∃ st', innerFull kinkDev (levMarConf (fin (1 / 10 ^ 8))) (freeList fr) lims true st = .ok (st', .stop 100) ∧ st'.s.x = reals fun _ : Fin n => (4 : ℝ) := by
  subst hn
  have hl := largeSize_big
  have hE : ∀ j, E j = 1 := by
    intro j
    have e : colLength J j = 1 := by
      unfold colLength
      rw [hJ, Fin.sum_univ_one]
      norm_num
    rw [hF.cols, e, if_neg one_ne_zero]
  have hv : ∀ a : ℝ, a ^ 2 < 10 ^ 18 → vecNorm 1 (fun l => fin (natVec (fun j : Fin 1 => E j * a) l)) = fin |a| := by
    intro a ha
    have e : ∑ l ∈ Finset.range 1, natVec (fun j : Fin 1 => E j * a) l ^ 2 = a ^ 2 := by
      rw [Finset.sum_range, Fin.sum_univ_one, natVec_val, hE, one_mul]
    rw [vecNorm_exact (fun _ _ => rfl) (by
      rw [e, Nat.cast_one, div_one]
      nlinarith), e, Real.sqrt_sq_eq_abs]
  have hxn : xn = 1 := by
    have e := hF.size
    rw [hv 1 (by norm_num), abs_one] at e
    exact (XR.fin.inj e).symm
  have hd : d = 100 := by
    rw [hF.delta 100 (by simp [levMarConf, lit_def]), hxn]
    norm_num
  have hD1 : kinkD (fun _ => 1) = fun _ => (-3 : ℝ) := by
    funext i
    unfold kinkD
    norm_num
  obtain ⟨T⟩ := inner_turn S hI true
  obtain ⟨a, ha, hr, hip, hqt⟩ := hI.arr
  have hgn := lmpar_gn S.hnm J (kinkD fun _ => 1) E a (ofEntries (reals (kinkD fun _ => 1))) st.diag ha (holds_entries _) hI.scale.diag hI.cols hI.scale.pos d
    st.s.par hI.scale.dpos (fun _ => 0) (fun _ => 0) st.r hr (fun _ => -3) (fun v hv => by
      have := congrFun hv 0
      have hJ0 : J 0 0 = 1 := by rw [hJ]
      rw [hD1] at this
      simp only [Matrix.mulVec, dotProduct, Matrix.mul_apply, Matrix.transpose_apply, Fin.sum_univ_one, hJ0, one_mul] at this
      funext j
      obtain rfl : j = 0 := Subsingleton.elim _ _
      exact this) (s := 3) (by
      rw [hv (-3) (by norm_num)]
      norm_num) (by rw [hd]; norm_num)
  rw [← hip, ← hqt, ← hI.scale.delta] at hgn
  have hq : T.q = 0 := by
    have := T.lmq
    rw [hgn.1] at this
    exact (XR.fin.inj this).symm
  have hw : T.w = fun _ => -3 := by
    funext j
    have := T.lmw j
    rw [hgn.2 j] at this
    exact (XR.fin.inj this).symm
  obtain ⟨hy, hs, hal⟩ := T.nolim hlims
  have hy4 : T.y = fun _ => 4 := by
    funext k
    have := hy 0
    rw [hw] at this
    rw [Subsingleton.elim k (fr 0), this]
    norm_num
  have hf : T.f = 3 := by
    have := T.ef
    rw [mpEnorm_exact _ (by rw [hD1, Fin.sum_univ_one, Nat.cast_one, div_one]; nlinarith), hD1, Fin.sum_univ_one, Real.sqrt_sq_eq_abs] at this
    rw [← XR.fin.inj this]
    norm_num
  have hD4 : kinkD (fun _ => 4) = fun _ => (-1 : ℝ) := by
    funext i
    unfold kinkD
    norm_num
  have hg1 : T.g = 1 := by
    have := T.eg
    rw [hy4, mpEnorm_exact _ (by rw [hD4, Fin.sum_univ_one, Nat.cast_one, div_one]; nlinarith), hD4, Fin.sum_univ_one, Real.sqrt_sq_eq_abs] at this
    rw [← XR.fin.inj this]
    norm_num
  have hjs : ∑ i, ((J *ᵥ T.s) i) ^ 2 = 9 := by
    rw [hs, hw, hJ, Fin.sum_univ_one]
    simp [Matrix.mulVec, dotProduct]
    norm_num
  have hss : scaledSize E T.s = 9 := by
    unfold scaledSize
    rw [hs, hw, Fin.sum_univ_one, hE]
    simp
    norm_num
  obtain ⟨hjn, hpn⟩ := stepLA_norms S.hnm J E a st.diag ha hI.scale.diag hI.cols T.la.2 (fun i k hik hk => by rw [T.tri i k hik hk, hr i k hik hk]) T.s
    (ofEntries (reals T.s)) (fun _ => 0) (holds_entries _) (by rw [hjs, Nat.cast_one, div_one]; nlinarith) (by rw [hss, Nat.cast_one, div_one]; nlinarith) 0 0 [] true
  have h9 : Real.sqrt 9 = 3 := by
    rw [show (9 : ℝ) = 3 ^ 2 by norm_num, Real.sqrt_sq (by norm_num)]
  have hjn' : T.jn = 3 := by
    have := T.ejn
    unfold stepLA at hjn
    simp only at hjn
    rw [hip] at this
    rw [hjn, hjs, h9] at this
    exact (XR.fin.inj this).symm
  have hpn' : T.pn = 3 := by
    have := T.epn
    unfold stepLA at hpn
    simp only at hpn
    rw [hpn, hss, h9] at this
    exact (XR.fin.inj this).symm
  have hP : T.P = 1 := by
    rw [T.eP, hal, hq, hjn', hf]
    norm_num
  have hA : T.A = 8 / 9 := by
    have := T.eA
    unfold actRed at this
    rw [lit_def, fin_mul, flt_fin, hf, hg1, if_pos (by
      rw [decide_eq_true_eq]
      push_cast
      norm_num), fin_div_of_ne (by norm_num), fin_mul, one_def, fin_sub] at this
    rw [← XR.fin.inj this]
    norm_num
  have hR : T.R = 8 / 9 := by
    rw [T.eR, hP, hA]
    norm_num
  have hd' : T.d' = 6 := by
    have := T.upd
    unfold updateDelta at this
    rw [hR, hpn', lit_def, fle_fin, if_neg (by rw [decide_eq_true_eq]; push_cast; norm_num), lit_def, fle_fin, if_pos (by
      rw [Bool.or_eq_true, decide_eq_true_eq]
      right
      push_cast
      norm_num), lit_def, fin_div_of_ne (by norm_num)] at this
    rw [← XR.fin.inj (congrArg Prod.fst this)]
    norm_num
  have hxn' : T.xn' = 4 := by
    have := T.exn
    rw [hy4] at this
    have e : vecNorm 1 (fun l => st.diag l * ofEntries (reals fun _ : Fin 1 => (4 : ℝ)) l) = vecNorm 1 (fun l => fin (natVec (fun j : Fin 1 => E j * 4) l)) := by
      unfold vecNorm
      rw [List.map_congr_left fun l hl => ?_]
      have hl' := List.mem_range.1 hl
      have e1 := hI.scale.diag ⟨l, hl'⟩
      have e3 := natVec_val (fun j : Fin 1 => E j * 4) ⟨l, hl'⟩
      simp only at e1 e3
      rw [e1, e3, ofEntries_reals _ hl', fin_mul]
    rw [e, hv 4 (by norm_num)] at this
    rw [← XR.fin.inj this]
    norm_num
  have hgood : 1 / 10000 ≤ T.R := by rw [hR]; norm_num
  have hrun := T.run
  rw [T.sdelta, T.sxnorm, if_pos hgood, T.siter, if_pos hgood, hi, hA, hP, hR, hd', hxn'] at hrun
  have hinfo : infoAfter (levMarConf (fin (1 / 10 ^ 8))) (fin (8 / 9)) (fin 1) (fin (8 / 9)) (fin 6) (fin 4) st.s.gnorm (1 + 1) true = 100 := by
    have c1 : ∀ t : ℝ, t < 1 / 2 → chiSmall (fin t) (fin (8 / 9)) (fin 1) (fin (8 / 9)) = false := by
      intro t ht
      unfold chiSmall
      rw [fle_fin (1 : ℝ), decide_eq_false (by linarith)]
      simp
    have c2 : (levMarConf (fin (1 / 10 ^ 8))).ftol = fin (1 / 10 ^ 8) := by
      unfold levMarConf
      simp only
      rw [zero_def, flt_fin, if_pos (by rw [decide_eq_true_eq]; norm_num)]
    have c3 : ∀ t : ℝ, t < 1 → fle (fin 6) (fin t * fin 4) = false := by
      intro t ht
      rw [fin_mul, fle_fin, decide_eq_false_iff_not]
      linarith
    have c4 : (lit MACHEP0 : XR) = fin ((MACHEP0 : ℚ) : ℝ) := lit_def _
    have c5 : ((MACHEP0 : ℚ) : ℝ) < 1 / 10 ^ 10 := by
      unfold MACHEP0
      norm_num
    have c6 : fle st.s.gnorm (fin ((MACHEP0 : ℚ) : ℝ)) = false := fle_mono hg c5.le
    unfold infoAfter
    simp only
    rw [c2, c1 _ (by norm_num), c4, c1 _ (by linarith), c3 _ (by linarith), c6]
    have c7 : fle (fin 6) ((levMarConf (fin (1 / 10 ^ 8))).xtol * fin 4) = false := by
      have : (levMarConf (fin (1 / 10 ^ 8))).xtol = fin (1 / 10 ^ 10) := by
        simp [levMarConf, lit_def]
      rw [this]
      exact c3 _ (by norm_num)
    rw [c7]
    simp [levMarConf, MP_SIGINT]
  rw [hinfo] at hrun
  refine ⟨T.st', hrun.trans (by simp [lmNext]), ?_⟩
  rw [T.sx, if_pos hgood, hy4]

/-- The fit, broken off: it ends at four. -/
theorem kink_broken : ∃ r, (∀ fuel, 2 ≤ fuel → levMarFull kinkDev 1 (fin (1 / 10 ^ 8)) false [⟨false, false, false, fin 0, fin 0⟩] (fun _ => true) fuel [fin 1] = .ok r) ∧
    r.status = 100 ∧ r.xall = [fin 4] := by
  obtain ⟨n, fr, lims, h1, h2, S, hn, hnp, hex, h3⟩ := kink_fit.setup (fin (1 / 10 ^ 8))
  obtain rfl : n = 1 := by omega
  have hlims : anyLim lims ≠ true := by
    rcases S.lims with ⟨h, -⟩ | ⟨h, hd⟩
    · rw [h]; simp [anyLim]
    · intro hany
      unfold anyLim at hany
      rw [List.any_eq_true] at hany
      obtain ⟨l, hl, hb⟩ := hany
      obtain ⟨i, hi, rfl⟩ := List.getElem_of_mem hl
      have := hd ⟨i, by omega⟩ lims[i] (by simp [hi])
      rw [this.ql, this.qu] at hb
      simp [noLimit] at hb
  obtain ⟨st', e, J, g1, gi, gx, g2, g3, g4, g5⟩ := outer_run S (startSt_ok kink_fit)
  have hJ := kink_jac g3
  have hgt : (levMarConf (fin (1 / 10 ^ 8))).gtol = fin (1 / 10 ^ 10) := by
    simp [levMarConf, lit_def]
  have hcols : ColumnsBelow J (largeSize / ((1 : ℕ) : ℝ)) := by
    obtain ⟨t, t1, -, t3⟩ := g3
    rw [t3]
    exact cleared_below _ _ _ _ (S.cols _ (startSt_ok kink_fit).base.reach t t1)
  have hl := largeSize_big
  have hD1 : kinkD (fun _ => 1) = fun _ => (-3 : ℝ) := by
    funext i
    unfold kinkD
    norm_num
  have he : e = none := by
    obtain ⟨g, k1, k2, -, k4, -⟩ := C95_gradient_partial S.hnm J _ (holds_columns J) hcols (kinkD fun _ => 1) _ (holds_entries _) (by
      rw [hD1, Fin.sum_univ_one, Nat.cast_one, div_one]
      nlinarith)
    refine g4.2 ?_
    rw [k1, hgt, fle_fin, decide_eq_false_iff_not]
    intro hsm
    have := k4 0
    have e1 : halfGrad J (kinkD fun _ => 1) 0 = -3 := by
      unfold halfGrad
      rw [hJ, hD1, Fin.sum_univ_one]
      norm_num
    have e2 : Spec.length (kinkD fun _ => 1) = 3 := by
      unfold Spec.length
      rw [hD1, Fin.sum_univ_one, Real.sqrt_sq_eq_abs]
      norm_num
    have e3 : colLength J 0 = 1 := by
      unfold colLength
      rw [hJ, Fin.sum_univ_one]
      norm_num
    rw [e1, e2, e3, abs_of_neg (by norm_num)] at this
    linarith
  subst he
  obtain ⟨hgn, E, d, xn, hI, hfirst⟩ := g5 rfl
  rw [hgt] at hgn
  obtain ⟨st2, k1, k2⟩ := kink_turn rfl S hlims hJ hI gi (hfirst rfl) hgn
  obtain ⟨out, o1, o2, o3⟩ := leave_reals (o := mpEnorm (kinkDev (reals fun _ : Fin 1 => 1)) * mpEnorm (kinkDev (reals fun _ : Fin 1 => 1))) S (r := (st2.s, 100))
    (x := fun _ => 4) (by simp [endCodes]) ⟨fun k hk => absurd ⟨0, Subsingleton.elim _ _⟩ hk, fun j => ⟨fun a h => (by cases h), fun a h => by cases h⟩⟩ k2
  refine ⟨out, fun fuel hf => ?_, o2, by rw [o3]; simp [reals]⟩
  have e1 : [fin 1] = reals fun _ : Fin 1 => (1 : ℝ) := by simp [reals]
  obtain ⟨fuel, rfl⟩ := Nat.exists_eq_add_of_le hf
  rw [e1, levMarFull_eq kink_fit h1 h2 hn hnp h3, Nat.add_comm]
  simp only [fullLoop, g1, k1, ok_bind]
  exact o1

/-! ### What is counted -/

/-- The number returned is that of the fits with positive status. -/
theorem boot_count {α : Type} [FP α] (fit : Nat → FitOut α) (offsets : List α) (nParams : Nat) (a : List (List α)) : ∀ (nIter : Nat) (r : List (List α) × Nat),
    forN nIter (a, 0) (fun k st => bootIter (fit k) offsets nParams st) = .ok r → r.2 = (okIters (fun k => (fit k).status) nIter).length := by
  intro nIter
  induction nIter with
  | zero => intro r h; cases h; rfl
  | succ nIter ih =>
    intro r h
    obtain ⟨r1, h1, h2⟩ := bind_ok h
    rw [okIters_succ, List.length_append, ← ih r1 h1]
    unfold bootIter at h2
    beta_reduce at h2
    split_ifs at h2 ⊢ with hs
    · obtain ⟨b, -, h3⟩ := bind_ok h2
      cases h3
      rfl
    · cases h2
      rfl

/-- **C99.** A bootstrap run in which Ctrl-C is typed before sample `k0` is fitted: every fit from then on, though it makes at most one step, is counted as successful. The
number of successful fits is the number among the first `k0` samples plus all the rest. Missing from the full claim: exact arithmetic, moderate sizes. -/
theorem C99_counted_partial {p m : ℕ} (dev : ℕ → List XR → List XR) (D : ℕ → (Fin p → ℝ) → Fin m → ℝ) (limitsExist : Bool) (ls : Fin p → Limit) (pars : List (MPPar XR))
    (x0 : Fin p → ℝ) (F : ∀ k, Fit (dev k) (D k) limitsExist ls pars x0) (ftol : XR) (stop : ℕ → ℕ → Bool) (nIter k0 : ℕ) (hk : k0 ≤ nIter)
    (hstop : ∀ k, k0 ≤ k → ∀ t, stop k t = true) (fuel : ℕ) (hf : 2 ≤ fuel) (fit : ℕ → FitOut XR)
    (hfit : ∀ k, k < nIter → ∃ r, levMarFull (dev k) m ftol limitsExist pars (stop k) fuel (reals x0) = .ok r ∧ fit k = ⟨r.status, r.xall⟩)
    (offsets : List XR) (rows : List (List XR)) (n : ℕ) (h : bootstrapBase fit offsets p nIter = .ok (rows, n)) :
    n = ((List.range k0).filter fun k => decide (0 < (fit k).status)).length + (nIter - k0) := by
  have h1 := boot_count fit offsets p _ nIter _ h
  simp only at h1
  rw [h1]
  obtain ⟨e, rfl⟩ := Nat.exists_eq_add_of_le hk
  have hpos : ∀ k, k0 ≤ k → k < k0 + e → 0 < (fit k).status := by
    intro k hk1 hk2
    obtain ⟨r, h2, h3⟩ := hfit k hk2
    obtain ⟨r', h4, h5, -⟩ := C99_ends_partial (F k) ftol (stop k) (hstop k hk1)
    rw [h4 fuel hf] at h2
    cases h2
    rw [h3]
    simp only [List.mem_cons, List.not_mem_nil, or_false] at h5
    simp only
    omega
  clear h h1 hfit hk
  induction e with
  | zero => simp [okIters]
  | succ e ih =>
    rw [← Nat.add_assoc, okIters_succ, if_pos (hpos _ (Nat.le_add_right _ _) (by omega)), List.length_append, ih fun k g1 g2 => hpos k g1 (by omega)]
    simp only [List.length_cons, List.length_nil]
    omega

/-- **C99 is false of the code as "only fits that have ended by themselves are counted".** The deviate is zero at six; the fits of three samples (here all the same),
started at one and broken off by Ctrl-C, end at four with status 100, and all three results enter the statistics. -/
theorem C99_counted_false : ¬ ∀ (p m : ℕ) (dev : List XR → List XR) (D : (Fin p → ℝ) → Fin m → ℝ) (limitsExist : Bool) (ls : Fin p → Limit) (pars : List (MPPar XR))
    (x0 : Fin p → ℝ) (_ : Fit dev D limitsExist ls pars x0) (ftol : XR) (stop : ℕ → Bool) (fuel : ℕ) (r : LMOut XR) (nIter : ℕ) (rows : List (List XR)) (n : ℕ),
    levMarFull dev m ftol limitsExist pars stop fuel (reals x0) = .ok r →
    bootstrapBase (fun _ => ⟨r.status, r.xall⟩) (List.replicate p 0) p nIter = .ok (rows, n) → 0 < n → r.status ≠ 100 := by
  intro h
  obtain ⟨r, h1, h2, h3⟩ := kink_broken
  have e1 : [fin 1] = reals fun _ : Fin 1 => (1 : ℝ) := by simp [reals]
  have := h1 2 le_rfl
  rw [e1] at this
  refine h 1 1 _ _ _ _ _ _ kink_fit _ _ 2 r 3 [[fin 4, fin 4, fin 4]] 3 this ?_ (by norm_num) h2
  rw [h2, h3]
  simp [bootstrapBase, bootIter, storeRow, forN, rd, wr]

/-- Three samples, Ctrl-C during the first: all are counted. -/
example (rows : List (List XR)) (n : ℕ) (r : LMOut XR)
    (hr : levMarFull kinkDev 1 (fin (1 / 10 ^ 8)) false [⟨false, false, false, fin 0, fin 0⟩] (fun _ => true) 2 (reals fun _ : Fin 1 => 1) = .ok r)
    (h : bootstrapBase (fun _ => ⟨r.status, r.xall⟩) [0] 1 3 = .ok (rows, n)) : n = 3 :=
  C99_counted_partial (fun _ => kinkDev) (fun _ => kinkD) false (fun _ => noLimit) _ (fun _ => 1) (fun _ => kink_fit) (fin (1 / 10 ^ 8)) (fun _ _ => true) 3 0
    (Nat.zero_le _) (fun _ _ _ => rfl) 2 le_rfl (fun _ => ⟨r.status, r.xall⟩) (fun _ _ => ⟨r, hr, rfl⟩) [0] rows n h

end Imfit
