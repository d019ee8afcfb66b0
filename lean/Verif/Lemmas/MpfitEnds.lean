import Verif.Lemmas.MpfitTurns
import Verif.Props.C27

/-!
# The loops of `mpfit` end, and how `mpfit` reaches them
-/

namespace Imfit
open XR Finset Spec Matrix

section
variable {p m n : ℕ} {dev : List XR → List XR} {D : (Fin p → ℝ) → Fin m → ℝ} {fr : Fin n → Fin p} {lims : List (FreeLim XR)} {ls : Fin n → Limit}
  {x0 : Fin p → ℝ} {c : MPConf XR} {stop : ℕ → Bool}

/-- The loops end with one of the codes, at a point that a fit may visit. -/
def Ends (dev : List XR → List XR) (m : ℕ) (c : MPConf XR) (fr : Fin n → Fin p) (lims : List (FreeLim XR)) (ls : Fin n → Limit) (x0 : Fin p → ℝ)
    (stop : ℕ → Bool) (b : Bool) (st : FullSt XR) : Prop :=
  ∃ N r, (∀ fuel, N ≤ fuel → fullLoop dev m c (freeList fr) lims stop fuel b st = .ok r) ∧ r.2 ∈ endCodes ∧
    ∃ x, Reach fr ls x0 x ∧ r.1.x = reals fun j => x (fr j)

theorem inner_ends (S : Setup dev D fr lims ls x0 c) {x : Fin p → ℝ} (hx : ∃ j, x (fr j) ≠ 0) {J : Matrix (Fin m) (Fin n) ℝ} {E : Fin n → ℝ} {xn : ℝ} {it : ℕ}
    (hout : ∀ x' st', OuterOk D fr ls x0 x' st' → st'.s.iter = it + 1 → st'.s.iter < c.maxiter → Ends dev m c fr lims ls x0 stop true st') :
    ∀ (k : ℕ) (d : ℝ) (st : FullSt XR), (∀ t, c.xtol = fin t → d ≤ 2 ^ k * (t * xn)) → st.s.iter = it → InnerOk D fr ls x0 x J E d xn st →
      Ends dev m c fr lims ls x0 stop false st := by
  obtain ⟨xt, hxt1, hxt2⟩ := S.xtol
  intro k
  induction k with
  | zero =>
    intro d st hd hi h
    obtain ⟨st', nx, la, h1, -, -, h2, h3, h4, h5⟩ := inner_run S h (stop st.s.kIn)
    have hd' := hd xt hxt1
    cases nx with
    | stop i =>
      refine ⟨1, (st'.s, i), fun fuel hf => ?_, h3 i rfl, h2⟩
      obtain ⟨fuel, rfl⟩ := Nat.exists_eq_add_of_le hf
      rw [Nat.add_comm]
      simp only [fullLoop, h1, ok_bind]
      rfl
    | inner =>
      exfalso
      obtain ⟨-, d', a1, a2, -⟩ := h4 rfl
      have := a2 xt hxt1
      have := h.scale.dpos
      rw [pow_zero, one_mul] at hd'
      linarith
    | outer =>
      obtain ⟨a1, a2, x', a3⟩ := h5 rfl
      obtain ⟨N, r, b1, b2⟩ := hout x' st' a3 (by rw [a1, hi]) a2
      refine ⟨N + 1, r, fun fuel hf => ?_, b2⟩
      obtain ⟨fuel, rfl⟩ := Nat.exists_eq_add_of_le hf
      rw [Nat.add_right_comm]
      simp only [fullLoop, h1, ok_bind]
      exact b1 _ (by omega)
  | succ k ih =>
    intro d st hd hi h
    obtain ⟨st', nx, la, h1, -, -, h2, h3, h4, h5⟩ := inner_run S h (stop st.s.kIn)
    have hd' := hd xt hxt1
    cases nx with
    | stop i =>
      refine ⟨1, (st'.s, i), fun fuel hf => ?_, h3 i rfl, h2⟩
      obtain ⟨fuel, rfl⟩ := Nat.exists_eq_add_of_le hf
      rw [Nat.add_comm]
      simp only [fullLoop, h1, ok_bind]
      rfl
    | inner =>
      obtain ⟨a0, d', a1, a2, a3⟩ := h4 rfl
      obtain ⟨N, r, b1, b2⟩ := ih d' st' (fun t ht => by
        have := hd t ht
        rw [pow_succ] at this
        linarith) (by rw [a0, hi]) a3
      refine ⟨N + 1, r, fun fuel hf => ?_, b2⟩
      obtain ⟨fuel, rfl⟩ := Nat.exists_eq_add_of_le hf
      rw [Nat.add_right_comm]
      simp only [fullLoop, h1, ok_bind]
      exact b1 _ (by omega)
    | outer =>
      obtain ⟨a1, a2, x', a3⟩ := h5 rfl
      obtain ⟨N, r, b1, b2⟩ := hout x' st' a3 (by rw [a1, hi]) a2
      refine ⟨N + 1, r, fun fuel hf => ?_, b2⟩
      obtain ⟨fuel, rfl⟩ := Nat.exists_eq_add_of_le hf
      rw [Nat.add_right_comm]
      simp only [fullLoop, h1, ok_bind]
      exact b1 _ (by omega)

/-- If the free parameters are never all zero, the loops end. -/
theorem outer_ends (S : Setup dev D fr lims ls x0 c) (hpos : ∀ x, Reach fr ls x0 x → ∃ j, x (fr j) ≠ 0) :
    ∀ (M : ℕ) (x : Fin p → ℝ) (st : FullSt XR), c.maxiter ≤ st.s.iter + M → OuterOk D fr ls x0 x st → Ends dev m c fr lims ls x0 stop true st := by
  obtain ⟨xt, hxt1, hxt2⟩ := S.xtol
  intro M
  induction M with
  | zero =>
    intro x st hM h
    obtain ⟨st', e, J, h1, hi, hx, h2, -, -, h3⟩ := outer_run S h
    rcases h2 with rfl | rfl
    · obtain ⟨-, E, d, xn, h4, -⟩ := h3 rfl
      have hj := hpos x h.base.reach
      have hxn : 0 < xn := lt_of_le_of_ne h4.scale.xnn fun e => by
        obtain ⟨j, hj⟩ := hj
        exact hj (h4.scale.xzero.1 e.symm j)
      obtain ⟨k, hk⟩ := pow_unbounded_of_one_lt (d / (xt * xn)) one_lt_two
      obtain ⟨N, r, b1, b2⟩ := inner_ends (it := st.s.iter) (stop := stop) S hj (fun x' s' _ ei el => by omega) k d st' (fun t ht => by
        rw [hxt1] at ht
        rw [← XR.fin.inj ht]
        rw [div_lt_iff₀ (mul_pos hxt2 hxn)] at hk
        exact hk.le) hi h4
      refine ⟨N + 1, r, fun fuel hf => ?_, b2⟩
      obtain ⟨fuel, rfl⟩ := Nat.exists_eq_add_of_le hf
      rw [Nat.add_right_comm]
      simp only [fullLoop, h1, ok_bind]
      exact b1 _ (by omega)
    · refine ⟨1, (st'.s, MP_OK_DIR), fun fuel hf => ?_, by simp [endCodes, MP_OK_DIR], x, h.base.reach, hx.trans h.base.ex⟩
      obtain ⟨fuel, rfl⟩ := Nat.exists_eq_add_of_le hf
      rw [Nat.add_comm]
      simp only [fullLoop, h1, ok_bind]
      rfl
  | succ M ih =>
    intro x st hM h
    obtain ⟨st', e, J, h1, hi, hx, h2, -, -, h3⟩ := outer_run S h
    rcases h2 with rfl | rfl
    · obtain ⟨-, E, d, xn, h4, -⟩ := h3 rfl
      have hj := hpos x h.base.reach
      have hxn : 0 < xn := lt_of_le_of_ne h4.scale.xnn fun e => by
        obtain ⟨j, hj⟩ := hj
        exact hj (h4.scale.xzero.1 e.symm j)
      obtain ⟨k, hk⟩ := pow_unbounded_of_one_lt (d / (xt * xn)) one_lt_two
      obtain ⟨N, r, b1, b2⟩ := inner_ends (it := st.s.iter) (stop := stop) S hj (fun x' s' ho ei el => ih x' s' (by omega) ho) k d st' (fun t ht => by
        rw [hxt1] at ht
        rw [← XR.fin.inj ht]
        rw [div_lt_iff₀ (mul_pos hxt2 hxn)] at hk
        exact hk.le) hi h4
      refine ⟨N + 1, r, fun fuel hf => ?_, b2⟩
      obtain ⟨fuel, rfl⟩ := Nat.exists_eq_add_of_le hf
      rw [Nat.add_right_comm]
      simp only [fullLoop, h1, ok_bind]
      exact b1 _ (by omega)
    · refine ⟨1, (st'.s, MP_OK_DIR), fun fuel hf => ?_, by simp [endCodes, MP_OK_DIR], x, h.base.reach, hx.trans h.base.ex⟩
      obtain ⟨fuel, rfl⟩ := Nat.exists_eq_add_of_le hf
      rw [Nat.add_comm]
      simp only [fullLoop, h1, ok_bind]
      rfl

end

/-! ### From `LevMarFit` to the loops -/

/-- A fit of deviates that are real functions of the parameters: the start is within the limits, lower limits are below upper ones, some parameter is free, there are
not fewer deviates than parameters, the size of the Jacobian is an `int`, and the difference quotients have moderate size. -/
structure Fit {p m : ℕ} (dev : List XR → List XR) (D : (Fin p → ℝ) → Fin m → ℝ) (limitsExist : Bool) (ls : Fin p → Limit) (pars : List (MPPar XR))
    (x0 : Fin p → ℝ) : Prop where
  comp : Computes dev D
  pars : List.Forall₂ IsPar (List.ofFn ls) pars
  lims : limitsExist = true ∨ ∀ k, ls k = noLimit
  start : ∀ k, (ls k).Within (x0 k)
  order : ∀ k a b, (ls k).fixed = false → (ls k).lower = some a → (ls k).upper = some b → a < b
  hfree : ∃ k, (ls k).fixed = false
  enough : p ≤ m
  size : p * m ≤ 2147483647
  cols : ∀ x, Allowed ls x0 x → ∀ k h, (ls k).fixed = false → |h| = stepSize (x k) → ∑ i, quotient D x k h i ^ 2 < (largeSize / m) ^ 2

theorem levMarConf_ok (ftol : XR) : badConf (levMarConf ftol) = false := by
  have h1 : fle (if flt 0 ftol = true then ftol else lit (1 / 10 ^ 10)) (0 : XR) = false := by
    split_ifs with h
    · rw [zero_def] at h ⊢
      cases ftol with
      | fin a =>
        rw [flt_fin, decide_eq_true_eq] at h
        rw [fle_fin, decide_eq_false_iff_not, not_le]
        exact h
      | pinf => rfl
      | ninf => cases h
      | nan => rfl
    · rw [zero_def, lit_def, fle_fin, decide_eq_false_iff_not]
      norm_num
  have h2 : fle (lit (1 / 10 ^ 10) : XR) 0 = false := by
    rw [zero_def, lit_def, fle_fin, decide_eq_false_iff_not]
    norm_num
  have h3 : fle (lit 100 : XR) 0 = false := by
    rw [zero_def, lit_def, fle_fin, decide_eq_false_iff_not]
    norm_num
  unfold badConf levMarConf
  simp only [h1, h2, h3, Bool.false_or, Bool.or_false]

theorem checkPars_none : ∀ {ps : List (MPPar XR)} {xs : List XR}, (∀ (i : ℕ) (p : MPPar XR) (x : XR), ps[i]? = some p → xs[i]? = some x → checkPar p x = none) → checkPars ps xs = none
  | [], _, _ => by simp [checkPars]
  | p :: ps, [], _ => by simp [checkPars]
  | p :: ps, x :: xs, h => by
    unfold checkPars
    rw [h 0 p x rfl rfl]
    exact checkPars_none fun i p x h1 h2 => h (i + 1) p x (by simpa using h1) (by simpa using h2)

section
variable {p m : ℕ} {dev : List XR → List XR} {D : (Fin p → ℝ) → Fin m → ℝ} {limitsExist : Bool} {ls : Fin p → Limit} {pars : List (MPPar XR)} {x0 : Fin p → ℝ}

theorem Fit.par (F : Fit dev D limitsExist ls pars x0) (k : Fin p) : ∃ h : (k : ℕ) < pars.length, IsPar (ls k) pars[(k : ℕ)] := by
  have hl := F.pars.length_eq
  rw [List.length_ofFn] at hl
  have hk : (k : ℕ) < pars.length := by rw [← hl]; exact k.2
  refine ⟨hk, ?_⟩
  have := (List.forall₂_iff_get.1 F.pars).2 k (by simp) hk
  simpa using this

/-- What `mpfit` makes of the records of the parameters. -/
theorem Fit.setup (F : Fit dev D limitsExist ls pars x0) (ftol : XR) :
    ∃ (n : ℕ) (fr : Fin n → Fin p) (lims : List (FreeLim XR)),
      freeIdx (if limitsExist then some pars else none) p = freeList fr ∧ freeLims (if limitsExist then some pars else none) (freeList fr) = .ok lims ∧
      Setup dev D fr lims (fun j => ls (fr j)) x0 (levMarConf ftol) ∧ 0 < n ∧ n ≤ p ∧ (∀ k, (∃ j, fr j = k) ↔ (ls k).fixed = false) ∧
      checkStart (if limitsExist then some pars else none) (reals x0) = none := by
  set ps : Option (List (MPPar XR)) := if limitsExist then some pars else none with hps
  set l := freeIdx ps p with hl
  have hlt : ∀ i ∈ l, i < p := by
    intro i hi
    rw [hl] at hi
    cases hq : ps with
    | none =>
      rw [hq] at hi
      exact List.mem_range.1 hi
    | some l =>
      rw [hq] at hi
      exact List.mem_range.1 (List.mem_filter.1 hi).1
  have hnd : l.Nodup := freeIdx_nodup ps p
  have hmem : ∀ k : Fin p, (k : ℕ) ∈ l ↔ (ls k).fixed = false := by
    intro k
    rw [hl, hps]
    cases limitsExist with
    | true =>
      obtain ⟨hk, hp⟩ := F.par k
      simp [freeIdx, List.getElem?_eq_getElem hk, hp.fixed]
    | false =>
      rcases F.lims with e | e
      · cases e
      · simp [freeIdx, e k, noLimit]
  set fr : Fin l.length → Fin p := fun j => ⟨l[(j : ℕ)], hlt _ (List.getElem_mem _)⟩ with hfr
  have hlist : l = freeList fr := by
    refine List.ext_getElem (by simp) fun k h1 h2 => ?_
    simp [hfr]
  have hinj : Function.Injective fr := by
    intro a b e
    have : l[(a : ℕ)] = l[(b : ℕ)] := congrArg Fin.val e
    exact Fin.ext ((List.Nodup.getElem_inj_iff hnd).1 this)
  have hex : ∀ k, (∃ j, fr j = k) ↔ (ls k).fixed = false := by
    intro k
    rw [← hmem]
    constructor
    · rintro ⟨j, rfl⟩
      exact List.getElem_mem _
    · intro h
      obtain ⟨i, hi, e⟩ := List.getElem_of_mem h
      exact ⟨⟨i, hi⟩, Fin.ext e⟩
  have hlen : l.length ≤ p := by
    have := Fintype.card_le_of_injective fr hinj
    simpa using this
  have hlims : ∃ lims, freeLims ps (freeList fr) = .ok lims ∧ LimitArrays lims fun j => ls (fr j) := by
    rw [hps]
    cases limitsExist with
    | false =>
      refine ⟨[], rfl, Or.inl ⟨rfl, fun j => ?_⟩⟩
      rcases F.lims with e | e
      · cases e
      · beta_reduce
        rw [e]
        exact ⟨rfl, rfl⟩
    | true =>
      obtain ⟨r, h1, h2, h3⟩ := loopMap_run (f := fun i => do
        let k ← rd (freeList fr) i
        let p ← rd pars k
        pure (⟨p.lim0, p.lim1, p.lo, p.hi⟩ : FreeLim XR)) (fun j q => ∃ hj : j < l.length, Describes (ls (fr ⟨j, hj⟩)) q) (freeList fr).length (by
          intro z hz
          have hn : z < l.length := by simpa using hz
          have e1 := freeList_rd fr ⟨z, hn⟩
          simp only at e1
          obtain ⟨hk, hp⟩ := F.par (fr ⟨z, hn⟩)
          rw [e1]
          simp only [ok_bind]
          rw [rd_ok hk]
          exact ⟨_, rfl, hn, hp.lims⟩)
      refine ⟨r, h1, Or.inr ⟨by rw [h2]; simp, fun j q hq => ?_⟩⟩
      obtain ⟨hj, rfl⟩ := List.getElem?_eq_some_iff.1 hq
      obtain ⟨_, h4⟩ := h3 j hj
      exact h4
  obtain ⟨lims, hl1, hl2⟩ := hlims
  refine ⟨l.length, fr, lims, hlist, hl1, ⟨F.comp, hinj, hl2, hlen.trans F.enough, ?_, ?_, ⟨_, rfl, by norm_num⟩, ⟨_, rfl, by norm_num⟩, ⟨_, rfl, by norm_num⟩⟩, ?_, hlen,
    hex, ?_⟩
  · exact (Nat.mul_le_mul_right m hlen).trans F.size
  · intro x hx h hh k
    refine F.cols x (fun k => ?_) (fr k) (h k) ((hex _).1 ⟨k, rfl⟩) (hh k)
    by_cases hk : ∃ j, fr j = k
    · obtain ⟨j, rfl⟩ := hk
      refine ⟨hx.2 j, fun e => ?_⟩
      rw [(hex _).1 ⟨j, rfl⟩] at e
      cases e
    · rw [hx.1 k hk]
      exact ⟨F.start k, fun _ => rfl⟩
  · obtain ⟨k, hk⟩ := F.hfree
    obtain ⟨j, -⟩ := (hex k).2 hk
    exact lt_of_le_of_lt (Nat.zero_le _) j.2
  · rw [hps]
    cases limitsExist with
    | false => rfl
    | true =>
      refine checkPars_none fun i q x hq hx => ?_
      have hip : i < p := by
        have := (List.getElem?_eq_some_iff.1 hx).1
        rwa [reals_length] at this
      obtain ⟨hk, hp⟩ := F.par ⟨i, hip⟩
      simp only at hk hp
      rw [List.getElem?_eq_getElem hk] at hq
      have hx' : fin (x0 ⟨i, hip⟩) = x := by
        have : (reals x0)[i]? = some (fin (x0 ⟨i, hip⟩)) := by simp [reals, hip]
        rw [this] at hx
        exact Option.some.inj hx
      rw [← Option.some.inj hq, ← hx']
      unfold checkPar
      have hql := hp.lims.ql
      have hqu := hp.lims.qu
      simp only at hql hqu
      rw [hp.fixed, hql, hqu]
      have hw := F.start ⟨i, hip⟩
      rw [if_neg, if_neg]
      · cases hlo : (ls ⟨i, hip⟩).lower with
        | none =>
          cases hhi : (ls ⟨i, hip⟩).upper with
          | none => simp
          | some b =>
            have e := hp.lims.ul b hhi
            simp only at e
            rw [e]
            simpa using hw.2 b hhi
        | some a =>
          have e := hp.lims.ll a hlo
          simp only at e
          rw [e]
          cases hhi : (ls ⟨i, hip⟩).upper with
          | none => simpa using hw.1 a hlo
          | some b =>
            have e := hp.lims.ul b hhi
            simp only at e
            rw [e]
            simpa using ⟨hw.1 a hlo, hw.2 b hhi⟩
      · cases hlo : (ls ⟨i, hip⟩).lower with
        | none => simp
        | some a =>
          have e := hp.lims.ll a hlo
          simp only at e
          rw [e]
          cases hhi : (ls ⟨i, hip⟩).upper with
          | none => simp
          | some b =>
            have e := hp.lims.ul b hhi
            simp only at e
            rw [e]
            cases hfx : (ls ⟨i, hip⟩).fixed with
            | true => simp
            | false => simpa using F.order _ a b hfx hlo hhi

/-- The state in which the loops begin. -/
noncomputable def startSt (dev : List XR → List XR) {n : ℕ} (fr : Fin n → Fin p) (x0 : Fin p → ℝ) : FullSt XR :=
  ⟨{ x := reals fun j => x0 (fr j), xnew := reals x0, fnorm := mpEnorm (dev (reals x0)), fnorm1 := -1, gnorm := 0, delta := 0, par := 0, xnorm := 0, iter := 1,
     kOut := 0, kIn := 0, nfev := 1, trace := [(false, reals x0)] }, dev (reals x0), fun _ => 0, fun _ _ => 0, fun _ => 0, fun _ => 0⟩

/-- `LevMarFit` is the loops, after and before some checks. -/
theorem levMarFull_eq (F : Fit dev D limitsExist ls pars x0) {ftol : XR} {n : ℕ} {fr : Fin n → Fin p} {lims : List (FreeLim XR)}
    (h1 : freeIdx (if limitsExist then some pars else none) p = freeList fr) (h2 : freeLims (if limitsExist then some pars else none) (freeList fr) = .ok lims)
    (hn : 0 < n) (hnp : n ≤ p) (h3 : checkStart (if limitsExist then some pars else none) (reals x0) = none) (stop : ℕ → Bool) (fuel : ℕ) :
    levMarFull dev m ftol limitsExist pars stop fuel (reals x0) = (do
      let r ← fullLoop dev m (levMarConf ftol) (freeList fr) lims stop fuel true (startSt dev fr x0)
      lmLeave (freeList fr) (reals x0) (mpEnorm (dev (reals x0)) * mpEnorm (dev (reals x0))) r) := by
  unfold levMarFull mpfitFull
  rw [reals_length, h1]
  simp only
  rw [if_neg (by
    intro e
    have := congrArg List.length e
    simp at this
    omega), h3]
  simp only
  rw [h2]
  simp only [ok_bind]
  rw [levMarConf_ok]
  have := F.enough
  rw [if_neg (by simp), if_neg (by rw [List.length_ofFn]; omega)]
  unfold fullIterate
  have e : (loopMap (freeList fr).length fun i => do
    let k ← rd (freeList fr) i
    rd (reals x0) k) = .ok (reals fun j => x0 (fr j)) := by
    refine loopMap_of_forall _ _ _ (by simp [reals]) fun j hj => ?_
    have hn : j < n := by simpa [reals] using hj
    have e1 := freeList_rd fr ⟨j, hn⟩
    simp only at e1
    rw [e1]
    simp only [ok_bind]
    rw [reals_rd]
    simp [reals]
  rw [e]
  rfl

theorem startSt_ok {n : ℕ} {fr : Fin n → Fin p} (F : Fit dev D limitsExist ls pars x0) :
    OuterOk D fr (fun j => ls (fr j)) x0 x0 (startSt dev fr x0) :=
  ⟨⟨⟨fun _ _ => rfl, fun j => F.start _⟩, rfl, F.comp _, ⟨x0, rfl, fun _ _ => rfl⟩, by simp only [startSt]; rw [F.comp], 0, rfl, le_rfl⟩, fun h => absurd rfl h, le_rfl⟩

theorem reach_allowed {n : ℕ} {fr : Fin n → Fin p} (F : Fit dev D limitsExist ls pars x0) (hex : ∀ k, (∃ j, fr j = k) ↔ (ls k).fixed = false) {x : Fin p → ℝ}
    (h : Reach fr (fun j => ls (fr j)) x0 x) : Allowed ls x0 x := by
  intro k
  by_cases hk : ∃ j, fr j = k
  · obtain ⟨j, rfl⟩ := hk
    refine ⟨h.2 j, fun e => ?_⟩
    rw [(hex _).1 ⟨j, rfl⟩] at e
    cases e
  · rw [h.1 k hk]
    exact ⟨F.start k, fun _ => rfl⟩

end

end Imfit
