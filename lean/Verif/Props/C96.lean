import Verif.Lemmas.MpfitEnds
import Verif.Props.C28

/-!
# C96: a whole Levenberg-Marquardt fit, with the linear algebra done
-/

namespace Imfit
open XR Finset Spec Matrix

section
variable {α : Type} [FP α]

/-- The state in which the loops begin, for free parameters `x`. -/
def beginSt (dev : List α → List α) (xall x : List α) : FullSt α :=
  ⟨{ x := x, xnew := xall, fnorm := mpEnorm (dev xall), fnorm1 := -1, gnorm := 0, delta := 0, par := 0, xnorm := 0, iter := 1, kOut := 0, kIn := 0, nfev := 1,
     trace := [(false, xall)] }, dev xall, fun _ => 0, fun _ _ => 0, fun _ => 0, fun _ => 0⟩

/-- If the loops are those of the open model for some linear algebra, so is the fit. -/
theorem fit_of_loops {dev : List α → List α} {m : Nat} {c : MPConf α} {pars : Option (List (MPPar α))} {stop : Nat → Bool} {fuel : Nat} {xall : List α}
    {r : LMOut α} (P : InnerLA α → Prop) (la0 : InnerLA α) (hP0 : P la0)
    (H : ∀ lims x r, freeLims pars (freeIdx pars xall.length) = .ok lims →
      (loopMap (freeIdx pars xall.length).length fun i => do
        let k ← rd (freeIdx pars xall.length) i
        rd xall k) = .ok x →
      fullLoop dev m c (freeIdx pars xall.length) lims stop fuel true (beginSt dev xall x) = .ok r →
      ∃ outer inner, (∀ k, P (inner k)) ∧ lmLoop dev c (freeIdx pars xall.length) lims outer inner fuel true (beginSt dev xall x).s = .ok r)
    (h : mpfitFull dev m c pars stop fuel xall = .ok r) :
    ∃ outer inner, (∀ k, P (inner k)) ∧ mpfit dev m c pars outer inner fuel xall = .ok r := by
  have triv : ∀ r' : Res (LMOut α), (∀ outer inner, mpfit dev m c pars outer inner fuel xall = r') → r' = .ok r →
      ∃ outer inner, (∀ k, P (inner k)) ∧ mpfit dev m c pars outer inner fuel xall = .ok r := fun r' h1 h2 =>
    ⟨fun _ => ⟨true, 0, 0⟩, fun _ => la0, fun _ => hP0, by rw [h1, h2]⟩
  unfold mpfitFull at h
  simp only at h
  by_cases h0 : freeIdx pars xall.length = []
  · rw [if_pos h0] at h
    refine triv _ (fun outer inner => ?_) h
    unfold mpfit
    simp only
    rw [if_pos h0]
  rw [if_neg h0] at h
  cases hcs : checkStart pars xall with
  | some e =>
    rw [hcs] at h
    refine triv _ (fun outer inner => ?_) h
    unfold mpfit
    simp only
    rw [if_neg h0, hcs]
  | none =>
    rw [hcs] at h
    simp only at h
    obtain ⟨lims, hl, h⟩ := bind_ok h
    cases hb : badConf c with
    | true =>
      rw [hb, if_pos rfl] at h
      refine triv _ (fun outer inner => ?_) h
      unfold mpfit
      simp only
      rw [if_neg h0, hcs]
      simp only
      rw [hl]
      simp only [ok_bind]
      rw [hb, if_pos rfl]
    | false =>
      rw [hb, if_neg (by simp)] at h
      by_cases hm : m < (freeIdx pars xall.length).length
      · rw [if_pos hm] at h
        refine triv _ (fun outer inner => ?_) h
        unfold mpfit
        simp only
        rw [if_neg h0, hcs]
        simp only
        rw [hl]
        simp only [ok_bind]
        rw [hb, if_neg (by simp), if_pos hm]
      · rw [if_neg hm] at h
        unfold fullIterate at h
        obtain ⟨x, hx, h⟩ := bind_ok h
        obtain ⟨q, hq, h⟩ := bind_ok h
        obtain ⟨outer, inner, h1, h2⟩ := H lims x q hl hx hq
        refine ⟨outer, inner, h1, ?_⟩
        unfold mpfit
        simp only
        rw [if_neg h0, hcs]
        simp only
        rw [hl]
        simp only [ok_bind]
        rw [hb, if_neg (by simp), if_neg hm]
        unfold lmIterate
        rw [hx]
        simp only [ok_bind]
        unfold beginSt at h2
        rw [h2]
        exact h

/-- A fit with the linear algebra done is a fit of the model in which the linear algebra is open. -/
theorem fit_refines {dev : List α → List α} {m : Nat} {c : MPConf α} {pars : Option (List (MPPar α))} {stop : Nat → Bool} {fuel : Nat} {xall : List α}
    {r : LMOut α} (h : mpfitFull dev m c pars stop fuel xall = .ok r) : ∃ outer inner, mpfit dev m c pars outer inner fuel xall = .ok r := by
  obtain ⟨o, i, -, h⟩ := fit_of_loops (fun _ => True) ⟨[], 0, 0, 0, 0, true⟩ trivial (fun lims x r _ _ hr =>
    fullLoop_refines (P := fun _ => True) ⟨[], 0, 0, 0, 0, true⟩ trivial (fun _ _ => True) (fun _ _ _ _ => trivial) (fun _ _ _ _ _ => trivial)
      (fun _ _ _ _ _ _ => ⟨fun _ => trivial, fun _ => trivial⟩) fuel true _ r trivial hr) h
  exact ⟨o, i, h⟩

/-- **C96.** Whatever the numbers and whatever the deviates: fixed parameters keep their values at every evaluation and in the result. -/
theorem C96_fixed (dev : List α → List α) (m : Nat) (ftol : α) (pars : List (MPPar α)) (stop : Nat → Bool) (fuel : Nat) (start : List α) (r : LMOut α)
    (h : levMarFull dev m ftol true pars stop fuel start = .ok r) (i : Nat) (p : MPPar α) (hp : pars[i]? = some p) (hf : p.fixed = true) :
    (∀ v ∈ r.trace, v.2.length = start.length ∧ v.2[i]? = start[i]?) ∧ r.xall.length = start.length ∧ r.xall[i]? = start[i]? := by
  obtain ⟨outer, inner, h⟩ := fit_refines h
  exact C27_fixed dev m ftol pars outer inner fuel start r h i p hp hf

end

/-- **C96.** In exact arithmetic, for any deviates, also ones that are not numbers: the result is the start or has a smaller sum of squares. Missing from the
full claim: the sum of squares is the square of what `mp_enorm` computes (C28 says when that is the sum of squares), and exact arithmetic. -/
theorem C96_not_worse_partial (dev : List XR → List XR) (m : Nat) (ftol : XR) (limitsExist : Bool) (pars : List (MPPar XR)) (stop : Nat → Bool) (fuel : Nat)
    (start : List XR) (r : LMOut XR) (h : levMarFull dev m ftol limitsExist pars stop fuel start = .ok r) :
    r.xall = start ∨ ∃ a b, chiOf dev start = fin a ∧ chiOf dev r.xall = fin b ∧ b < a := by
  obtain ⟨outer, inner, h⟩ := fit_refines h
  exact C28_partial dev m ftol limitsExist pars outer inner fuel start r h

section
variable {p m : ℕ} {dev : List XR → List XR} {D : (Fin p → ℝ) → Fin m → ℝ} {limitsExist : Bool} {ls : Fin p → Limit} {pars : List (MPPar XR)} {x0 : Fin p → ℝ}

/-- **C96.** The trial points of a fit and its result are within the limits. No assumption on the directions is made any more: those that QR factorisation and
`mp_lmpar` compute are numbers. So are the points of evaluations for derivatives, unless limits are so near each other that there is no room for a step. Missing
from the full claim: exact arithmetic; the deviates and their difference quotients have to be numbers of moderate size (C27 shows a fit leaving the limits otherwise).-/
theorem C96_limits_partial (F : Fit dev D limitsExist ls pars x0) (ftol : XR) (stop : ℕ → Bool) (fuel : ℕ) (r : LMOut XR)
    (h : levMarFull dev m ftol limitsExist pars stop fuel (reals x0) = .ok r) :
    (∀ v ∈ r.trace, v.1 = false → ∃ x, v.2 = reals x ∧ Allowed ls x0 x) ∧
    ((∀ k, (ls k).fixed = false → WideEnough (ls k)) → ∀ v ∈ r.trace, v.1 = true → ∃ x, v.2 = reals x ∧ Allowed ls x0 x) ∧
    ∃ x, r.xall = reals x ∧ Allowed ls x0 x := by
  obtain ⟨n, fr, lims, h1, h2, S, hn, hnp, hex, h3⟩ := F.setup ftol
  obtain ⟨outer, inner, hP, h⟩ := fit_of_loops (fun la : InnerLA XR => AllFin la.dir) ⟨[], 0, 0, 0, 0, true⟩ (fun _ h => by cases h) (fun lims' x r' e1 e2 hr => by
    rw [reals_length, h1] at e1 e2 hr ⊢
    rw [h2] at e1
    cases e1
    have hx : x = reals fun j => x0 (fr j) := by
      have e : (loopMap (freeList fr).length fun i => do
        let k ← rd (freeList fr) i
        rd (reals x0) k) = .ok (reals fun j => x0 (fr j)) := by
        refine loopMap_of_forall _ _ _ (by simp [reals]) fun j hj => ?_
        have hn : j < n := by simpa [reals] using hj
        have e1 := freeList_rd fr ⟨j, hn⟩
        simp only at e1
        rw [e1]
        simp only [ok_bind]
        rw [reals_rd]
        simp [reals]
      rw [e] at e2
      cases e2
      rfl
    subst hx
    refine fullLoop_refines (P := fun la : InnerLA XR => AllFin la.dir) ⟨[], 0, 0, 0, 0, true⟩ (fun _ h => by cases h)
      (fun b st => if b then ∃ x, OuterOk D fr (fun j => ls (fr j)) x0 x st else ∃ x J E d xn, InnerOk D fr (fun j => ls (fr j)) x0 x J E d xn st)
      ?_ ?_ ?_ fuel true _ r' ?_ hr
    · rintro st st' ⟨x, hI⟩ ho
      obtain ⟨st2, e, J, g1, -, -, -, -, -, g2⟩ := outer_run S hI
      rw [g1] at ho
      cases ho
      obtain ⟨-, E, d, xn, g3, -⟩ := g2 rfl
      exact ⟨x, J, E, d, xn, g3⟩
    · rintro st k la ⟨x, J, E, d, xn, hI⟩ ho
      obtain ⟨st2, nx, la2, -, g2, g3, -⟩ := inner_run S hI (stop k)
      rw [g2] at ho
      cases ho
      exact g3
    · rintro st k st' nx ⟨x, J, E, d, xn, hI⟩ ho
      obtain ⟨st2, nx2, la2, g1, -, -, -, -, g2, g3⟩ := inner_run S hI (stop k)
      rw [g1] at ho
      cases ho
      constructor
      · intro e
        obtain ⟨-, d', -, -, g4⟩ := g2 e
        exact ⟨x, J, E, d', xn, g4⟩
      · intro e
        exact (g3 e).2.2
    · exact ⟨x0, startSt_ok F⟩) h
  have key : ∀ v, Obeys (List.ofFn ls) (List.ofFn x0) v → ∃ x, v = reals x ∧ Allowed ls x0 x := by
    rintro v ⟨w, rfl, hw, ho⟩
    rw [List.length_ofFn] at hw
    refine ⟨fun k => w[(k : ℕ)], ?_, fun k => ?_⟩
    · refine List.ext_getElem (by simp [reals, hw]) fun k _ _ => ?_
      simp [reals]
    · exact ho k (ls k) _ (x0 k) (by simp) (by rw [List.getElem?_eq_getElem]) (by simp)
  have hr0 : reals x0 = (List.ofFn x0).map fin := by
    refine List.ext_getElem (by simp [reals]) fun k _ _ => ?_
    simp [reals]
  rw [hr0] at h
  obtain ⟨c1, c2, c3⟩ := C27_partial dev m ftol limitsExist (List.ofFn ls) pars F.pars outer inner hP fuel (List.ofFn x0) (by simp)
    (F.lims.imp id fun e l hl => by
      obtain ⟨k, rfl⟩ := List.mem_ofFn.1 hl
      exact e k)
    (fun i l s hl hs => by
      obtain ⟨hi, rfl⟩ := List.getElem?_eq_some_iff.1 hl
      obtain ⟨hj, rfl⟩ := List.getElem?_eq_some_iff.1 hs
      simpa using F.start ⟨i, by simpa using hi⟩) r h
  refine ⟨fun v hv hb => key _ (c1 v hv hb), fun hw v hv hb => key _ (c2 (fun l hl hf => ?_) v hv hb), key _ c3⟩
  obtain ⟨k, rfl⟩ := List.mem_ofFn.1 hl
  exact hw k hf

theorem leave_reals {n : ℕ} {fr : Fin n → Fin p} {lims : List (FreeLim XR)} {ls : Fin n → Limit} {c : MPConf XR} (S : Setup dev D fr lims ls x0 c)
    {r : LMSt XR × Int} (g2 : r.2 ∈ endCodes) {x : Fin p → ℝ} (g3 : Reach fr ls x0 x) (g4 : r.1.x = reals fun j => x (fr j)) {o : XR} :
    ∃ out, lmLeave (freeList fr) (reals x0) o r = .ok out ∧ out.status = r.2 ∧ out.xall = reals x := by
  have hcode : r.2 ≠ MP_ERR_NAN := by
    intro e
    rw [e] at g2
    revert g2
    simp [endCodes, MP_ERR_NAN]
  unfold lmLeave
  rw [if_neg hcode]
  unfold lmFinish
  rw [g4, scatter_reals S.inj]
  refine ⟨_, rfl, rfl, ?_⟩
  simp only
  congr 1
  funext k
  by_cases hk : ∃ j, fr j = k
  · obtain ⟨j, rfl⟩ := hk
    rw [S.inj.extend_apply]
  · rw [Function.extend_apply' _ _ _ hk, g3.1 k hk]

/-- **C96.** A fit ends, with one of the codes 1 to 8 or 100, none of which is an error, and with parameters within their limits. Missing from the full claim:
that the free parameters cannot all be zero, for example as limits exclude it for one of them (false without, see below); exact arithmetic; moderate difference
quotients. -/
theorem C96_ends_partial (F : Fit dev D limitsExist ls pars x0) (hz : ∀ x, Allowed ls x0 x → ∃ k, (ls k).fixed = false ∧ x k ≠ 0) (ftol : XR) (stop : ℕ → Bool) :
    ∃ N r, (∀ fuel, N ≤ fuel → levMarFull dev m ftol limitsExist pars stop fuel (reals x0) = .ok r) ∧ r.status ∈ [1, 2, 3, 4, 5, 6, 7, 8, 100] ∧
      ∃ x, r.xall = reals x ∧ Allowed ls x0 x := by
  obtain ⟨n, fr, lims, h1, h2, S, hn, hnp, hex, h3⟩ := F.setup ftol
  obtain ⟨N, r, g1, g2, x, g3, g4⟩ := outer_ends (stop := stop) S (fun x hx => by
    obtain ⟨k, hk1, hk2⟩ := hz x (reach_allowed F hex hx)
    obtain ⟨j, rfl⟩ := (hex k).2 hk1
    exact ⟨j, hk2⟩) 1000 x0 (startSt dev fr x0) (Nat.le_add_left _ _) (startSt_ok F)
  obtain ⟨out, o1, o2, o3⟩ := leave_reals S g2 g3 g4
  refine ⟨N, out, fun fuel hf => ?_, by rw [o2]; exact g2, x, o3, reach_allowed F hex g3⟩
  rw [levMarFull_eq F h1 h2 hn hnp h3, g1 fuel hf]
  exact o1

end

section
variable {p m : ℕ} {dev : List XR → List XR} {D : (Fin p → ℝ) → Fin m → ℝ}

theorem infoAfter_dir (c : MPConf XR) (a b r d x g : XR) (i : Nat) (s : Bool) : infoAfter c a b r d x g i s ≠ MP_OK_DIR := by
  have key : ∀ (c1 c2 c3 c4 c5 c6 c7 : Bool), (
      let i1 : Int := if c1 then MP_OK_CHI else 0
      let i2 : Int := if c2 then MP_OK_PAR else i1
      let i3 : Int := if c1 && i2 == 2 then MP_OK_BOTH else i2
      if i3 != 0 then i3 else
      let j1 : Int := if s then MP_SIGINT else 0
      let j2 : Int := if c3 then MP_MAXITER else j1
      let j3 : Int := if c4 then MP_FTOL else j2
      let j4 : Int := if c5 then MP_XTOL else j3
      if c6 then MP_GTOL else j4) ≠ MP_OK_DIR := by
    revert s
    decide
  have := key (chiSmall c.ftol a b r) (fle d (c.xtol * x)) (decide (c.maxiter ≤ i)) (chiSmall (lit MACHEP0) a b r) (fle d (lit MACHEP0 * x)) (fle g (lit MACHEP0)) true
  simpa only [infoAfter, decide_eq_true_eq] using this

/-- If the loops end with the code for a small gradient, it is small at the point they end with. -/
theorem loop_dir {n : ℕ} {fr : Fin n → Fin p} {lims : List (FreeLim XR)} {ls : Fin n → Limit} {x0 : Fin p → ℝ} {c : MPConf XR} {stop : ℕ → Bool}
    (S : Setup dev D fr lims ls x0 c) : ∀ (fuel : ℕ) (b : Bool) (st : FullSt XR) (r : LMSt XR × Int),
      (if b then ∃ x, OuterOk D fr ls x0 x st else ∃ x J E d xn, InnerOk D fr ls x0 x J E d xn st) →
      fullLoop dev m c (freeList fr) lims stop fuel b st = .ok r → r.2 ∈ endCodes ∧ ∃ x, Reach fr ls x0 x ∧ r.1.x = reals (fun j => x (fr j)) ∧
      (r.2 = MP_OK_DIR → ∃ J, TurnJac D fr ls x J ∧
        fle (scaledGradient m n (ofColumns (List.ofFn fun j => reals fun i => J i j)) (ofEntries (reals (D x)))) c.gtol = true) := by
  intro fuel
  induction fuel with
  | zero => intro b st r _ h; cases h
  | succ fuel ih =>
    intro b st r hI h
    cases b with
    | true =>
      obtain ⟨x, hI⟩ := hI
      obtain ⟨st', e, J, g1, -, gx, g2, g3, g4, g5⟩ := outer_run S hI
      simp only [fullLoop, g1, ok_bind] at h
      rcases g2 with rfl | rfl
      · obtain ⟨-, E, d, xn, g6, -⟩ := g5 rfl
        exact ih false st' r ⟨x, J, E, d, xn, g6⟩ h
      · cases h
        refine ⟨by simp [endCodes, MP_OK_DIR], x, hI.base.reach, gx.trans hI.base.ex, fun _ => ⟨J, g3, ?_⟩⟩
        cases hb : fle (scaledGradient m n (ofColumns (List.ofFn fun j => reals fun i => J i j)) (ofEntries (reals (D x)))) c.gtol with
        | true => rfl
        | false => exact absurd (g4.2 hb) (by simp)
    | false =>
      obtain ⟨x, J, E, d, xn, hI⟩ := hI
      obtain ⟨T⟩ := inner_turn S hI (stop st.s.kIn)
      obtain ⟨st', nx, la, g1, -, -, g2, g3, g4, g5⟩ := inner_run S hI (stop st.s.kIn)
      simp only [fullLoop, g1, ok_bind] at h
      cases nx with
      | inner =>
        obtain ⟨-, d', -, -, g6⟩ := g4 rfl
        exact ih false st' r ⟨x, J, E, d', xn, g6⟩ h
      | outer => exact ih true st' r (g5 rfl).2.2 h
      | stop i =>
        cases h
        obtain ⟨y, y1, y2⟩ := g2
        refine ⟨g3 i rfl, y, y1, y2, fun e => ?_⟩
        exfalso
        have hr := T.run
        rw [g1] at hr
        have hr2 := congrArg Prod.snd (Except.ok.inj hr)
        simp only at hr2
        unfold lmNext at hr2
        split_ifs at hr2
        cases hr2
        exact infoAfter_dir _ _ _ _ _ _ _ _ _ e

/-- **C96.** If a fit ends with code 4, then at the parameters returned the derivative of the sum of squares, taken from difference quotients, is for each free
parameter either outwards at a limit at which the parameter is, or not more than `1e-10` times the lengths of the residuals and of the column of the Jacobian. Missing
from the full claim: exact arithmetic, moderate sizes. -/
theorem C96_stationary_partial {limitsExist : Bool} {ls : Fin p → Limit} {pars : List (MPPar XR)} {x0 : Fin p → ℝ} (F : Fit dev D limitsExist ls pars x0)
    (hf : ∀ x, Allowed ls x0 x → ∑ i, D x i ^ 2 < (largeSize / m) ^ 2) (ftol : XR) (stop : ℕ → Bool) (fuel : ℕ) (r : LMOut XR)
    (h : levMarFull dev m ftol limitsExist pars stop fuel (reals x0) = .ok r) (hs : r.status = 4) :
    ∃ (x h : Fin p → ℝ), r.xall = reals x ∧ Allowed ls x0 x ∧ (∀ k, |h k| = stepSize (x k)) ∧
      ∀ k, (ls k).fixed = false → Outwards (ls k) (x k) (halfGrad (fun i k => quotient D x k (h k) i) (D x) k) ∨
        |halfGrad (fun i k => quotient D x k (h k) i) (D x) k| ≤ 1 / 10 ^ 10 * (length (D x) * colLength (fun i k => quotient D x k (h k) i) k) := by
  obtain ⟨n, fr, lims, h1, h2, S, hn, hnp, hex, h3⟩ := F.setup ftol
  rw [levMarFull_eq F h1 h2 hn hnp h3] at h
  obtain ⟨q, hq, h⟩ := bind_ok h
  obtain ⟨k1, x, k2, k3, k4⟩ := loop_dir S fuel true _ q ⟨x0, startSt_ok F⟩ hq
  obtain ⟨out, o1, o2, o3⟩ := leave_reals (o := mpEnorm (dev (reals x0)) * mpEnorm (dev (reals x0))) S k1 k2 k3
  rw [o1] at h
  cases h
  obtain ⟨J, ⟨t, t1, -, rfl⟩, k5⟩ := k4 (o2.symm.trans hs)
  have hal := reach_allowed F hex k2
  obtain ⟨jac, g, c1, c2, c3, c4⟩ := C95_stop_partial S.hnm (fun i j => quotient D x (fr j) (t j) i) (S.cols x k2 t t1) (D x) (hf x hal) lims (fun j => ls (fr j))
    S.lims fun j => x (fr j)
  rw [C95_pegged lims _ S.lims _ _ fun i j => quotient D x (fr j) (t j) i] at c1
  cases c1
  rw [c2] at k5
  simp only [levMarConf] at k5
  rw [lit_def, fle_fin, decide_eq_true_eq] at k5
  have k6 := (c4 _ (by norm_num)).1 k5
  refine ⟨x, Function.extend fr t fun k => stepSize (x k), o3, hal, fun k => ?_, fun k hk => ?_⟩
  · by_cases hk : ∃ j, fr j = k
    · obtain ⟨j, rfl⟩ := hk
      rw [S.inj.extend_apply, t1]
    · rw [Function.extend_apply' _ _ _ hk, abs_of_pos (stepSize_pos _)]
  · obtain ⟨j, rfl⟩ := (hex k).2 hk
    have := k6 j
    unfold halfGrad colLength at this ⊢
    simp only [S.inj.extend_apply]
    push_cast at this
    exact this

end

/-! ### A fit that does not end -/

/-- One deviate of one parameter: `1 + x`, but two for negative `x`. -/
noncomputable def cliff (x : Fin 1 → ℝ) (_ : Fin 1) : ℝ := if x 0 < 0 then 2 else 1 + x 0

noncomputable def cliffDev : List XR → List XR
  | [fin x] => [fin (if x < 0 then 2 else 1 + x)]
  | _ => []

theorem cliff_comp : Computes cliffDev cliff := by
  intro x
  simp [reals, cliffDev, cliff]

theorem largeSize_big : (10 : ℝ) ^ 18 < largeSize := by
  unfold largeSize
  norm_num

theorem eps_big : (1 : ℝ) / 10 ^ 8 < Real.sqrt (2220446 / 10 ^ 22) := by
  apply Real.lt_sqrt_of_sq_lt
  norm_num

theorem eps_small : Real.sqrt (2220446 / 10 ^ 22) < (1 : ℝ) / 10 ^ 7 := by
  rw [Real.sqrt_lt' (by norm_num)]
  norm_num

theorem cliff_fit : Fit cliffDev cliff false (fun _ => noLimit) [⟨false, false, false, fin 0, fin 0⟩] (fun _ => 0) where
  comp := cliff_comp
  pars := by
    refine List.Forall₂.cons ?_ List.Forall₂.nil
    exact ⟨rfl, ⟨rfl, rfl, fun a h => (by cases h), fun a h => (by cases h)⟩⟩
  lims := Or.inr fun _ => rfl
  start := fun _ => ⟨fun a h => (by cases h), fun a h => by cases h⟩
  order := fun _ a b _ h => by cases h
  hfree := ⟨0, rfl⟩
  enough := le_rfl
  size := by norm_num
  cols := by
    intro x _ k h _ hh
    obtain rfl : k = 0 := Subsingleton.elim _ _
    rw [Fin.sum_univ_one, Nat.cast_one, div_one]
    have hl := largeSize_big
    have e1 := eps_big
    have e2 := eps_small
    have hq : |quotient cliff x 0 h 0| ≤ 10 ^ 8 := by
      unfold quotient cliff
      simp only [Function.update_self]
      unfold stepSize at hh
      set e := Real.sqrt (2220446 / 10 ^ 22) with he
      have hepos : 0 < e := lt_trans (by norm_num) e1
      rcases lt_trichotomy (x 0) 0 with hx | hx | hx
      · rw [if_neg hx.ne, abs_of_neg hx] at hh
        have : x 0 + h < 0 := by
          have h1 := le_abs_self h
          have h2 : e * -x 0 < -x 0 := by
            have : (1 - e) * -x 0 > 0 := mul_pos (by linarith) (by linarith)
            linarith
          linarith
        rw [if_pos hx, if_pos this]
        norm_num
      · rw [if_pos hx] at hh
        rw [hx, zero_add, if_neg (lt_irrefl _)]
        split_ifs with hneg
        · rw [abs_div, hh, mul_one, div_le_iff₀ hepos]
          norm_num at e1 ⊢
          linarith
        · have hpos : 0 < h := by
            rcases lt_or_eq_of_le (not_lt.1 hneg) with g | g
            · exact g
            · rw [← g, abs_zero] at hh; linarith
          have : (1 + h - (1 + 0)) / h = 1 := by field_simp; ring
          rw [this]
          norm_num
      · rw [if_neg hx.ne', abs_of_pos hx] at hh
        have : ¬ x 0 + h < 0 := by
          have h1 := neg_abs_le h
          have h2 : e * x 0 < x 0 := by
            have : (1 - e) * x 0 > 0 := mul_pos (by linarith) hx
            linarith
          linarith
        rw [if_neg this, if_neg (not_lt.2 hx.le)]
        have hh0 : h ≠ 0 := by
          intro g
          rw [g, abs_zero] at hh
          have := mul_pos hepos hx
          linarith
        have : (1 + (x 0 + h) - (1 + x 0)) / h = 1 := by field_simp; ring
        rw [this]
        norm_num
    have := abs_le.1 hq
    nlinarith

theorem fle_mono {g : XR} {a b : ℝ} (h : fle g (fin a) = false) (hab : b ≤ a) : fle g (fin b) = false := by
  cases g with
  | fin x =>
    rw [fle_fin, decide_eq_false_iff_not, not_le] at h ⊢
    linarith
  | pinf => rfl
  | ninf => cases h
  | nan => rfl

/-- The inner loop goes on for ever. -/
theorem cliff_inner {n : ℕ} {fr : Fin n → Fin 1} {lims : List (FreeLim XR)}
    (S : Setup cliffDev cliff fr lims (fun _ => noLimit) (fun _ => 0) (levMarConf (fin (1 / 10 ^ 8)))) (hlims : anyLim lims ≠ true)
    (hn : n = 1) {J : Matrix (Fin 1) (Fin n) ℝ} (hJ : ∀ j, J 0 j = 1) :
    ∀ (fuel : ℕ) (E : Fin n → ℝ) (d : ℝ) (st : FullSt XR), InnerOk cliff fr (fun _ => noLimit) (fun _ => 0) (fun _ => 0) J E d 0 st → st.s.iter = 1 →
      fle st.s.gnorm (fin (1 / 10 ^ 10)) = false →
      fullLoop cliffDev 1 (levMarConf (fin (1 / 10 ^ 8))) (freeList fr) lims (fun _ => false) fuel false st = .error .diverge := by
  intro fuel
  induction fuel with
  | zero => intro E d st _ _ _; rfl
  | succ fuel ih =>
    intro E d st h hi hg
    subst hn
    obtain ⟨T⟩ := inner_turn S h false
    -- the direction is positive
    have hw : 0 < T.w 0 := by
      have h1 := congrFun T.step.normal 0
      have h2 : (1 + T.q * E 0 ^ 2) * T.w 0 = 1 := by
        have hD : cliff (fun _ => 0) 0 = 1 := by simp [cliff]
        simp only [Matrix.mulVec, dotProduct, Matrix.add_apply, Matrix.mul_apply, Matrix.transpose_apply, Matrix.smul_apply, Matrix.diagonal_apply, Fin.sum_univ_one,
          hJ, hD, if_true, smul_eq_mul, mul_one] at h1
        exact h1
      have h3 : 0 < 1 + T.q * E 0 ^ 2 := by
        have := mul_nonneg T.step.nonneg (sq_nonneg (E 0))
        linarith
      by_contra hneg
      have := mul_nonpos_of_nonneg_of_nonpos h3.le (not_lt.1 hneg)
      linarith
    obtain ⟨hy, hs, hal⟩ := T.nolim hlims
    have hfr : fr 0 = 0 := Subsingleton.elim _ _
    have hy0 : T.y 0 < 0 := by
      have := hy 0
      rw [hfr] at this
      rw [this]
      linarith
    have norm1 : ∀ z : ℝ, 1 ≤ z → mpEnorm [fin z] = fin z := enorm_one
    have hf : T.f = 1 := by
      have e := T.ef
      simp only [reals, List.ofFn_succ, List.ofFn_zero, cliff, lt_irrefl, if_false] at e
      rw [add_zero, norm1 1 le_rfl] at e
      exact (XR.fin.inj e).symm
    have hgg : T.g = 2 := by
      have e := T.eg
      simp only [reals, List.ofFn_succ, List.ofFn_zero, cliff, if_pos hy0] at e
      rw [norm1 2 (by norm_num)] at e
      exact (XR.fin.inj e).symm
    have hA : T.A = -3 := by
      have e := T.eA
      rw [hf, hgg] at e
      unfold actRed at e
      rw [lit_def, fin_mul, flt_fin, if_pos (by norm_num), fin_div_of_ne one_ne_zero, fin_mul, one_def, fin_sub] at e
      rw [← XR.fin.inj e]
      norm_num
    have hP0 : 0 ≤ T.P := by rw [T.eP]; positivity
    have hR : T.R ≤ 0 := by
      rw [T.eR, hA]
      split_ifs
      · exact le_rfl
      · exact div_nonpos_of_nonpos_of_nonneg (by norm_num) hP0
    have hpn : 0 < T.pn := lt_of_le_of_ne T.pn0 fun e => by
      have := T.pnz.1 e.symm
      rw [hs] at this
      have := congrFun this 0
      simp only [Pi.neg_apply, Pi.zero_apply, neg_eq_zero] at this
      linarith
    have hd' := T.d'pos hpn
    have hR' : ¬ 1 / 10000 ≤ T.R := by
      intro e
      have : (0 : ℝ) < 1 / 10000 := by norm_num
      linarith
    have chi : ∀ t : ℝ, t < 3 → chiSmall (fin t) (fin T.A) (fin T.P) (fin T.R) = false := by
      intro t ht
      unfold chiSmall
      rw [hA, fabs_fin, fle_fin]
      have : ¬ |(-3 : ℝ)| ≤ t := by
        rw [abs_of_neg (by norm_num)]
        linarith
      rw [decide_eq_false this, Bool.false_and, Bool.false_and]
    have hinfo : infoAfter (levMarConf (fin (1 / 10 ^ 8))) (fin T.A) (fin T.P) (fin T.R) T.st'.s.delta T.st'.s.xnorm st.s.gnorm T.st'.s.iter false = 0 := by
      unfold infoAfter
      rw [T.sdelta, T.sxnorm, if_neg hR', h.scale.xnorm, T.siter, if_neg hR', hi]
      have c1 : (levMarConf (fin (1 / 10 ^ 8)) : MPConf XR).ftol = fin (1 / 10 ^ 8) := by
        simp only [levMarConf]
        rw [zero_def, flt_fin, if_pos (by norm_num)]
      have c2 : chiSmall (lit MACHEP0) (fin T.A) (fin T.P) (fin T.R) = false := by
        rw [lit_def]
        refine chi _ ?_
        unfold MACHEP0
        norm_num
      have c3 : fle (fin T.d') ((levMarConf (fin (1 / 10 ^ 8)) : MPConf XR).xtol * fin 0) = false := by
        have ex : (levMarConf (fin (1 / 10 ^ 8)) : MPConf XR).xtol * fin 0 = fin 0 := by
          simp only [levMarConf]
          rw [lit_def, fin_mul, mul_zero]
        rw [ex, fle_fin, decide_eq_false_iff_not, not_le]
        exact hd'
      have c4 : fle (fin T.d') (lit MACHEP0 * fin 0 : XR) = false := by
        rw [lit_def, fin_mul, mul_zero, fle_fin, decide_eq_false_iff_not, not_le]
        exact hd'
      have c5 : fle st.s.gnorm (lit MACHEP0) = false := by
        rw [lit_def]
        refine fle_mono hg ?_
        unfold MACHEP0
        norm_num
      rw [c1, chi _ (by norm_num), c2, c3, c4, c5]
      simp [levMarConf]
    have hrun := T.run
    have hnext : lmNext (0 : Int) (fin T.R) = .inner := by
      unfold lmNext
      rw [if_neg (by simp), lit_def, flt_fin, if_pos]
      rw [decide_eq_true_eq]
      push_cast
      exact not_le.1 hR'
    rw [hinfo, hnext] at hrun
    obtain ⟨st2, nx, la, g1, -, -, -, -, g2, -⟩ := inner_run S h false
    rw [hrun] at g1
    cases g1
    obtain ⟨g3, d', -, -, g4⟩ := g2 rfl
    have := ih E d' T.st' g4 (by rw [g3, hi]) (by rw [T.sgnorm]; exact hg)
    simp only [fullLoop, hrun, ok_bind]
    exact this

/-- A fit with moderate difference quotients that does not end: the derivative at the start is positive, all points below are worse, and as the parameter is zero
no bound on the step is small against it. In the code it ends when the bound underflows, after about 1100 evaluations at ever smaller distances. -/
theorem cliff_diverges (fuel : ℕ) : levMarFull cliffDev 1 (fin (1 / 10 ^ 8)) false [⟨false, false, false, fin 0, fin 0⟩] (fun _ => false) fuel
    (reals fun _ : Fin 1 => 0) = .error .diverge := by
  obtain ⟨n, fr, lims, h1, h2, S, hn, hnp, hex, h3⟩ := cliff_fit.setup (fin (1 / 10 ^ 8))
  rw [levMarFull_eq cliff_fit h1 h2 hn hnp h3]
  have hl0 : lims = [] := by
    rw [if_neg (by simp)] at h2
    cases h2
    rfl
  have hn1 : n = 1 := by omega
  have hlims : anyLim lims ≠ true := by
    rw [hl0]
    simp [anyLim]
  cases fuel with
  | zero => rfl
  | succ fuel =>
    obtain ⟨st', e, J, g1, gi, -, -, ⟨h, ha, hb, rfl⟩, g2, g3⟩ := outer_run S (startSt_ok cliff_fit)
    have hj1 : ∀ j, cleared (fun j => (noLimit : Limit)) (fun j => (0 : ℝ)) (cliff fun _ => 0) (fun i j => quotient cliff (fun _ => 0) (fr j) (h j) i) 0 j = 1 := by
      intro j
      unfold cleared
      rw [if_neg (by rintro (⟨h1, _⟩ | ⟨h1, _⟩) <;> cases h1)]
      have hfr : fr j = 0 := Subsingleton.elim _ _
      have hpos : (0 : ℝ) < stepSize 0 := stepSize_pos 0
      have hh := ha j
      have hnn : ¬ h j < 0 := fun e => hb j e rfl
      have h0 : h j ≠ 0 := by
        intro g
        rw [g, abs_zero] at hh
        linarith
      unfold quotient cliff
      beta_reduce
      rw [hfr]
      simp only [Function.update_self, zero_add, lt_irrefl, if_false, if_neg hnn, add_zero]
      field_simp
      ring
    subst hn1
    set J := cleared (fun j => (noLimit : Limit)) (fun j => (0 : ℝ)) (cliff fun _ => 0) fun i j => quotient cliff (fun _ => 0) (fr j) (h j) i with hJdef
    have hcols : ColumnsBelow J (largeSize / (1 : ℕ)) := by
      intro k
      rw [Fin.sum_univ_one, hj1]
      have := largeSize_big
      rw [Nat.cast_one, div_one]
      nlinarith
    have hD : cliff (fun _ => 0) 0 = 1 := by simp [cliff]
    obtain ⟨g, k1, k2, -, k4, -⟩ := C95_gradient_partial le_rfl J _ (holds_columns J) hcols (cliff fun _ => 0) _ (holds_entries _) (by
      rw [Fin.sum_univ_one, hD]
      have := largeSize_big
      rw [Nat.cast_one, div_one]
      nlinarith)
    have hg1 : 1 ≤ g := by
      have := k4 0
      unfold halfGrad length colLength at this
      rw [Fin.sum_univ_one, Fin.sum_univ_one, Fin.sum_univ_one, hj1, hD] at this
      simpa using this
    have he : e = none := by
      rw [g2, k1]
      simp only [levMarConf]
      rw [lit_def, fle_fin, decide_eq_false_iff_not, not_le]
      refine lt_of_lt_of_le ?_ hg1
      norm_num
    subst he
    obtain ⟨g4, E, d, xn, g5, -⟩ := g3 rfl
    have hxn : xn = 0 := g5.scale.xzero.2 fun _ => rfl
    subst hxn
    have := cliff_inner S hlims rfl hj1 fuel E d st' g5 (by rw [gi]; rfl) (by
      simp only [levMarConf] at g4
      rw [lit_def] at g4
      refine fle_mono g4 ?_
      norm_num)
    simp only [fullLoop, g1, ok_bind]
    rw [this]
    rfl

/-- Not every fit with real deviates and moderate difference quotients ends. -/
theorem C96_ends_false : ¬ ∀ (p m : ℕ) (dev : List XR → List XR) (D : (Fin p → ℝ) → Fin m → ℝ) (limitsExist : Bool) (ls : Fin p → Limit)
    (pars : List (MPPar XR)) (x0 : Fin p → ℝ), Fit dev D limitsExist ls pars x0 → ∀ (ftol : XR) (stop : ℕ → Bool),
    ∃ fuel r, levMarFull dev m ftol limitsExist pars stop fuel (reals x0) = .ok r := by
  intro H
  obtain ⟨fuel, r, h⟩ := H 1 1 _ _ _ _ _ _ cliff_fit (fin (1 / 10 ^ 8)) fun _ => false
  rw [cliff_diverges] at h
  cases h

/-! ### An example -/

/-- The deviates `x - 3` and `x y - 8`; `x` is free between 1 and 5, `y` is fixed. -/
noncomputable def pairD (x : Fin 2 → ℝ) : Fin 2 → ℝ := ![x 0 - 3, x 0 * x 1 - 8]

noncomputable def pairDev : List XR → List XR
  | [fin x, fin y] => [fin (x - 3), fin (x * y - 8)]
  | _ => []

noncomputable def pairLims : Fin 2 → Limit := ![⟨false, some 1, some 5⟩, ⟨true, none, none⟩]

noncomputable def pairPars : List (MPPar XR) := [⟨false, true, true, fin 1, fin 5⟩, ⟨true, false, false, fin 0, fin 0⟩]

theorem pair_fit : Fit pairDev pairD true pairLims pairPars ![2, 4] where
  comp := by
    intro x
    simp [reals, pairDev, pairD]
  pars := by
    have e : List.ofFn pairLims = [⟨false, some 1, some 5⟩, ⟨true, none, none⟩] := by simp [pairLims]
    rw [e]
    refine List.Forall₂.cons ⟨rfl, ⟨rfl, rfl, fun a h => ?_, fun a h => ?_⟩⟩ (List.Forall₂.cons ⟨rfl, ⟨rfl, rfl, fun a h => ?_, fun a h => ?_⟩⟩ List.Forall₂.nil)
    · cases h; rfl
    · cases h; rfl
    · cases h
    · cases h
  lims := Or.inl rfl
  start := by
    intro k
    fin_cases k <;> refine ⟨fun a h => ?_, fun a h => ?_⟩ <;> simp [pairLims] at h ⊢
    · rw [← h]; norm_num
    · rw [← h]; norm_num
  order := by
    intro k a b hk ha hb
    fin_cases k
    · simp only [pairLims] at ha hb
      cases ha
      cases hb
      norm_num
    · cases hk
  hfree := ⟨0, rfl⟩
  enough := le_rfl
  size := by norm_num
  cols := by
    intro x hx k h hk hh
    fin_cases k
    · have hh0 : h ≠ 0 := by
        intro g
        rw [g, abs_zero] at hh
        exact (stepSize_pos _).ne hh
      have hx1 : x 1 = 4 := (hx 1).2 rfl
      have q0 : quotient pairD x 0 h 0 = 1 := by
        simp [quotient, pairD, hh0]
      have q1 : quotient pairD x 0 h 1 = 4 := by
        simp only [quotient, pairD, Matrix.cons_val_one, Matrix.cons_val_fin_one, Function.update_self]
        rw [Function.update_of_ne (by decide), hx1]
        field_simp
        ring
      change ∑ i, quotient pairD x 0 h i ^ 2 < _
      rw [Fin.sum_univ_two, q0, q1]
      have := largeSize_big
      push_cast
      nlinarith
    · cases hk

/-- The fit ends, `x` is between 1 and 5 and `y` is four. -/
example (stop : ℕ → Bool) : ∃ N r, (∀ fuel, N ≤ fuel → levMarFull pairDev 2 (fin (1 / 10 ^ 8)) true pairPars stop fuel (reals ![2, 4]) = .ok r) ∧
    r.status ∈ [1, 2, 3, 4, 5, 6, 7, 8, 100] ∧ ∃ x y, r.xall = [fin x, fin y] ∧ 1 ≤ x ∧ x ≤ 5 ∧ y = 4 := by
  obtain ⟨N, r, h1, h2, x, h3, h4⟩ := C96_ends_partial pair_fit (fun x hx => ⟨0, rfl, fun e => by
    have := (hx 0).1.1 1 rfl
    rw [e] at this
    norm_num at this⟩) (fin (1 / 10 ^ 8)) stop
  exact ⟨N, r, h1, h2, x 0, x 1, by rw [h3]; simp [reals], (h4 0).1.1 1 rfl, (h4 0).1.2 5 rfl, (h4 1).2 rfl⟩

end Imfit
