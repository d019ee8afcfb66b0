import Verif.Lemmas.LevMarXR

/-!
# C27: Levenberg-Marquardt respects limits and fixed parameters

* Fixed parameters: for every number type, objective and result of the linear algebra (`C27_fixed`).
* Start values outside the limits: rejected before any evaluation (`C27_reject`), for every number type.
* Limits: exact arithmetic, for every finite search direction (`C27_partial`). The points at which derivatives are taken are within the limits if the limits are
  further apart than twice the finite difference; otherwise they may lie below the lower limit (`C27_false`). If the linear algebra gives a direction that is not
  finite, the trial point is not a number (`C27_direction_false`).
-/

namespace Imfit

open XR

section
variable {α : Type} [FP α]

omit [FP α] in
theorem fixed_not_free {pars : List (MPPar α)} {n i : Nat} {p : MPPar α} (hp : pars[i]? = some p) (hf : p.fixed = true) :
    i ∉ freeIdx (some pars) n := by
  unfold freeIdx
  simp only [List.mem_filter, List.mem_range, hp, hf, not_and]
  intro _
  simp

/-- Fixed parameters keep their value in every vector that is evaluated and in the vector returned. -/
theorem C27_fixed (dev : List α → List α) (m : Nat) (ftol : α) (pars : List (MPPar α)) (outer : Nat → OuterLA α) (inner : Nat → InnerLA α) (fuel : Nat)
    (start : List α) (r : LMOut α) (h : levMarFit dev m ftol true pars outer inner fuel start = .ok r) (i : Nat) (p : MPPar α)
    (hp : pars[i]? = some p) (hf : p.fixed = true) :
    (∀ v ∈ r.trace, v.2.length = start.length ∧ v.2[i]? = start[i]?) ∧ r.xall.length = start.length ∧ r.xall[i]? = start[i]? := by
  unfold levMarFit at h
  rw [if_pos rfl] at h
  obtain ⟨h1, h2, h3⟩ := mpfit_agrees (P := fun _ _ => True) (Q := fun _ _ => True) (fun _ _ _ _ _ _ => trivial) (fun _ _ _ => trivial)
    (fun _ _ _ _ _ => trivial) (fun _ _ _ _ _ _ _ _ _ _ => trivial) h
  have hi := fixed_not_free (n := start.length) hp hf
  refine ⟨?_, ?_⟩
  · intro v hv
    cases hb : v.1
    · exact ⟨(h1 v hv hb).len, (h1 v hv hb).off i hi⟩
    · exact ⟨(h2 v hv hb).len, (h2 v hv hb).off i hi⟩
  · rcases h3 with e | e
    · rw [e]; exact ⟨rfl, rfl⟩
    · exact ⟨e.len, e.off i hi⟩

theorem checkPars_out {pars : List (MPPar α)} {xs : List α} {i : Nat} {p : MPPar α} {x : α} (hp : pars[i]? = some p) (hx : xs[i]? = some x)
    (hout : (p.lim0 = true ∧ flt x p.lo = true) ∨ (p.lim1 = true ∧ flt p.hi x = true)) :
    checkPars pars xs = some MP_ERR_BOUNDS ∨ checkPars pars xs = some MP_ERR_INITBOUNDS := by
  induction pars generalizing xs i with
  | nil => simp at hp
  | cons q ps ih =>
    cases xs with
    | nil => simp at hx
    | cons y ys =>
      have hcase : ∀ e, checkPar q y = some e → e = MP_ERR_BOUNDS ∨ e = MP_ERR_INITBOUNDS := by
        intro e he
        unfold checkPar at he
        split at he
        · cases he; exact Or.inl rfl
        · split at he
          · cases he; exact Or.inr rfl
          · cases he
      unfold checkPars
      cases hc : checkPar q y with
      | some e =>
        rcases hcase e hc with rfl | rfl
        · exact Or.inl rfl
        · exact Or.inr rfl
      | none =>
        cases i with
        | succ i => exact ih (by simpa using hp) (by simpa using hx)
        | zero =>
          exfalso
          simp only [List.length_cons, Nat.zero_lt_succ, getElem?_pos, List.getElem_cons_zero, Option.some.injEq] at hp hx
          subst hp hx
          unfold checkPar at hc
          split at hc
          · cases hc
          · rw [if_pos] at hc
            · cases hc
            · rcases hout with ⟨a, b⟩ | ⟨a, b⟩ <;> simp [a, b]

/-- A start value outside its limits: nothing is evaluated, the parameters are not changed, and the status tells that there is an error. -/
theorem C27_reject (dev : List α → List α) (m : Nat) (ftol : α) (pars : List (MPPar α)) (outer : Nat → OuterLA α) (inner : Nat → InnerLA α) (fuel : Nat)
    (start : List α) (i : Nat) (p : MPPar α) (x : α) (hp : pars[i]? = some p) (hx : start[i]? = some x)
    (hout : (p.lim0 = true ∧ flt x p.lo = true) ∨ (p.lim1 = true ∧ flt p.hi x = true)) :
    ∃ r, levMarFit dev m ftol true pars outer inner fuel start = .ok r ∧ r.trace = [] ∧ r.xall = start ∧ r.status ∈ [-19, -21, -22] := by
  unfold levMarFit mpfit
  rw [if_pos rfl]
  simp only [checkStart]
  split
  · exact ⟨_, rfl, rfl, rfl, by simp [lmFail, MP_ERR_NFREE]⟩
  · rcases checkPars_out hp hx hout with e | e <;> rw [e]
    · exact ⟨_, rfl, rfl, rfl, by simp [lmFail, MP_ERR_BOUNDS]⟩
    · exact ⟨_, rfl, rfl, rfl, by simp [lmFail, MP_ERR_INITBOUNDS]⟩

end

/-! ### Limits -/

/-- The `mp_par` record of a parameter. -/
structure IsPar (l : Spec.Limit) (p : MPPar XR) : Prop where
  fixed : p.fixed = l.fixed
  lims : Describes l ⟨p.lim0, p.lim1, p.lo, p.hi⟩

/-- No limits. -/
def noLimit : Spec.Limit := ⟨false, none, none⟩

/-- Limits of the `j`-th free parameter. -/
def limitOf (ls : List Spec.Limit) (fr : List Nat) (j : Nat) : Spec.Limit := (fr[j]?.bind fun k => ls[k]?).getD noLimit

theorem noLimit_within (r : ℝ) : noLimit.Within r := ⟨by simp [noLimit], by simp [noLimit]⟩

theorem allFin_map {v : List XR} (h : AllFin v) : ∃ w : List ℝ, v = w.map fin := by
  induction v with
  | nil => exact ⟨[], rfl⟩
  | cons x t ih =>
    obtain ⟨w, hw⟩ := ih fun y hy => h y (List.mem_cons_of_mem _ hy)
    obtain ⟨r, rfl⟩ := h x (by simp)
    exact ⟨r :: w, by rw [hw]; rfl⟩

/-- From the free parameters to the whole vector. -/
theorem obeys_of_agrees {ls : List Spec.Limit} {fr : List Nat} {start : List ℝ} {v : List XR}
    (hin : ∀ (i : Nat) (l : Spec.Limit) (s : ℝ), ls[i]? = some l → start[i]? = some s → l.Within s)
    (hfree : ∀ (i : Nat) (l : Spec.Limit), ls[i]? = some l → (i ∈ fr ↔ l.fixed = false))
    (h : Agrees fr (start.map fin) (fun j a => ∃ r, a = fin r ∧ (limitOf ls fr j).Within r) v) : Spec.Obeys ls start v := by
  have hlv : v.length = start.length := by rw [h.len, List.length_map]
  have hfin : AllFin v := by
    intro x hx
    obtain ⟨i, hi, rfl⟩ := List.getElem_of_mem hx
    by_cases hm : i ∈ fr
    · obtain ⟨j, hj, rfl⟩ := List.getElem_of_mem hm
      obtain ⟨a, ha, r, hr, _⟩ := h.on j _ (List.getElem?_eq_getElem hj)
      rw [List.getElem?_eq_getElem hi] at ha
      exact ⟨r, (Option.some.inj ha).trans hr⟩
    · have e := h.off i hm
      rw [List.getElem?_eq_getElem hi, List.getElem?_map, List.getElem?_eq_getElem (by omega)] at e
      exact ⟨_, Option.some.inj e⟩
  obtain ⟨w, hw⟩ := allFin_map hfin
  refine ⟨w, hw, by rw [← hlv, hw, List.length_map], ?_⟩
  intro i l r s hl hr hs
  have hv : v[i]? = some (fin r) := by rw [hw, List.getElem?_map, hr]; rfl
  by_cases hm : i ∈ fr
  · obtain ⟨j, hj, hji⟩ := List.getElem_of_mem hm
    have hjk : fr[j]? = some i := by rw [List.getElem?_eq_getElem hj, hji]
    obtain ⟨a, ha, r', hr', hW⟩ := h.on j i hjk
    rw [hv] at ha
    have : r = r' := by rw [← Option.some.inj ha] at hr'; exact XR.fin.inj hr'
    subst this
    have e : limitOf ls fr j = l := by simp [limitOf, hjk, hl]
    rw [e] at hW
    exact ⟨hW, fun hf => by rw [(hfree i l hl).1 hm] at hf; cases hf⟩
  · have e := h.off i hm
    rw [hv, List.getElem?_map, hs] at e
    have : r = s := XR.fin.inj (Option.some.inj e)
    subst this
    exact ⟨hin i l r hl hs, fun _ => rfl⟩

/-- **C27.** If the start values are within the limits and the search directions are finite: every trial point, and the vector returned, is within the limits
and has the values of the fixed parameters. So is every vector at which a derivative is taken, if the limits are wide enough for a finite difference. -/
theorem C27_partial (dev : List XR → List XR) (m : Nat) (ftol : XR) (limitsExist : Bool) (ls : List Spec.Limit) (pars : List (MPPar XR))
    (hpars : List.Forall₂ IsPar ls pars) (outer : Nat → OuterLA XR) (inner : Nat → InnerLA XR) (hdir : ∀ k, AllFin (inner k).dir) (fuel : Nat)
    (start : List ℝ) (hlen : ls.length = start.length)
    (hex : limitsExist = true ∨ ∀ l ∈ ls, l = noLimit)
    (hin : ∀ (i : Nat) (l : Spec.Limit) (s : ℝ), ls[i]? = some l → start[i]? = some s → l.Within s) (r : LMOut XR)
    (h : levMarFit dev m ftol limitsExist pars outer inner fuel (start.map fin) = .ok r) :
    (∀ v ∈ r.trace, v.1 = false → Spec.Obeys ls start v.2) ∧
    ((∀ l ∈ ls, l.fixed = false → WideEnough l) → ∀ v ∈ r.trace, v.1 = true → Spec.Obeys ls start v.2) ∧
    Spec.Obeys ls start r.xall := by
  unfold levMarFit at h
  set ps : Option (List (MPPar XR)) := if limitsExist then some pars else none with hps
  set fr := freeIdx ps (start.map fin).length with hfr
  have hlp : ls.length = pars.length := hpars.length_eq
  have hpar : ∀ (i : Nat) (l : Spec.Limit) (p : MPPar XR), ls[i]? = some l → pars[i]? = some p → IsPar l p := by
    intro i l p hl hp
    obtain ⟨h1, rfl⟩ := List.getElem?_eq_some_iff.1 hl
    obtain ⟨h2, rfl⟩ := List.getElem?_eq_some_iff.1 hp
    exact (List.forall₂_iff_get.1 hpars).2 i h1 h2
  have hfree : ∀ (i : Nat) (l : Spec.Limit), ls[i]? = some l → (i ∈ fr ↔ l.fixed = false) := by
    intro i l hl
    have hil := (List.getElem?_eq_some_iff.1 hl).1
    rw [hfr, hps]
    cases limitsExist with
    | true =>
      have hp : pars[i]? = some pars[i] := List.getElem?_eq_getElem (by omega)
      have := (hpar i l _ hl hp).fixed
      simp only [freeIdx, if_true, List.mem_filter, List.mem_range, List.length_map, hp, this]
      simp [← hlen, hil]
    | false =>
      rcases hex with e | e
      · cases e
      · have : l = noLimit := e l (List.mem_of_getElem? hl)
        subst this
        simp [freeIdx, noLimit, ← hlen, hil]
  -- the limits of the free parameters
  have hlims : ∀ lims, freeLims ps fr = .ok lims → (∀ j (h : j < lims.length), Describes (limitOf ls fr j) lims[j]) ∧
      ((∀ j r, (limitOf ls fr j).Within r) ∧ lims = [] ∨ lims.length = fr.length) := by
    intro lims hl
    rw [hps] at hl
    cases limitsExist with
    | false =>
      simp only [freeLims] at hl
      cases hl
      refine ⟨fun j hj => absurd hj (by simp), Or.inl ⟨?_, rfl⟩⟩
      intro j r
      rcases hex with e | e
      · cases e
      · have hno : limitOf ls fr j = noLimit := by
          unfold limitOf
          cases hk : (fr[j]?.bind fun k => ls[k]?) with
          | none => rfl
          | some l =>
            obtain ⟨k, _, hk2⟩ := Option.bind_eq_some_iff.1 hk
            exact e l (List.mem_of_getElem? hk2)
        rw [hno]
        exact noLimit_within r
    | true =>
      simp only [if_true, freeLims] at hl
      obtain ⟨h1, h2⟩ := loopMap_elems hl
      refine ⟨?_, Or.inr h1⟩
      intro j hj
      obtain ⟨k, hk, h3⟩ := bind_ok (h2 j hj)
      obtain ⟨p, hp, h3⟩ := bind_ok h3
      obtain ⟨a, b⟩ := rd_eq_ok_iff.1 hk
      obtain ⟨c, d⟩ := rd_eq_ok_iff.1 hp
      have hkl : ls[k]? = some ls[k] := List.getElem?_eq_getElem (by omega)
      have hlim : limitOf ls fr j = ls[k] := by
        simp [limitOf, List.getElem?_eq_getElem a, b, hkl]
      rw [hlim, ← Except.ok.inj h3]
      exact (hpar k _ p hkl (by rw [List.getElem?_eq_getElem c, d])).lims
  have main : ∀ Q : Nat → XR → Prop, (∀ j a, (∃ r, a = fin r ∧ (limitOf ls fr j).Within r) → Q j a) →
      (∀ lims, freeLims ps fr = .ok lims → ∀ j a, (∃ r, a = fin r ∧ (limitOf ls fr j).Within r) → Q j (a + fdStep lims[j]? a)) →
      (∀ v ∈ r.trace, v.1 = false → Agrees fr (start.map fin) (fun j a => ∃ r, a = fin r ∧ (limitOf ls fr j).Within r) v.2) ∧
      (∀ v ∈ r.trace, v.1 = true → Agrees fr (start.map fin) Q v.2) ∧
      (r.xall = start.map fin ∨ Agrees fr (start.map fin) (fun j a => ∃ r, a = fin r ∧ (limitOf ls fr j).Within r) r.xall) := by
    intro Q hPQ hQ
    refine mpfit_agrees ?_ hPQ hQ ?_ h
    · intro _ j k a hj ha
      rw [List.getElem?_map] at ha
      obtain ⟨s, hs, rfl⟩ := Option.map_eq_some_iff.1 ha
      refine ⟨s, rfl, ?_⟩
      have hks := (List.getElem?_eq_some_iff.1 hs).1
      have hkl : ls[k]? = some ls[k] := List.getElem?_eq_getElem (by omega)
      have hlim : limitOf ls fr j = ls[k] := by
        have : fr[j]? = some k := hj
        simp [limitOf, this, hkl]
      rw [hlim]
      exact hin k _ s hkl hs
    · intro lims hl k x p hx hP hp
      obtain ⟨a, b⟩ := hlims lims hl
      refine newPoint_within a hP ?_ (hdir k) hp
      rcases b with ⟨b, _⟩ | b
      · exact Or.inl b
      · exact Or.inr (by rw [hx, b])
  have hob := fun {v} => obeys_of_agrees (v := v) hin hfree
  obtain ⟨h1, _, h3⟩ := main (fun _ _ => True) (fun _ _ _ => trivial) (fun _ _ _ _ _ => trivial)
  refine ⟨fun v hv hf => hob (h1 v hv hf), ?_, ?_⟩
  · intro hw v hv hf
    have hw' : ∀ j, WideEnough (limitOf ls fr j) := by
      intro j
      unfold limitOf
      cases hk : (fr[j]?.bind fun k => ls[k]?) with
      | none => intro a b r ha; cases ha
      | some l =>
        obtain ⟨k, hk1, hk2⟩ := Option.bind_eq_some_iff.1 hk
        exact hw l (List.mem_of_getElem? hk2) ((hfree k l hk2).1 (List.mem_of_getElem? hk1))
    obtain ⟨_, h2, _⟩ := main (fun j a => ∃ r, a = fin r ∧ (limitOf ls fr j).Within r) (fun _ _ h => h) (by
      rintro lims hl j a ⟨r, rfl, hr⟩
      obtain ⟨c, d⟩ := hlims lims hl
      refine fdStep_within ?_ ?_ (hw' j) hr
      · intro q hq
        obtain ⟨hj, rfl⟩ := List.getElem?_eq_some_iff.1 hq
        exact c j hj
      · intro hq
        rcases d with ⟨d, _⟩ | d
        · cases hu : (limitOf ls fr j).upper with
          | none => rfl
          | some b => have := (d j (b + 1)).2 b hu; linarith
        · rw [List.getElem?_eq_none_iff, d] at hq
          have : fr[j]? = none := List.getElem?_eq_none_iff.2 hq
          simp [limitOf, this, noLimit])
    exact hob (h2 v hv hf)
  · rcases h3 with e | e
    · rw [e]
      refine ⟨start, rfl, rfl, ?_⟩
      intro i l r s hl hr hs
      rw [hr] at hs
      cases hs
      exact ⟨hin i l r hl hr, fun _ => rfl⟩
    · exact hob e

/-! ### Counterexamples -/

/-- The derivative is taken below the lower limit: limits 10⁹ and 10⁹ + 1, start 10⁹, constant objective. -/
theorem C27_false : ¬ ∀ (dev : List XR → List XR) (m : Nat) (ftol : XR) (ls : List Spec.Limit) (pars : List (MPPar XR)) (outer : Nat → OuterLA XR)
    (inner : Nat → InnerLA XR) (fuel : Nat) (start : List ℝ) (r : LMOut XR), List.Forall₂ IsPar ls pars → ls.length = start.length →
    (∀ k, AllFin (inner k).dir) →
    (∀ (i : Nat) (l : Spec.Limit) (s : ℝ), ls[i]? = some l → start[i]? = some s → l.Within s) → levMarFit dev m ftol true pars outer inner fuel (start.map fin) = .ok r →
    ∀ v ∈ r.trace, Spec.Obeys ls start v.2 := by
  intro H
  have hpos : (0 : ℝ) < fdSize (10 ^ 9) := fdSize_pos _
  have hsz : (1 : ℝ) < fdSize (10 ^ 9) := by
    unfold fdSize
    rw [if_neg (by norm_num), abs_of_pos (by norm_num)]
    have : (10 : ℝ)⁻¹ ^ 8 ≤ Real.sqrt ((MACHEP0 : ℚ) : ℝ) := by
      apply Real.le_sqrt_of_sq_le
      unfold MACHEP0
      norm_num
    calc (1 : ℝ) < (10 : ℝ)⁻¹ ^ 8 * 10 ^ 9 := by norm_num
      _ ≤ _ := by gcongr
  have hrun : levMarFit (fun _ => [fin 1]) 1 (fin 1) true [⟨false, true, true, fin (10 ^ 9), fin (10 ^ 9 + 1)⟩] (fun _ => ⟨true, fin 0, fin (10 ^ 9)⟩)
      (fun _ => ⟨[], 0, 0, 0, 0, false⟩) 1 ([(10 : ℝ) ^ 9].map fin) =
      .ok ⟨[fin (10 ^ 9)], MP_OK_DIR, dmax (mpEnorm [fin 1]) (-1) * dmax (mpEnorm [fin 1]) (-1), mpEnorm [fin 1] * mpEnorm [fin 1], 2,
        [(false, [fin (10 ^ 9)]), (true, [fin (10 ^ 9 + -fdSize (10 ^ 9))])]⟩ := by
    have hfd : fdStep (some (⟨true, true, fin (10 ^ 9), fin (10 ^ 9 + 1)⟩ : FreeLim XR)) (fin (10 ^ 9)) = fin (-fdSize (10 ^ 9)) := by
      unfold fdStep
      simp only [fdH_fin, Bool.true_and, fin_sub, flt_fin, decide_eq_true_eq]
      rw [if_pos (by linarith)]
      rfl
    have e1 : freeIdx (some [(⟨false, true, true, fin (10 ^ 9), fin (10 ^ 9 + 1)⟩ : MPPar XR)]) 1 = [0] := rfl
    have e2 : checkStart (some [(⟨false, true, true, fin (10 ^ 9), fin (10 ^ 9 + 1)⟩ : MPPar XR)]) [fin (10 ^ 9)] = none := by
      norm_num [checkStart, checkPars, checkPar]
    have e3 : freeLims (some [(⟨false, true, true, fin (10 ^ 9), fin (10 ^ 9 + 1)⟩ : MPPar XR)]) [0] = .ok [⟨true, true, fin (10 ^ 9), fin (10 ^ 9 + 1)⟩] := rfl
    have e4 : badConf (levMarConf (fin 1)) = false := by
      simp only [badConf, levMarConf, zero_def, lit_def, flt_fin, zero_lt_one, decide_true, if_true, fle_fin]
      norm_num
    have e5 : fdPoints [0] [(⟨true, true, fin (10 ^ 9), fin (10 ^ 9 + 1)⟩ : FreeLim XR)] [fin (10 ^ 9)] = .ok [[fin (10 ^ 9 + -fdSize (10 ^ 9))]] := by
      unfold fdPoints
      simp only [List.length_cons, List.length_nil, Nat.zero_add, loopMap, rd, List.getElem?_cons_zero, ok_bind, hfd, fin_add]
      rfl
    have e6 : scatter [0] [fin (10 ^ 9)] [fin (10 ^ 9)] = .ok [fin (10 ^ 9)] := rfl
    have e7 : (loopMap 1 fun i => do
        let k ← rd [0] i
        rd [fin (10 ^ 9)] k : Res (List XR)) = .ok [fin (10 ^ 9)] := rfl
    have e8 : outerExit (levMarConf (fin 1)) (⟨true, fin 0, fin (10 ^ 9)⟩ : OuterLA XR) = some MP_OK_DIR := by
      simp only [outerExit, levMarConf, lit_def, fle_fin, Bool.not_true, Bool.false_eq_true, if_false]
      rw [if_pos]
      norm_num
    unfold levMarFit mpfit
    simp only [if_true, List.map_cons, List.map_nil, List.length_cons, List.length_nil, Nat.zero_add, e1, e2, e3, e4, ok_bind]
    simp only [List.cons_ne_nil, if_false, Bool.false_eq_true, lt_irrefl]
    unfold lmIterate
    simp only [List.length_cons, List.length_nil, Nat.zero_add, e7, ok_bind]
    simp only [lmLoop, outerTurn, e6, e5, ok_bind, pure_eq_ok, e8, lmLeave, lmFinish]
    rfl
  have := H (fun _ => [fin 1]) 1 (fin 1) [⟨false, some (10 ^ 9), some (10 ^ 9 + 1)⟩] [⟨false, true, true, fin (10 ^ 9), fin (10 ^ 9 + 1)⟩]
    (fun _ => ⟨true, fin 0, fin (10 ^ 9)⟩) (fun _ => ⟨[], 0, 0, 0, 0, false⟩) 1 [10 ^ 9] _
    (List.Forall₂.cons ⟨rfl, rfl, rfl, by simp, by simp⟩ List.Forall₂.nil) rfl (fun _ => by intro x hx; cases hx) (by
      intro i l s hl hs
      cases i with
      | zero =>
        simp only [List.length_cons, List.length_nil, Nat.zero_lt_succ, getElem?_pos, List.getElem_cons_zero, Option.some.injEq] at hl hs
        subst hl hs
        exact ⟨by simp, by simp⟩
      | succ i => simp at hl) hrun _ (List.mem_cons_of_mem _ (List.mem_singleton.2 rfl))
  obtain ⟨w, hw, _, hlim⟩ := this
  cases w with
  | nil => cases hw
  | cons a t =>
    simp only [List.map_cons, List.cons.injEq, XR.fin.injEq] at hw
    have := (hlim 0 _ a (10 ^ 9) rfl rfl rfl).1.1 _ rfl
    linarith [hw.1]

/-- A direction that is not a number: the trial point is not a number. -/
theorem C27_direction_false : newPoint [(⟨true, true, fin 0, fin 5⟩ : FreeLim XR)] [fin 1] [nan] = .ok ([nan], fin 1) := by
  have h1 : pegged (⟨true, true, fin 0, fin 5⟩ : FreeLim XR) (fin 1) nan = nan := by
    simp [pegged, FP.flt, XR.lt']
  have h2 : shorten (⟨true, true, fin 0, fin 5⟩ : FreeLim XR) (fin 1) nan nan (fin 1) = fin 1 := by
    simp [shorten, FP.flt, XR.lt']
  have h3 : snap (⟨true, true, fin 0, fin 5⟩ : FreeLim XR) nan = nan := by
    have e1 : ∀ y : XR, fle y nan = false := by intro y; cases y <;> rfl
    have e2 : ∀ y : XR, fle nan y = false := by intro y; cases y <;> rfl
    simp [snap, e1, e2]
  have hn : -(nan : XR) = nan := rfl
  simp only [newPoint, anyLim, List.any_cons, Bool.or_self, Bool.true_or, if_true, List.length_cons, List.length_nil, Nat.zero_add, loopAcc, loopMap, rd,
    List.getElem?_cons_zero, ok_bind, pure_eq_ok, List.nil_append, one_def, hn, h1, h2, nan_mul, add_nan, h3]

/-- Non-vacuous: a step from 1 to 11 is cut at the limit 5, taking 2/5 of it. -/
example : newPoint [(⟨true, true, fin 0, fin 5⟩ : FreeLim XR)] [fin 1] [fin (-10)] = .ok ([fin 5], fin (2 / 5)) := by
  have h1 : pegged (⟨true, true, fin 0, fin 5⟩ : FreeLim XR) (fin 1) (fin 10) = fin 10 := by
    norm_num [pegged]
  have h2 : shorten (⟨true, true, fin 0, fin 5⟩ : FreeLim XR) (fin 1) (fin 10) (fin 10) (fin 1) = fin (2 / 5) := by
    have h10 : |(10 : ℝ)| = 10 := by norm_num
    have : ((MACHEP0 : ℚ) : ℝ) < 10 := by unfold MACHEP0; norm_num
    simp only [shorten, lit_def, fabs_fin, h10, flt_fin, this, decide_true, fin_add, Bool.true_and]
    norm_num [dmin]
  have h3 : snap (⟨true, true, fin 0, fin 5⟩ : FreeLim XR) (fin 5) = fin 5 := by
    obtain ⟨e, he, hle⟩ := upperEdge_fin 5
    have hlo : lowerEdge (fin (0 : ℝ)) = fin ((MACHEP0 : ℚ) : ℝ) := by simp [lowerEdge, feq]
    have : ¬ (5 : ℝ) ≤ ((MACHEP0 : ℚ) : ℝ) := by unfold MACHEP0; norm_num
    simp [snap, he, hle, hlo, this]
  have hn : -(fin (-10) : XR) = fin 10 := by simp
  have h5 : (1 : ℝ) + 10 * (2 / 5) = 5 := by norm_num
  simp only [newPoint, anyLim, List.any_cons, Bool.or_self, Bool.true_or, if_true, List.length_cons, List.length_nil, Nat.zero_add, loopAcc, loopMap, rd,
    List.getElem?_cons_zero, ok_bind, pure_eq_ok, List.nil_append, one_def, hn, h1, h2, fin_mul, fin_add, h5, h3]

/-- Non-vacuous: limits 0 and 5 are wide enough. -/
example : WideEnough ⟨false, some 0, some 5⟩ := by
  intro a b r ha hb h1 h2
  simp only [Option.some.injEq] at ha hb
  subst ha hb
  have hs : Real.sqrt ((MACHEP0 : ℚ) : ℝ) ≤ 1 / 10 := by
    rw [Real.sqrt_le_left (by norm_num)]
    unfold MACHEP0; norm_num
  have h0 := Real.sqrt_nonneg ((MACHEP0 : ℚ) : ℝ)
  unfold fdSize
  split
  · linarith
  · rw [abs_of_nonneg h1]; nlinarith

end Imfit
