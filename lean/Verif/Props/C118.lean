import Verif.Model.Dispatch
import Verif.Spec.Dispatch
import Verif.Spec.Options
import Verif.Props.C24
import Verif.Props.C46
import Verif.Props.C96

/-!
# C118: whichever solver is chosen, the fit keeps to the limits
-/

namespace Imfit
open XR Spec

/-! ## The choice -/

section
variable {α : Type} [FP α]

/-- The solver that the command line asks for does the fit. -/
theorem C118_chosen (num : Str → α) (cores : Int) (g : CmdGiven) (o : ImfitOpts α) (ho : ObeysCmd num cores g o) (E : SolverEnv α) (params : List α) (info : List (MPPar α)) (tol : α)
    (limitsExist : Bool) :
    ((g.has "de" || g.has "de-lhs") = true →
      dispatchToSolver E o.solver params info tol limitsExist o.nloptName o.useLHS = byDiffEvoln E params info tol (g.has "de-lhs")) ∧
    ((g.has "de" || g.has "de-lhs") = false → ∀ name, g.first "nlopt" = some name →
      dispatchToSolver E o.solver params info tol limitsExist o.nloptName o.useLHS = byNLOpt E params info name) ∧
    ((g.has "de" || g.has "de-lhs") = false → g.first "nlopt" = none → g.has "nm" = true →
      dispatchToSolver E o.solver params info tol limitsExist o.nloptName o.useLHS = bySimplex E params info) ∧
    ((g.has "de" || g.has "de-lhs") = false → g.first "nlopt" = none → g.has "nm" = false →
      dispatchToSolver E o.solver params info tol limitsExist o.nloptName o.useLHS = byLevMar E params info tol limitsExist) := by
  rw [ho.solver, ho.nloptName, ho.useLHS]
  refine ⟨fun h => ?_, fun h name hn => ?_, fun h hn hm => ?_, fun h hn hm => ?_⟩
  · rw [if_pos h]
    rfl
  · rw [if_neg (by rw [h]; decide), hn]
    rfl
  · rw [if_neg (by rw [h]; decide), hn, hm]
    rfl
  · rw [if_neg (by rw [h]; decide), hn, hm]
    rfl

/-- Any other number: nothing is done, and the status says so. -/
theorem C118_unknown (E : SolverEnv α) (id : Int) (h : id ∉ [1, 2, 3, 5]) (params : List α) (info : List (MPPar α)) (tol : α) (limitsExist : Bool) (name : List Char) (useLHS : Bool) :
    dispatchToSolver E id params info tol limitsExist name useLHS = .ok ⟨-100, params, []⟩ := by
  simp only [List.mem_cons, List.not_mem_nil, or_false, not_or] at h
  obtain ⟨h1, h2, h3, h5⟩ := h
  rw [dispatchToSolver, if_neg h1, if_neg h2, if_neg h3, if_neg h5]

end

/-! ## Limits -/

/-- Start values. -/
noncomputable def starts (us : List UserPar) : List XR := us.map fun u => fin u.start

/-- Records of the limits. -/
noncomputable def records (us : List UserPar) : List (MPPar XR) := us.map UserPar.record

/-- As in C27 and C96. -/
def Spec.UserPar.limit (u : UserPar) : Limit :=
  match u.wish with
  | .free => ⟨false, none, none⟩
  | .fixed => ⟨true, none, none⟩
  | .limits a b => ⟨false, some a, some b⟩

/-- As in C24. -/
noncomputable def Spec.UserPar.fitPar (u : UserPar) : FitPar :=
  match u.wish with
  | .free => ⟨u.start, false, false, false, 0, 0⟩
  | .fixed => ⟨u.start, true, false, false, 0, 0⟩
  | .limits a b => ⟨u.start, false, true, true, a, b⟩

theorem keeps_start {us : List UserPar} (hs : ∀ u ∈ us, u.Sound) : KeepsAll us (starts us) := by
  unfold KeepsAll starts
  rw [List.forall₂_map_right_iff, List.forall₂_same]
  intro u hu
  have := hs u hu
  unfold UserPar.Sound at this
  unfold UserPar.Keeps
  cases hw : u.wish with
  | free => trivial
  | fixed => rfl
  | limits a b => rw [hw] at this; exact ⟨_, rfl, this.2⟩

/-! ### Levenberg-Marquardt -/

theorem allowed_keeps {us : List UserPar} {x : Fin us.length → ℝ} (h : Allowed (fun k => (us.get k).limit) (fun k => (us.get k).start) x) : KeepsAll us (reals x) := by
  unfold KeepsAll
  rw [List.forall₂_iff_get]
  refine ⟨by simp [reals], fun i h1 h2 => ?_⟩
  have hk := h ⟨i, h1⟩
  simp only [reals, List.get_eq_getElem, List.getElem_ofFn] at hk ⊢
  unfold UserPar.limit at hk
  unfold UserPar.Keeps
  cases hw : us[i].wish with
  | free => trivial
  | fixed =>
    rw [hw] at hk
    exact congrArg fin (hk.2 rfl)
  | limits a b =>
    rw [hw] at hk
    exact ⟨_, rfl, hk.1.1 a rfl, hk.1.2 b rfl⟩

theorem starts_reals (us : List UserPar) : starts us = reals fun k : Fin us.length => (us.get k).start := by
  unfold starts reals
  apply List.ext_getElem
  · simp
  · intro i h1 h2
    simp

theorem levMar_keeps {us : List UserPar} {E : SolverEnv XR} {D : (Fin us.length → ℝ) → Fin E.nDev → ℝ} {tol : XR} {limitsExist : Bool}
    (F : Fit E.dev D limitsExist (fun k => (us.get k).limit) (records us) fun k => (us.get k).start) {r : Fitted XR}
    (h : byLevMar E (starts us) (records us) tol limitsExist = .ok r) :
    KeepsAll us r.params ∧ ((∀ u ∈ us, WideEnough u.limit) → ∀ v ∈ r.tried, KeepsAll us v) := by
  unfold byLevMar at h
  rw [starts_reals] at h
  obtain ⟨q, h1, h⟩ := bind_ok h
  cases h
  obtain ⟨a1, a2, x, a3, a4⟩ := C96_limits_partial F tol E.stop E.fuel q h1
  refine ⟨by simp only; rw [a3]; exact allowed_keeps a4, fun hw v hv => ?_⟩
  obtain ⟨p, hp, rfl⟩ := List.mem_map.1 hv
  cases hb : p.1 with
  | false =>
    obtain ⟨x, e, hx⟩ := a1 p hp hb
    rw [e]
    exact allowed_keeps hx
  | true =>
    obtain ⟨x, e, hx⟩ := a2 (fun k _ => hw _ (List.get_mem us k)) p hp hb
    rw [e]
    exact allowed_keeps hx

/-! ### Differential evolution -/

theorem allows_keeps {us : List UserPar} {v : List XR} (h : List.Forall₂ FitPar.Allows (us.map UserPar.fitPar) v) : KeepsAll us v := by
  unfold KeepsAll
  rw [List.forall₂_map_left_iff] at h
  refine h.imp fun u x hx => ?_
  obtain ⟨r, rfl, hr⟩ := hx
  unfold UserPar.fitPar at hr
  unfold UserPar.Keeps
  cases hw : u.wish with
  | free => trivial
  | fixed => rw [hw] at hr; exact congrArg fin hr
  | limits a b => rw [hw] at hr; exact ⟨r, rfl, hr⟩

theorem records_toDE (us : List UserPar) : (records us).map MPPar.toDE = (us.map UserPar.fitPar).map FitPar.lim := by
  unfold records
  rw [List.map_map, List.map_map]
  refine List.map_congr_left fun u _ => ?_
  simp only [Function.comp, UserPar.record, UserPar.fitPar]
  cases u.wish <;> rfl

theorem starts_fitPar (us : List UserPar) : starts us = (us.map UserPar.fitPar).map fun p => fin p.value := by
  unfold starts
  rw [List.map_map]
  refine List.map_congr_left fun u _ => ?_
  simp only [Function.comp, UserPar.fitPar]
  cases u.wish <;> rfl

/-- Some parameter has neither a limit nor a fixed value: `DiffEvolnFit` refuses. -/
theorem diffEvoln_refuses {us : List UserPar} (h : ∃ u ∈ us, u.wish = .free) (E : SolverEnv XR) (tol : XR) (useLHS : Bool) :
    byDiffEvoln E (starts us) (records us) tol useLHS = .ok ⟨-2, starts us, []⟩ := by
  obtain ⟨u, hu, hw⟩ := h
  obtain ⟨r, h1, h2, h3, h4⟩ := C24_limits_required E.toInt (starts us) ((records us).map MPPar.toDE) tol E.rng (if useLHS then some E.perm else none) E.fuel E.stat E.sig E.trial0 (by
    refine ⟨(fin u.start, u.record.toDE), ?_, ?_⟩
    · unfold starts records
      rw [List.map_map, List.zip_map, List.mem_map]
      refine ⟨(u, u), ?_, rfl⟩
      obtain ⟨i, hi, rfl⟩ := List.getElem_of_mem hu
      have : (us.zip us)[i]'(by simpa using hi) = (us[i], us[i]) := List.getElem_zip
      rw [← this]
      exact List.getElem_mem _
    · unfold UserPar.record
      rw [hw]
      exact ⟨rfl, .inl rfl⟩)
  unfold byDiffEvoln
  rw [h1, ok_bind, h2, h3, h4]
  rfl

theorem diffEvoln_keeps {us : List UserPar} (hs : ∀ u ∈ us, u.Sound) {E : SolverEnv XR} (hr : ∀ p, E.rng p < 2 ^ 32)
    (hp : ∀ j, ∀ i ∈ E.perm j, i < 8 * (us.filter fun u => !u.fitPar.fixed).length) {tol : XR} {useLHS : Bool} {r : Fitted XR}
    (h : byDiffEvoln E (starts us) (records us) tol useLHS = .ok r) :
    ((∀ u ∈ us, u.wish ≠ .free) → ∃ v ∈ r.tried, flt (E.stat v) (fin (10 ^ 20)) = true) → KeepsAll us r.params ∧ ∀ v ∈ r.tried, KeepsAll us v := by
  intro hv
  by_cases hw : ∃ u ∈ us, u.wish = .free
  · rw [diffEvoln_refuses hw] at h
    cases h
    exact ⟨keeps_start hs, fun v hv => by cases hv⟩
  · have hw' : ∀ u ∈ us, u.wish ≠ .free := fun u hu e => hw ⟨u, hu, e⟩
    unfold byDiffEvoln at h
    obtain ⟨q, h1, h⟩ := bind_ok h
    cases h
    rw [records_toDE, starts_fitPar] at h1
    obtain ⟨a1, a2⟩ := C24_fit_partial (us.map UserPar.fitPar) (fun p hp => by
      obtain ⟨u, hu, rfl⟩ := List.mem_map.1 hp
      have h3 := hs u hu
      have h4 := hw' u hu
      unfold FitPar.Ok UserPar.fitPar
      unfold UserPar.Sound at h3
      cases hk : u.wish with
      | free => exact absurd hk h4
      | fixed => exact .inl rfl
      | limits a b => rw [hk] at h3; exact .inr ⟨rfl, rfl, h3.1.le⟩) E.toInt tol E.rng hr (if useLHS then some E.perm else none) (fun perm e j i hi => by
      cases useLHS with
      | false => cases e
      | true =>
        cases e
        have := hp j i hi
        rw [List.filter_map, List.length_map]
        exact this) E.fuel E.stat E.sig E.trial0 q h1
    obtain ⟨v, hv1, hv2⟩ := hv hw'
    obtain ⟨p, hp1, rfl⟩ := List.mem_map.1 hv1
    refine ⟨allows_keeps (a2 ⟨p, hp1, hv2⟩), fun v hv => ?_⟩
    obtain ⟨p, hp, rfl⟩ := List.mem_map.1 hv
    exact allows_keeps (a1 p hp)

/-! ### NLopt -/

/-- Bounds for NLopt. -/
noncomputable def boundsOf (u : UserPar) : XR × XR :=
  match u.wish with
  | .free => (ninf, pinf)
  | .fixed => (fin u.start, fin u.start)
  | .limits a b => (fin a, fin b)

theorem bounds_eq (us : List UserPar) : nlBoundArrays pinf (starts us).length (starts us) ((records us).map MPPar.toDE) = .ok (us.map boundsOf) := by
  unfold nlBoundArrays
  refine loopMap_of_forall _ _ _ (by simp [starts]) fun i hi => ?_
  have hi' : i < us.length := by simpa [starts] using hi
  have e1 : i < ((records us).map MPPar.toDE).length := by rw [List.length_map]; unfold records; rw [List.length_map]; exact hi'
  have e2 : i < (starts us).length := by unfold starts; rw [List.length_map]; exact hi'
  rw [rd_ok e1, ok_bind, rd_ok e2, ok_bind]
  simp only [starts, records, List.getElem_map, List.map_map, Function.comp]
  have : nlBounds pinf (fin us[i].start) us[i].record.toDE = boundsOf us[i] := by
    unfold nlBounds UserPar.record boundsOf
    cases us[i].wish <;> rfl
  rw [this]
  simp

theorem keeps_bounds (u : UserPar) (v : XR) : fle (boundsOf u).1 v = true ∧ fle v (boundsOf u).2 = true → u.Keeps v := by
  rintro ⟨h1, h2⟩
  unfold boundsOf at h1 h2
  unfold UserPar.Keeps
  cases hw : u.wish with
  | free => trivial
  | fixed =>
    rw [hw] at h1 h2
    cases v with
    | fin r =>
      simp only [fle_fin, decide_eq_true_eq] at h1 h2
      exact congrArg fin (le_antisymm h2 h1)
    | pinf => cases h2
    | ninf => cases h1
    | nan => cases h1
  | limits a b =>
    rw [hw] at h1 h2
    cases v with
    | fin r =>
      simp only [fle_fin, decide_eq_true_eq] at h1 h2
      exact ⟨r, rfl, h1, h2⟩
    | pinf => cases h2
    | ninf => cases h1
    | nan => cases h1

theorem within_keeps {us : List UserPar} {x : List XR} (h : Within ((us.map boundsOf).map Prod.fst) ((us.map boundsOf).map Prod.snd) x) : KeepsAll us x := by
  unfold KeepsAll
  have hl : x.length = us.length := by simpa using h.1
  rw [List.forall₂_iff_get]
  refine ⟨hl.symm, fun i h1 h2 => ?_⟩
  refine keeps_bounds _ _ (h.2 i (boundsOf us[i]).1 (boundsOf us[i]).2 x[i] ?_ ?_ ?_)
  · simp [h1]
  · simp [h1]
  · simp [h2]

theorem start_within {us : List UserPar} (hs : ∀ u ∈ us, u.Sound) : Within ((us.map boundsOf).map Prod.fst) ((us.map boundsOf).map Prod.snd) (starts us) := by
  refine ⟨by simp [starts], fun i a b v ha hb hv => ?_⟩
  simp only [starts, List.map_map, List.getElem?_map, Option.map_eq_some_iff, Function.comp] at ha hb hv
  obtain ⟨u, hu, rfl⟩ := ha
  obtain ⟨u', hu', rfl⟩ := hb
  obtain ⟨u'', hu'', rfl⟩ := hv
  rw [hu] at hu' hu''
  cases hu'
  cases hu''
  have := hs u (List.mem_of_getElem? hu)
  unfold UserPar.Sound at this
  unfold boundsOf
  cases hw : u.wish with
  | free => exact ⟨rfl, rfl⟩
  | fixed => simp
  | limits a b =>
    rw [hw] at this
    simp only [fle_fin, decide_eq_true_eq]
    exact this.2

theorem simplex_keeps {us : List UserPar} (hs : ∀ u ∈ us, u.Sound) {opt : NLopt XR} (hc : NLoptContract opt) {stat : List XR → XR} {sig : Nat → Bool} {fuel count : Nat} {f : NLFit XR}
    (h : nmSimplexFit opt pinf (starts us).length (starts us) ((records us).map MPPar.toDE) stat sig fuel count = .ok f) :
    KeepsAll us f.params ∧ ∀ v ∈ f.hist.map Prod.fst, KeepsAll us v := by
  unfold nmSimplexFit at h
  rw [bounds_eq, ok_bind] at h
  obtain ⟨e, h1, h⟩ := bind_ok h
  cases h
  obtain ⟨a1, a2⟩ := nlRun_within hc (start_within hs) (fun p hp => by cases hp) h1
  refine ⟨within_keeps a1, fun v hv => ?_⟩
  obtain ⟨p, hp, rfl⟩ := List.mem_map.1 hv
  exact within_keeps (a2 p hp)

/-- **C118.** Whichever number of a solver is given: the values of the parameters after the fit are within the limits of the configuration file, and the fixed ones are as they were; so are
all values for which the model is computed on the way. Missing: for Levenberg-Marquardt the deviates and their differences have to be of moderate size (`Fit`, C96), and for values on the way
the limits must not be too near each other; for differential evolution some value of the statistic has to be below 10²⁰; for NLopt the library has to keep to the bounds that it is given;
exact arithmetic. -/
theorem C118_limits_partial (us : List UserPar) (hs : ∀ u ∈ us, u.Sound) (E : SolverEnv XR) (id : Int) (tol : XR) (limitsExist : Bool) (name : List Char) (useLHS : Bool) (r : Fitted XR)
    (h : dispatchToSolver E id (starts us) (records us) tol limitsExist name useLHS = .ok r)
    (h1 : id = 1 → ∃ D : (Fin us.length → ℝ) → Fin E.nDev → ℝ, Fit E.dev D limitsExist (fun k => (us.get k).limit) (records us) fun k => (us.get k).start)
    (h2 : id = 2 → (∀ p, E.rng p < 2 ^ 32) ∧ (∀ j, ∀ i ∈ E.perm j, i < 8 * (us.filter fun u => !u.fitPar.fixed).length) ∧
      ((∀ u ∈ us, u.wish ≠ .free) → ∃ v ∈ r.tried, flt (E.stat v) (fin (10 ^ 20)) = true))
    (h3 : id = 3 ∨ id = 5 → E.huge = pinf ∧ ∀ n, NLoptContract (E.opts n)) :
    KeepsAll us r.params ∧ ((id = 1 → ∀ u ∈ us, WideEnough u.limit) → ∀ v ∈ r.tried, KeepsAll us v) := by
  unfold dispatchToSolver at h
  split_ifs at h with i1 i2 i3 i5
  · obtain ⟨D, F⟩ := h1 i1
    obtain ⟨a1, a2⟩ := levMar_keeps F h
    exact ⟨a1, fun hw => a2 (hw i1)⟩
  · obtain ⟨b1, b2, b3⟩ := h2 i2
    obtain ⟨a1, a2⟩ := diffEvoln_keeps hs b1 b2 h b3
    exact ⟨a1, fun _ => a2⟩
  · obtain ⟨hh, hc⟩ := h3 (.inl i3)
    unfold bySimplex at h
    rw [hh] at h
    obtain ⟨f, h4, h⟩ := bind_ok h
    cases h
    obtain ⟨a1, a2⟩ := simplex_keeps hs (hc _) h4
    exact ⟨a1, fun _ => a2⟩
  · obtain ⟨hh, hc⟩ := h3 (.inr i5)
    unfold byNLOpt nlOptFit at h
    rw [hh] at h
    obtain ⟨f, h4, h⟩ := bind_ok h
    cases h
    split_ifs at h4 with hn
    · obtain ⟨a1, a2⟩ := simplex_keeps hs (hc _) h4
      exact ⟨a1, fun _ => a2⟩
    · cases h4
      exact ⟨keeps_start hs, fun _ v hv => by cases hv⟩
  · cases h
    exact ⟨keeps_start hs, fun _ v hv => by cases hv⟩

/-! ## The start values -/

/-- Levenberg-Marquardt ends at the start values or at a smaller sum of squares. Missing: the other solvers (`C118_worse_false`; for NLopt nothing is known of the library). -/
theorem C118_not_worse_partial (E : SolverEnv XR) (params : List XR) (info : List (MPPar XR)) (tol : XR) (limitsExist : Bool) (name : List Char) (useLHS : Bool) (r : Fitted XR)
    (h : dispatchToSolver E 1 params info tol limitsExist name useLHS = .ok r) :
    r.params = params ∨ ∃ a b, chiOf E.dev params = fin a ∧ chiOf E.dev r.params = fin b ∧ b < a := by
  have h' : byLevMar E params info tol limitsExist = .ok r := h
  unfold byLevMar at h'
  obtain ⟨q, h1, h2⟩ := bind_ok h'
  cases h2
  exact C96_not_worse_partial _ _ _ _ _ _ _ _ _ h1

/-- The same but for the start values of parameters that are not fixed. -/
def SameWishes (us vs : List UserPar) : Prop := List.Forall₂ (fun u v => u.wish = v.wish ∧ (u.wish = .fixed → u.start = v.start)) us vs

/-- Differential evolution makes no use of the start values: fits from different start values are the same, step by step. -/
theorem C118_start_false {us vs : List UserPar} (h : SameWishes us vs) (hw : ∀ u ∈ us, u.wish ≠ .free) (E : SolverEnv XR) (tol : XR) (limitsExist : Bool) (name : List Char) (useLHS : Bool) :
    dispatchToSolver E 2 (starts us) (records us) tol limitsExist name useLHS = dispatchToSolver E 2 (starts vs) (records vs) tol limitsExist name useLHS := by
  have hrec : records us = records vs := by
    unfold records
    clear hw
    induction h with
    | nil => rfl
    | cons a _ ih =>
      rw [List.map_cons, List.map_cons, ih]
      congr 1
      unfold UserPar.record
      rw [a.1]
  have hb : deBounds ((starts us).zip ((records us).map MPPar.toDE)) = deBounds ((starts vs).zip ((records vs).map MPPar.toDE)) := by
    rw [← hrec]
    clear hrec
    unfold starts records
    induction h with
    | nil => rfl
    | @cons u v us vs a _ ih =>
      have h1 := ih fun w hw' => hw w (List.mem_cons_of_mem _ hw')
      have h2 := hw u (by simp)
      simp only [List.map_cons, List.zip_cons_cons, deBounds, h1]
      have : deLimits (fin u.start) u.record.toDE = deLimits (fin v.start) u.record.toDE := by
        unfold deLimits UserPar.record
        cases hk : u.wish with
        | free => exact absurd hk h2
        | fixed => rw [a.2 hk]
        | limits a b => rfl
      rw [this]
  have hl : (starts us).length = (starts vs).length := by simp [starts, h.length_eq]
  show byDiffEvoln _ _ _ _ _ = byDiffEvoln _ _ _ _ _
  unfold byDiffEvoln diffEvolnFit
  rw [hb, hl, hrec]
  cases hd : deBounds ((starts vs).zip ((records vs).map MPPar.toDE)) with
  | some b => rfl
  | none =>
    exfalso
    have : ∃ b, deBounds ((starts vs).zip ((records vs).map MPPar.toDE)) = some b := by
      have hv : ∀ v ∈ vs, v.wish ≠ .free := by
        intro v hv
        obtain ⟨i, hi, rfl⟩ := List.getElem_of_mem hv
        have := (List.forall₂_iff_get.1 h).2 i (by rw [h.length_eq]; exact hi) hi
        simp only [List.get_eq_getElem] at this
        rw [← this.1]
        exact hw _ (List.getElem_mem _)
      clear hd hb hrec hl h
      unfold starts records
      induction vs with
      | nil => exact ⟨_, rfl⟩
      | cons v vs ih =>
        obtain ⟨b, hb⟩ := ih fun w hw' => hv w (List.mem_cons_of_mem _ hw')
        have h2 := hv v (by simp)
        simp only [List.map_cons, List.zip_cons_cons, deBounds, hb]
        unfold deLimits UserPar.record
        cases hk : v.wish with
        | free => exact absurd hk h2
        | fixed => exact ⟨_, rfl⟩
        | limits a b => exact ⟨_, rfl⟩
    obtain ⟨b, hb'⟩ := this
    rw [hb'] at hd
    cases hd

/-- A statistic without a minimum: smaller values of the parameter are better down to 1, but 1 itself is bad. -/
noncomputable def stepStat : List XR → XR
  | [fin x] => if 1 < x then fin x else fin 3
  | _ => fin 3

/-- What is given to differential evolution in the example of C25. -/
noncomputable def turnEnv : SolverEnv XR where
  dev := fun _ => []
  nDev := 0
  stat := stepStat
  stop := fun _ => false
  sig := fun _ => false
  rng := turnStream
  perm := fun _ => []
  toInt := XR.toInt
  trial0 := [fin 0]
  opts := fun _ => toyOpt [] 0
  huge := pinf
  count := 0
  fuel := 8

/-- A parameter between 1 and 2. -/
def onePar (s : ℝ) : List UserPar := [⟨s, .limits 1 2⟩]

/-- A fit by differential evolution that ends with a worse value of the statistic than that of the start values, which are within the limits. -/
theorem C118_worse_false : ∃ (s a b : ℝ) (r : Fitted XR), (∀ u ∈ onePar s, u.Sound) ∧
    dispatchToSolver turnEnv 2 (starts (onePar s)) (records (onePar s)) (fin (1 / 1000)) true [] false = .ok r ∧ r.status ≠ -2 ∧
    turnEnv.stat (starts (onePar s)) = fin a ∧ turnEnv.stat r.params = fin b ∧ a < b := by
  obtain ⟨q, h1, h2, -⟩ := turnStream_fit stepStat
  have hrun : dispatchToSolver turnEnv 2 (starts (onePar (3 / 2))) (records (onePar (3 / 2))) (fin (1 / 1000)) true [] false = .ok ⟨q.status, q.params, q.trace.map Prod.fst⟩ := by
    show byDiffEvoln _ _ _ _ _ = _
    unfold byDiffEvoln
    have : diffEvolnFit turnEnv.toInt (starts (onePar (3 / 2))) ((records (onePar (3 / 2))).map MPPar.toDE) (fin (1 / 1000)) turnEnv.rng none turnEnv.fuel turnEnv.stat turnEnv.sig turnEnv.trial0 = .ok q := h1
    rw [if_neg (by decide), this, ok_bind]
  have hany (s : ℝ) : dispatchToSolver turnEnv 2 (starts (onePar s)) (records (onePar s)) (fin (1 / 1000)) true [] false = .ok ⟨q.status, q.params, q.trace.map Prod.fst⟩ := by
    rw [← hrun]
    exact C118_start_false (.cons ⟨rfl, fun h => by cases h⟩ .nil) (fun u hu => by
      simp only [List.mem_singleton] at hu
      subst hu
      intro h
      cases h) _ _ _ _ _
  have sound : ∀ s : ℝ, 1 ≤ s → s ≤ 2 → ∀ u ∈ onePar s, u.Sound := by
    intro s h h' u hu
    simp only [onePar, List.mem_singleton] at hu
    subst hu
    exact ⟨by norm_num, h, h'⟩
  by_cases hx : ∃ x, q.params = [fin x] ∧ 1 < x
  · obtain ⟨x, hx, h3⟩ := hx
    refine ⟨(1 + min x 2) / 2, (1 + min x 2) / 2, x, _, sound _ ?_ ?_, hany _, h2, ?_, ?_, ?_⟩
    · have := lt_min h3 (one_lt_two (α := ℝ)); linarith
    · have := min_le_right x 2; linarith
    · show stepStat [fin _] = _
      rw [stepStat, if_pos]
      have := lt_min h3 (one_lt_two (α := ℝ)); linarith
    · show stepStat q.params = _
      rw [hx, stepStat, if_pos h3]
    · have := min_le_left x 2; linarith
  · have : stepStat q.params = fin 3 := by
      unfold stepStat
      split
      · rename_i x hx'
        rw [if_neg]
        exact fun h => hx ⟨x, hx', h⟩
      · rfl
    refine ⟨3 / 2, 3 / 2, 3, _, sound _ (by norm_num) (by norm_num), hany _, h2, ?_, this, by norm_num⟩
    show stepStat [fin _] = _
    rw [stepStat, if_pos (by norm_num)]

/-! ## Examples -/

/-- One parameter in limits, one fixed, one free. -/
noncomputable def exPars : List UserPar := [⟨1, .limits 0 2⟩, ⟨5, .fixed⟩, ⟨-1, .free⟩]

/-- With every NLopt algorithm. -/
example (name : List Char) (opts : List Char → NLopt XR) (hc : ∀ n, NLoptContract (opts n)) (r : Fitted XR)
    (h : dispatchToSolver { turnEnv with opts := opts, fuel := 30001 } 5 (starts exPars) (records exPars) 0 true name false = .ok r) :
    ∃ x z, r.params = [fin x, fin 5, z] ∧ 0 ≤ x ∧ x ≤ 2 := by
  have hs : ∀ u ∈ exPars, u.Sound := by
    intro u hu
    simp only [exPars, List.mem_cons, List.not_mem_nil, or_false] at hu
    rcases hu with rfl | rfl | rfl
    · exact ⟨by norm_num, by norm_num, by norm_num⟩
    · trivial
    · trivial
  obtain ⟨k, -⟩ := C118_limits_partial exPars hs _ 5 0 true name false r h (fun h => absurd h (by decide)) (fun h => absurd h (by decide)) (fun _ => ⟨rfl, hc⟩)
  unfold KeepsAll exPars at k
  obtain ⟨st, ps, tr⟩ := r
  cases k with
  | cons a k =>
    cases k with
    | cons b k =>
      cases k with
      | cons c k =>
        cases k
        obtain ⟨x, rfl, h1, h2⟩ := a
        cases b
        exact ⟨x, _, rfl, h1, h2⟩

/-- The same parameters with differential evolution: refused, as one has no limits. -/
example : dispatchToSolver turnEnv 2 (starts exPars) (records exPars) 0 true [] false = .ok ⟨-2, starts exPars, []⟩ := diffEvoln_refuses ⟨⟨-1, .free⟩, by simp [exPars], rfl⟩ _ _ _

end Imfit
