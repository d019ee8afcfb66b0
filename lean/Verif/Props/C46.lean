import Verif.Spec.Nlopt
import Verif.Lemmas.Fit

/-!
# C46: the Nelder-Mead and NLopt interfaces honour limits and report their own work

Fixed parameters, parameters with two limits and parameters without limits are handed to the library correctly. A limit on one side only is dropped, and
the number of function calls reported is the number since the program started. Both are shown to be wrong below; the command-line programs always
give both limits and report the calls of one fit only (bootstrapping repeats the fit but asks for no report), so the
second error concerns programs that use the solvers as a library.
-/

namespace Imfit

open XR Spec

/-- A limit on one side only. -/
def OneSided (u : UserLimit) : Prop := u.fixed = false ∧ u.lower.isSome ≠ u.upper.isSome

/-- The bounds handed over admit exactly the values that respect the limits. Missing: limits on one side. -/
theorem C46_bounds_partial (u : UserLimit) (h : ¬ OneSided u) (v0 v : ℝ) :
    (fle (nlBounds pinf (fin v0) u.record).1 (fin v) = true ∧ fle (fin v) (nlBounds pinf (fin v0) u.record).2 = true) ↔ u.respects v0 v := by
  obtain ⟨f, l, r⟩ := u
  unfold nlBounds UserLimit.record UserLimit.respects
  cases f with
  | true =>
    simp
    exact ⟨fun h => le_antisymm h.2 h.1, fun h => h ▸ ⟨le_rfl, le_rfl⟩⟩
  | false =>
    cases l <;> cases r <;> simp [OneSided] at h ⊢
    exact ⟨rfl, rfl⟩

/-- Limits 1 and 3. -/
example : fle (nlBounds pinf (fin 2) (UserLimit.record ⟨false, some 1, some 3⟩)).1 (fin (5 / 2)) = true :=
  ((C46_bounds_partial ⟨false, some 1, some 3⟩ (by simp [OneSided]) 2 (5 / 2)).2
    (by refine ⟨by simp, fun _ => ⟨fun l hl => ?_, fun l hl => ?_⟩⟩ <;> cases hl <;> norm_num)).1

theorem nlRun_count {α : Type} [FP α] {opt : NLopt α} {lo hi x0 : List α} {m : Nat} {stat : List α → α} {sig : Nat → Bool} {fuel : Nat}
    {hist : List (List α × α)} {forced : Bool} {count : Nat} {e : NLEnd α} (h : nlRun opt lo hi x0 m stat sig fuel hist forced count = .ok e) :
    e.count + hist.length = count + e.hist.length := by
  induction fuel generalizing hist forced count with
  | zero => simp [nlRun] at h
  | succ n ih =>
    simp only [nlRun] at h
    split at h
    · cases h; simp
    · have := ih h
      simp only [List.length_append, List.length_singleton] at this
      omega

/-- The number stored is the value of the counter before the run plus the number of calls of the run, which is also the counter afterwards. -/
theorem C46_count {α : Type} [FP α] {opt : NLopt α} {huge : α} {n : Nat} {params : List α} {lims : List (DELim α)} {stat : List α → α} {sig : Nat → Bool}
    {fuel count : Nat} {f : NLFit α} (h : nmSimplexFit opt huge n params lims stat sig fuel count = .ok f) :
    ∃ s, f.stored = some s ∧ s.nEvals = count + f.hist.length ∧ f.count = count + f.hist.length ∧ s.initial = stat params := by
  unfold nmSimplexFit at h
  cases hb : nlBoundArrays huge n params lims with
  | error e => rw [hb] at h; simp [error_bind] at h
  | ok b =>
    rw [hb] at h
    simp only [ok_bind] at h
    cases hr : nlRun opt (b.map Prod.fst) (b.map Prod.snd) params (n * 10000) stat sig fuel [] false count with
    | error e => rw [hr] at h; simp [error_bind] at h
    | ok e =>
      rw [hr] at h
      simp only [ok_bind, pure_eq_ok, Except.ok.injEq] at h
      subst h
      have := nlRun_count hr
      simp only [List.length_nil, Nat.add_zero] at this
      exact ⟨_, rfl, this, this, rfl⟩

/-- The first run of a process reports its own calls. Missing: later runs, see `C46_count_false`. -/
theorem C46_first_run_partial {α : Type} [FP α] {opt : NLopt α} {huge : α} {n : Nat} {params : List α} {lims : List (DELim α)} {stat : List α → α}
    {sig : Nat → Bool} {fuel : Nat} {f : NLFit α} (h : nmSimplexFit opt huge n params lims stat sig fuel 0 = .ok f) :
    ∃ s, f.stored = some s ∧ s.nEvals = f.hist.length := by
  obtain ⟨s, h1, h2, _⟩ := C46_count h
  exact ⟨s, h1, by omega⟩

/-- Every run of a sequence reports the calls of all runs so far. -/
theorem C46_runs {α : Type} [FP α] {opt : NLopt α} {huge : α} {n : Nat} {sig : Nat → Bool} {fuel : Nat}
    {rs : List (List α × List (DELim α) × (List α → α))} {count : Nat} {fs : List (NLFit α)} (h : nlRuns opt huge n sig fuel rs count = .ok fs) :
    ∀ k (hk : k < fs.length), ∃ s, fs[k].stored = some s ∧ s.nEvals = count + ((fs.take (k + 1)).map fun f => f.hist.length).sum := by
  induction rs generalizing count fs with
  | nil => simp only [nlRuns, Except.ok.injEq] at h; subst h; intro k hk; simp at hk
  | cons r rs ih =>
    simp only [nlRuns] at h
    cases hf : nmSimplexFit opt huge n r.1 r.2.1 r.2.2 sig fuel count with
    | error e => rw [hf] at h; simp [error_bind] at h
    | ok f =>
      rw [hf] at h
      simp only [ok_bind] at h
      cases hg : nlRuns opt huge n sig fuel rs f.count with
      | error e => rw [hg] at h; simp [error_bind] at h
      | ok gs =>
        rw [hg] at h
        simp only [ok_bind, pure_eq_ok, Except.ok.injEq] at h
        subst h
        obtain ⟨s, h1, h2, h3, _⟩ := C46_count hf
        intro k hk
        cases k with
        | zero => exact ⟨s, h1, by simpa using h2⟩
        | succ k =>
          obtain ⟨s', h1', h2'⟩ := ih hg k (by simpa using hk)
          refine ⟨s', h1', ?_⟩
          rw [h2', h3]
          simp only [List.take_succ_cons, List.map_cons, List.sum_cons]
          omega

theorem nlRun_total {opt : NLopt XR} (hc : NLoptContract opt) {lo hi x0 : List XR} {m : Nat} {stat : List XR → XR} {sig : Nat → Bool} (fuel : Nat)
    (hist : List (List XR × XR)) (forced : Bool) (count : Nat) (hf : m + 1 ≤ fuel + hist.length) (hm : hist.length ≤ m) :
    ∃ e, nlRun opt lo hi x0 m stat sig fuel hist forced count = .ok e ∧ e.hist.length ≤ m := by
  induction fuel generalizing hist forced count with
  | zero => omega
  | succ n ih =>
    simp only [nlRun]
    cases h : opt lo hi x0 m hist forced with
    | stop st x f => exact ⟨_, rfl, hm⟩
    | eval x =>
      have := hc.maxeval _ _ _ _ _ _ _ h
      exact ih _ _ _ (by simp only [List.length_append, List.length_singleton]; omega) (by simp only [List.length_append, List.length_singleton]; omega)

theorem nlRun_within {opt : NLopt XR} (hc : NLoptContract opt) {lo hi x0 : List XR} (hx : Within lo hi x0) {m : Nat} {stat : List XR → XR}
    {sig : Nat → Bool} {fuel : Nat} {hist : List (List XR × XR)} {forced : Bool} {count : Nat} {e : NLEnd XR} (hh : ∀ p ∈ hist, Within lo hi p.1)
    (h : nlRun opt lo hi x0 m stat sig fuel hist forced count = .ok e) : Within lo hi e.x ∧ ∀ p ∈ e.hist, Within lo hi p.1 := by
  induction fuel generalizing hist forced count with
  | zero => simp [nlRun] at h
  | succ n ih =>
    simp only [nlRun] at h
    split at h
    · rename_i st x f heq
      cases h
      exact ⟨hc.stopWithin _ _ _ _ _ _ _ _ _ hx heq, hh⟩
    · rename_i x heq
      refine ih ?_ h
      intro p hp
      rcases List.mem_append.1 hp with hp | hp
      · exact hh p hp
      · rw [List.mem_singleton] at hp
        subst hp
        exact hc.evalWithin _ _ _ _ _ _ _ hx heq

/-- A NaN, or the stop signal, at one evaluation: it is the last one and the status is -5. -/
theorem C46_stops {opt : NLopt XR} (hc : NLoptContract opt) {lo hi x0 : List XR} {m : Nat} {stat : List XR → XR} {sig : Nat → Bool} {fuel : Nat}
    {count : Nat} {e : NLEnd XR} (h : nlRun opt lo hi x0 m stat sig fuel [] false count = .ok e) (k : Nat) (hk : k < e.hist.length)
    (hs : (e.hist[k]).2 = nan ∨ sig k = true) : k + 1 = e.hist.length ∧ e.status = -5 := by
  have key : ∀ (fuel : Nat) (hist : List (List XR × XR)) (forced : Bool) (count : Nat),
      (forced = true ↔ ∃ j, ∃ hj : j < hist.length, (hist[j]).2 = nan ∨ sig j = true) →
      (∀ j (hj : j + 1 < hist.length), ¬ ((hist[j]).2 = nan ∨ sig j = true)) →
      nlRun opt lo hi x0 m stat sig fuel hist forced count = .ok e →
      (∀ j (hj : j + 1 < e.hist.length), ¬ ((e.hist[j]).2 = nan ∨ sig j = true)) ∧
        ((∃ j, ∃ hj : j < e.hist.length, (e.hist[j]).2 = nan ∨ sig j = true) → e.status = -5) := by
    intro fuel
    induction fuel with
    | zero => intro hist forced count _ _ h; simp [nlRun] at h
    | succ n ih =>
      intro hist forced count h1 h2 h
      simp only [nlRun] at h
      split at h
      · rename_i st x f heq
        cases h
        refine ⟨h2, fun hj => ?_⟩
        have := h1.2 hj
        subst this
        obtain ⟨x', f', hx'⟩ := hc.forced lo hi x0 m hist
        rw [hx'] at heq
        cases heq
        rfl
      · rename_i x heq
        have hforced : forced = false := by
          cases forced with
          | false => rfl
          | true =>
            obtain ⟨x', f', hx'⟩ := hc.forced lo hi x0 m hist
            rw [hx'] at heq; cases heq
        have hno : ∀ j (hj : j < hist.length), ¬ ((hist[j]).2 = nan ∨ sig j = true) := by
          intro j hj hb
          have := h1.2 ⟨j, hj, hb⟩
          rw [hforced] at this; cases this
        refine ih _ _ _ ?_ ?_ h
        · have hnan : ∀ v : XR, fle v v = false ↔ v = nan := by
            intro v
            cases v with
            | fin a => simp
            | pinf => simp; rfl
            | ninf => simp; rfl
            | nan => exact ⟨fun _ => rfl, fun _ => rfl⟩
          simp only [hforced, Bool.false_or, Bool.or_eq_true, Bool.not_eq_true', hnan]
          constructor
          · intro hv
            refine ⟨hist.length, by simp, ?_⟩
            simpa using hv
          · rintro ⟨j, hj, hb⟩
            by_cases hjl : j < hist.length
            · rw [List.getElem_append_left hjl] at hb
              exact absurd hb (hno j hjl)
            · have : j = hist.length := by simp at hj; omega
              subst this
              simpa using hb
        · intro j hj
          have hjl : j < hist.length := by simpa using hj
          rw [List.getElem_append_left hjl]
          exact hno j hjl
  obtain ⟨k1, k2⟩ := key fuel [] false count (by simp) (by simp) h
  refine ⟨?_, k2 ⟨k, hk, hs⟩⟩
  by_contra hne
  exact k1 k (by omega) hs

/-- The parameters given, as arrays. -/
def startValues (us : List (UserLimit × ℝ)) : List XR := us.map fun p => fin p.2

/-- The limits given, as records. -/
noncomputable def limitRecords (us : List (UserLimit × ℝ)) : List (DELim XR) := us.map fun p => p.1.record

theorem nlBoundArrays_eq (us : List (UserLimit × ℝ)) :
    nlBoundArrays pinf us.length (startValues us) (limitRecords us) = .ok (us.map fun p => nlBounds pinf (fin p.2) p.1.record) := by
  unfold nlBoundArrays
  rw [loopMap_ok us.length _ fun i => (us.map fun p => nlBounds pinf (fin p.2) p.1.record).getD i (fin 0, fin 0)]
  · congr 1
    apply List.ext_getElem
    · simp
    · intro i h1 h2
      have : i < us.length := by simpa using h2
      simp [this]
  · intro i hi
    rw [rd_ok (by simpa [limitRecords] using hi), rd_ok (by simpa [startValues] using hi)]
    simp [ok_bind, pure_eq_ok, limitRecords, startValues, hi]

/-- All parameters of a point respect the limits. -/
def Respect (us : List (UserLimit × ℝ)) (x : List XR) : Prop :=
  x.length = us.length ∧ ∀ i (hi : i < us.length) (hx : i < x.length) (v : ℝ), x[i] = fin v → (us[i]).1.respects (us[i]).2 v

theorem within_respect {us : List (UserLimit × ℝ)} (hone : ∀ p ∈ us, ¬ OneSided p.1) {x : List XR}
    (h : Within (us.map fun p => (nlBounds pinf (fin p.2) p.1.record).1) (us.map fun p => (nlBounds pinf (fin p.2) p.1.record).2) x) : Respect us x := by
  refine ⟨by simpa using h.1, fun i hi hx v hv => ?_⟩
  rw [← C46_bounds_partial _ (hone _ (List.getElem_mem hi))]
  exact h.2 i _ _ _ (by simp [hi]) (by simp [hi]) (by rw [List.getElem?_eq_getElem hx, hv])

/-- With a library that keeps its promises and no limits on one side only, a fit from an allowed start ends after at most 10000 evaluations per
parameter, evaluates the fit statistic only at points that respect all limits, and returns such a point. -/
theorem C46_respects_partial {opt : NLopt XR} (hc : NLoptContract opt) (us : List (UserLimit × ℝ)) (hone : ∀ p ∈ us, ¬ OneSided p.1)
    (hstart : ∀ p ∈ us, p.1.respects p.2 p.2) (stat : List XR → XR) (sig : Nat → Bool) (fuel count : Nat) (hfuel : us.length * 10000 < fuel) :
    ∃ f, nmSimplexFit opt pinf us.length (startValues us) (limitRecords us) stat sig fuel count = .ok f ∧ Respect us f.params ∧
      (∀ p ∈ f.hist, Respect us p.1) ∧ f.hist.length ≤ us.length * 10000 := by
  unfold nmSimplexFit
  rw [nlBoundArrays_eq]
  simp only [ok_bind, List.map_map]
  have hx : Within (us.map fun p => (nlBounds pinf (fin p.2) p.1.record).1) (us.map fun p => (nlBounds pinf (fin p.2) p.1.record).2) (startValues us) := by
    refine ⟨by simp [startValues], fun i a b v ha hb hv => ?_⟩
    have hi : i < us.length := by
      by_contra hn
      rw [List.getElem?_eq_none (by simpa using hn)] at ha
      cases ha
    rw [List.getElem?_eq_getElem (by simpa using hi)] at ha hb
    simp only [startValues] at hv
    rw [List.getElem?_eq_getElem (by simpa using hi)] at hv
    simp only [List.getElem_map, Option.some.injEq] at ha hb hv
    subst ha hb hv
    exact (C46_bounds_partial _ (hone _ (List.getElem_mem hi)) _ _).2 (hstart _ (List.getElem_mem hi))
  obtain ⟨e, he, hl⟩ := nlRun_total hc (lo := us.map fun p => (nlBounds pinf (fin p.2) p.1.record).1)
    (hi := us.map fun p => (nlBounds pinf (fin p.2) p.1.record).2) (x0 := startValues us) (m := us.length * 10000) (stat := stat) (sig := sig) fuel [] false
    count (by simp; omega) (by simp)
  have hw := nlRun_within hc hx (by simp) he
  have he' : nlRun opt (us.map (Prod.fst ∘ fun p => nlBounds pinf (fin p.2) p.1.record)) (us.map (Prod.snd ∘ fun p => nlBounds pinf (fin p.2) p.1.record))
    (startValues us) (us.length * 10000) stat sig fuel [] false count = .ok e := he
  rw [he']
  refine ⟨_, rfl, within_respect hone hw.1, fun p hp => within_respect hone (hw.2 p hp), hl⟩

open Classical in
/-- A simple library: evaluates a given point if it is within the bounds, otherwise the start, `n` times. -/
noncomputable def toyOpt (pt : List XR) (n : Nat) : NLopt XR := fun lo hi x0 m hist forced =>
  let p := if Within lo hi pt then pt else x0
  if forced then .stop (-5) p (fin 0) else if hist.length < min m n then .eval p else .stop 1 p (fin 0)

/-- It keeps the promises. -/
theorem C46_contract_possible (pt : List XR) (n : Nat) : NLoptContract (toyOpt pt n) := by
  have hw : ∀ lo hi x0, Within lo hi x0 → Within lo hi (open Classical in if Within lo hi pt then pt else x0) := by
    intro lo hi x0 h
    split
    · assumption
    · exact h
  constructor
  · intro lo hi x0 m hist forced x h he
    unfold toyOpt at he
    simp only at he
    split_ifs at he <;> cases he <;> first | exact h | assumption
  · intro lo hi x0 m hist forced st x f h he
    unfold toyOpt at he
    simp only at he
    split_ifs at he <;> cases he <;> first | exact h | assumption
  · intro lo hi x0 m hist forced x he
    unfold toyOpt at he
    simp only at he
    by_cases hf : forced = true
    · simp only [hf, if_true] at he; cases he
    · simp only [hf, if_false, Bool.false_eq_true] at he
      by_cases hl : hist.length < min m n
      · omega
      · simp only [hl, if_false] at he; cases he
  · intro lo hi x0 m hist
    exact ⟨_, _, by unfold toyOpt; simp only [if_true]; rfl⟩

/-- A fixed parameter, one with two limits and a free one. -/
example : ∃ f, nmSimplexFit (toyOpt [fin 1, fin 3, fin 7] 2) pinf 3 (startValues [(⟨true, none, none⟩, 1), (⟨false, some 0, some 5⟩, 2), (⟨false, none, none⟩, 4)])
      (limitRecords [(⟨true, none, none⟩, 1), (⟨false, some 0, some 5⟩, 2), (⟨false, none, none⟩, 4)]) (fun _ => fin 0) (fun _ => false) 30001 0 = .ok f ∧
    Respect [(⟨true, none, none⟩, 1), (⟨false, some 0, some 5⟩, 2), (⟨false, none, none⟩, 4)] f.params := by
  obtain ⟨f, h1, h2, _⟩ := C46_respects_partial (C46_contract_possible [fin 1, fin 3, fin 7] 2)
    [(⟨true, none, none⟩, 1), (⟨false, some 0, some 5⟩, 2), (⟨false, none, none⟩, 4)] (by simp [OneSided]) (by simp [UserLimit.respects]; norm_num)
    (fun _ => fin 0) (fun _ => false) 30001 0 (by simp)
  exact ⟨f, h1, h2⟩

/-- A lower limit alone is dropped: a library that keeps its promises evaluates and returns a point below it. -/
theorem C46_one_sided_false (fuel : Nat) : ∃ (opt : NLopt XR) (us : List (UserLimit × ℝ)) (f : NLFit XR), NLoptContract opt ∧ (∀ p ∈ us, p.1.respects p.2 p.2) ∧
    nmSimplexFit opt pinf us.length (startValues us) (limitRecords us) (fun _ => fin 0) (fun _ => false) (fuel + 2) 0 = .ok f ∧
    ¬ Respect us f.params ∧ ∃ p ∈ f.hist, ¬ Respect us p.1 := by
  have hw : Within [ninf] [pinf] [fin (-5)] := by
    refine ⟨rfl, fun i a b v ha hb hv => ?_⟩
    cases i with
    | zero => simp at ha hb hv; subst ha hb hv; exact ⟨rfl, rfl⟩
    | succ i => simp at ha
  have hrun : nmSimplexFit (toyOpt [fin (-5)] 1) pinf 1 (startValues [(⟨false, some 0, none⟩, 1)]) (limitRecords [(⟨false, some 0, none⟩, 1)])
      (fun _ => fin 0) (fun _ => false) (fuel + 2) 0 = .ok ⟨1, [fin (-5)], some ⟨1, fin 0, fin 0⟩, 1, [([fin (-5)], fin 0)]⟩ := by
    unfold nmSimplexFit
    have := nlBoundArrays_eq [(⟨false, some 0, none⟩, 1)]
    simp only [List.length_singleton] at this
    rw [this]
    have e : nlBounds pinf (fin (1 : ℝ)) (UserLimit.record ⟨false, some 0, none⟩) = (ninf, pinf) := by
      simp only [nlBounds, UserLimit.record]; rfl
    simp only [ok_bind, List.map_cons, List.map_nil, e]
    simp only [nlRun, toyOpt, hw, if_true]
    simp [ok_bind, pure_eq_ok]
  have hbad : ¬ Respect [(⟨false, some 0, none⟩, 1)] [fin (-5)] := by
    intro h
    have := h.2 0 (by simp) (by simp) (-5) rfl
    have := (this.2 rfl).1 0 rfl
    norm_num at this
  refine ⟨toyOpt [fin (-5)] 1, [(⟨false, some 0, none⟩, 1)], _, C46_contract_possible _ _, by simp [UserLimit.respects], hrun, hbad, ?_⟩
  exact ⟨_, List.mem_singleton.2 rfl, hbad⟩

/-- Two fits of one function call each in one process (as when bootstrapping): the second reports two. -/
theorem C46_count_false (fuel : Nat) : ∃ (opt : NLopt XR) (fs : List (NLFit XR)), NLoptContract opt ∧
    nlRuns opt pinf 1 (fun _ => false) (fuel + 2) [([fin 1], [⟨false, false, false, fin 0, fin 0⟩], fun _ => fin 0),
      ([fin 1], [⟨false, false, false, fin 0, fin 0⟩], fun _ => fin 0)] 0 = .ok fs ∧
    fs.map (fun f => (f.hist.length, f.stored.map NLStored.nEvals)) = [(1, some 1), (1, some 2)] := by
  have hw : Within [ninf] [pinf] [fin 1] := by
    refine ⟨rfl, fun i a b v ha hb hv => ?_⟩
    cases i with
    | zero => simp at ha hb hv; subst ha hb hv; exact ⟨rfl, rfl⟩
    | succ i => simp at ha
  have hrun : ∀ c, nmSimplexFit (toyOpt [fin 1] 1) pinf 1 [fin 1] [⟨false, false, false, fin 0, fin 0⟩]
      (fun _ => fin 0) (fun _ => false) (fuel + 2) c = .ok ⟨1, [fin 1], some ⟨c + 1, fin 0, fin 0⟩, c + 1, [([fin 1], fin 0)]⟩ := by
    intro c
    unfold nmSimplexFit
    have e : nlBoundArrays pinf 1 [fin 1] [⟨false, false, false, fin 0, fin 0⟩] = .ok [(ninf, pinf)] := rfl
    rw [e]
    simp only [ok_bind, List.map_cons, List.map_nil]
    simp only [nlRun, toyOpt, hw, if_true]
    simp [ok_bind, pure_eq_ok]
  refine ⟨toyOpt [fin 1] 1, [⟨1, [fin 1], some ⟨1, fin 0, fin 0⟩, 1, [([fin 1], fin 0)]⟩, ⟨1, [fin 1], some ⟨2, fin 0, fin 0⟩, 2, [([fin 1], fin 0)]⟩],
    C46_contract_possible _ _, ?_, ?_⟩
  · simp only [nlRuns, hrun, ok_bind, pure_eq_ok]
  · rfl

/-- `NLOptFit` runs exactly for the names that `ValidNLOptSolverName` accepts; for others it returns -1, changes nothing and stores nothing. -/
theorem C46_names {α : Type} [FP α] (opts : List Char → NLopt α) (huge : α) (n : Nat) (params : List α) (lims : List (DELim α)) (name : List Char)
    (stat : List α → α) (sig : Nat → Bool) (fuel count : Nat) :
    nlOptFit opts huge n params lims name stat sig fuel count =
      if validNLOptSolverName name then nmSimplexFit (opts name) huge n params lims stat sig fuel count else .ok ⟨-1, params, none, count, []⟩ := rfl

/-- Lower case is not accepted. -/
example : validNLOptSolverName ['n', 'm'] = false ∧ validNLOptSolverName ['N', 'M'] = true := by decide

end Imfit
