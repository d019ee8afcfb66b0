import Verif.Model.Run
import Verif.Lemmas.DE

/-!
# Evaluations leave the model object as it was, up to what the next evaluation overwrites
-/

namespace Imfit

variable {α : Type} [FP α]

theorem loopMap_same {β : Type} {n : Nat} {f g : Nat → Res β} (h : ∀ z, z < n → f z = g z) : loopMap n f = loopMap n g := by
  induction n with
  | zero => rfl
  | succ n ih =>
    unfold loopMap
    rw [ih fun z hz => h z (by omega), h n (by omega)]

/-- A pixel whose weight is not computed from the model. -/
def KeepsWeight (s : MO α) (z : Nat) : Prop := s.maskExists = true ∧ ∃ m, rdp s.maskVec z = .ok m ∧ flt 0 m = false

/-- `t` comes from `s` by evaluations: only the model image and weights taken from the model differ. -/
structure Kin (s t : MO α) : Prop where
  same : ∀ img, withModel t img = { withModel s img with weightVec := t.weightVec }
  weights : s.modelErrors = false → t.weightVec = s.weightVec
  kept : ∀ z, z < s.nDataVals → KeepsWeight s z → rdp t.weightVec z = rdp s.weightVec z

theorem Kin.refl (s : MO α) : Kin s s := ⟨fun _ => rfl, fun _ => rfl, fun _ _ _ => rfl⟩

/-- The weight of one pixel in `UpdateWeightVector`. -/
def updOne (s : MO α) (z : Nat) : Res α := do
  let upd ← (if s.maskExists then do
    let m ← rdp s.maskVec z
    pure (flt 0 m) else pure true : Res Bool)
  if upd then
    let f ← rdp s.modelVec (modelIndex s z)
    pure (modelWeight s.effGain s.nCombined s.readNoiseAduSq s.sky f)
  else rdp s.weightVec z

theorem updateWeights_def (s : MO α) : updateWeights s = (loopMap s.nDataVals (updOne s)).bind fun w => .ok { s with weightVec := some w } := rfl

theorem updOne_kin {s t : MO α} (h : Kin s t) (img : List α) {z : Nat} (hz : z < s.nDataVals) :
    updOne (withModel t img) z = updOne (withModel s img) z := by
  rw [h.same img]
  unfold updOne
  show (Except.bind (if s.maskExists then (rdp s.maskVec z).bind fun m => .ok (flt 0 m) else .ok true) _) =
    Except.bind (if s.maskExists then (rdp s.maskVec z).bind fun m => .ok (flt 0 m) else .ok true) _
  cases hm : s.maskExists with
  | false => rfl
  | true =>
    simp only [if_true]
    cases hr : rdp s.maskVec z with
    | error e => rfl
    | ok m =>
      show (if flt 0 m = true then _ else _) = (if flt 0 m = true then _ else _)
      cases hf : (flt 0 m : Bool) with
      | true => rfl
      | false =>
        simp only [Bool.false_eq_true, if_false]
        exact h.kept z hz ⟨hm, m, hr, hf⟩

theorem updateWeights_kin {s t : MO α} (h : Kin s t) (img : List α) : updateWeights (withModel t img) = updateWeights (withModel s img) := by
  have hn : (withModel t img).nDataVals = s.nDataVals := by rw [h.same img]; rfl
  have e : loopMap (withModel t img).nDataVals (updOne (withModel t img)) = loopMap (withModel s img).nDataVals (updOne (withModel s img)) := by
    rw [hn]
    exact loopMap_same fun z hz => updOne_kin h img hz
  rw [updateWeights_def, updateWeights_def, e]
  cases loopMap (withModel s img).nDataVals (updOne (withModel s img)) with
  | error _ => rfl
  | ok w => show Except.ok _ = Except.ok _; rw [h.same img]

/-- The state in which a statistic is computed does not depend on earlier evaluations. -/
theorem maybeUpdate_kin {s t : MO α} (h : Kin s t) (img : List α) : maybeUpdateWeights (withModel t img) = maybeUpdateWeights (withModel s img) := by
  have hm : (withModel t img).modelErrors = s.modelErrors := by rw [h.same img]; rfl
  have hm' : (withModel s img).modelErrors = s.modelErrors := rfl
  unfold maybeUpdateWeights
  rw [hm, hm']
  cases he : s.modelErrors with
  | true => simpa using updateWeights_kin h img
  | false =>
    simp only [Bool.false_eq_true, if_false]
    rw [h.same img, h.weights he]
    rfl

/-- The state after an update is again one of these. -/
theorem maybeUpdate_next {s t : MO α} {img : List α} (h : maybeUpdateWeights (withModel s img) = .ok t) : Kin s t := by
  unfold maybeUpdateWeights at h
  cases he : s.modelErrors with
  | false =>
    have hm' : (withModel s img).modelErrors = false := he
    rw [hm'] at h
    simp only [Bool.false_eq_true, if_false, Except.ok.injEq] at h
    subst h
    exact ⟨fun _ => rfl, fun _ => rfl, fun _ _ _ => rfl⟩
  | true =>
    have hm' : (withModel s img).modelErrors = true := he
    rw [hm'] at h
    simp only [if_true] at h
    rw [updateWeights_def] at h
    cases hl : loopMap (withModel s img).nDataVals (updOne (withModel s img)) with
    | error e => rw [hl] at h; cases h
    | ok w =>
      rw [hl] at h
      obtain ⟨hlen, hw⟩ := loopMap_elems hl
      cases h
      refine ⟨fun _ => rfl, (fun hf => by rw [he] at hf; cases hf), fun z hz ⟨h1, m, h2, h3⟩ => ?_⟩
      have hz' : z < w.length := by rw [hlen]; exact hz
      have e1 : updOne (withModel s img) z = rdp s.weightVec z := by
        unfold updOne
        show (Except.bind (if s.maskExists then (rdp s.maskVec z).bind fun m => .ok (flt 0 m) else .ok true) _) = _
        rw [h1, h2]
        show (if flt 0 m = true then _ else _) = _
        rw [h3]
        rfl
      have e2 := hw z hz'
      rw [e1] at e2
      rw [e2]
      show rd w z = _
      rw [rd_ok hz']

theorem Kin.trans {s t u : MO α} (h : Kin s t) (g : Kin t u) : Kin s u := by
  have he : t.modelErrors = s.modelErrors := by have := congrArg MO.modelErrors (h.same []); exact this
  have hn : t.nDataVals = s.nDataVals := by have := congrArg MO.nDataVals (h.same []); exact this
  have hx : t.maskExists = s.maskExists := by have := congrArg MO.maskExists (h.same []); exact this
  have hv : t.maskVec = s.maskVec := by have := congrArg MO.maskVec (h.same []); exact this
  refine ⟨fun img => ?_, fun hm => ?_, fun z hz hk => ?_⟩
  · rw [g.same img, h.same img]
  · rw [g.weights (by rw [he]; exact hm), h.weights hm]
  · rw [g.kept z (by rw [hn]; exact hz) ⟨by rw [hx]; exact hk.1, by rw [hv]; exact hk.2⟩, h.kept z hz hk]

/-- Model-based errors are not used together with the Cash statistic. -/
def OneStatistic (s : MO α) : Prop := s.useCash = true → s.modelErrors = false

/-- A statistic does not depend on earlier evaluations. -/
theorem statistic_kin {s t : MO α} (h : Kin s t) (ho : OneStatistic s) (img : List α) : getFitStatistic (withModel t img) = getFitStatistic (withModel s img) := by
  have hc : (withModel t img).useCash = s.useCash := by rw [h.same img]; rfl
  have hc' : (withModel s img).useCash = s.useCash := rfl
  unfold getFitStatistic
  rw [hc, hc']
  cases hu : s.useCash with
  | true =>
    have e : withModel t img = withModel s img := by
      rw [h.same img, h.weights (ho hu)]
      rfl
    rw [e]
  | false =>
    simp only [Bool.false_eq_true, if_false]
    unfold chiSquared
    rw [maybeUpdate_kin h img]

theorem statistic_next {s : MO α} {img : List α} {r : MO α × α} (h : getFitStatistic (withModel s img) = .ok r) : Kin s r.1 := by
  unfold getFitStatistic at h
  split at h
  · obtain ⟨v, -, h⟩ := bind_ok h
    cases h
    exact ⟨fun _ => rfl, fun _ => rfl, fun _ _ _ => rfl⟩
  · unfold chiSquared at h
    obtain ⟨t, h1, h⟩ := bind_ok h
    obtain ⟨y, -, h⟩ := bind_ok h
    cases h
    exact maybeUpdate_next h1

theorem deviates_next {s : MO α} {img : List α} {r : MO α × List α} (h : computeDeviates (withModel s img) = .ok r) : Kin s r.1 := by
  unfold computeDeviates at h
  obtain ⟨t, h1, h⟩ := bind_ok h
  obtain ⟨y, -, h⟩ := bind_ok h
  cases h
  exact maybeUpdate_next h1

theorem evalOne_kin {image : List α → List α} {s t : MO α} {e : Eval α} (h : evalOne image s e = .ok t) : Kin s t := by
  unfold evalOne at h
  split at h
  · obtain ⟨r, h1, h⟩ := bind_ok h
    cases h
    exact deviates_next h1
  · obtain ⟨r, h1, h⟩ := bind_ok h
    cases h
    exact statistic_next h1

theorem evalAll_kin {image : List α → List α} {es : List (Eval α)} {s t : MO α} (h : evalAll image es s = .ok t) : Kin s t := by
  induction es generalizing s with
  | nil => cases h; exact Kin.refl _
  | cons e es ih =>
    obtain ⟨u, h1, h⟩ := bind_ok h
    exact (evalOne_kin h1).trans (ih h)

/-- The state after a statistic has been computed: the image is the one asked for. -/
theorem statistic_state {s : MO α} {img : List α} {r : MO α × α} (h : getFitStatistic (withModel s img) = .ok r) :
    r.1 = { withModel s img with weightVec := r.1.weightVec } := by
  unfold getFitStatistic at h
  split at h
  · obtain ⟨v, -, h⟩ := bind_ok h
    cases h
    rfl
  · unfold chiSquared at h
    obtain ⟨t, h1, h⟩ := bind_ok h
    obtain ⟨y, -, h⟩ := bind_ok h
    cases h
    unfold maybeUpdateWeights at h1
    split at h1
    · rw [updateWeights_def] at h1
      cases hl : loopMap (withModel s img).nDataVals (updOne (withModel s img)) with
      | error e => rw [hl] at h1; cases h1
      | ok w => rw [hl] at h1; cases h1; rfl
    · cases h1; rfl

/-- In bootstrap mode with the sample `T`. -/
def booted (s : MO α) (T : List Nat) : MO α := { s with doBootstrap := true, bootIdx := some T }

theorem sample_state {s : MO α} {rng : Nat → Nat} {fuel p : Nat} {r : MO α × Nat} (h : makeBootstrapSample s rng fuel p = .ok r) :
    ∃ T, r.1 = { s with bootIdx := some T } := by
  unfold makeBootstrapSample at h
  obtain ⟨q, -, h⟩ := bind_ok h
  cases h
  exact ⟨q.1, rfl⟩

/-- A new sample in a state that comes from `booted s T` by evaluations. -/
theorem Kin.resample {s t : MO α} {T U : List Nat} (h : Kin (booted s T) t) : Kin (booted s U) { t with bootIdx := some U } := by
  refine ⟨fun img => ?_, h.weights, h.kept⟩
  have e := h.same img
  show { withModel t img with bootIdx := some U } = _
  rw [e]
  rfl

theorem Kin.boot {s t : MO α} {U : List Nat} (h : Kin s t) : Kin (booted s U) (booted t U) := by
  refine ⟨fun img => ?_, h.weights, h.kept⟩
  have e := h.same img
  show { withModel t img with bootIdx := some U, doBootstrap := true } = _
  rw [e]
  rfl

theorem bootFits_kin {image : List α → List α} {fits : Nat → List (Eval α)} {rng : Nat → Nat} {fuel n : Nat} {s : MO α} {T : List Nat} {st r : MO α × Nat}
    (hs : Kin (booted s T) st.1) (h : bootFits image fits rng fuel n st = .ok r) : ∃ U, Kin (booted s U) r.1 := by
  induction n generalizing r with
  | zero => cases h; exact ⟨T, hs⟩
  | succ n ih =>
    obtain ⟨q, h1, h⟩ := bind_ok h
    obtain ⟨u, h2, h⟩ := bind_ok h
    obtain ⟨t, h3, h⟩ := bind_ok h
    cases h
    obtain ⟨V, hV⟩ := ih h1
    obtain ⟨U, hU⟩ := sample_state h2
    refine ⟨U, Kin.trans ?_ (evalAll_kin h3)⟩
    rw [hU]
    exact hV.resample

theorem runBootstrap_kin {image : List α → List α} {fits : Nat → List (Eval α)} {rng : Nat → Nat} {fuel n : Nat} {s t u : MO α} (hs : Kin s t)
    (h : runBootstrap image fits rng fuel n t = .ok u) : ∃ U, Kin (booted s U) u := by
  obtain ⟨v, h1, h⟩ := bind_ok h
  obtain ⟨r, h2, h⟩ := bind_ok h
  cases h
  obtain ⟨T, hT⟩ := sample_state h1
  refine bootFits_kin (T := T) ?_ h2
  rw [hT]
  exact hs.boot

end Imfit
