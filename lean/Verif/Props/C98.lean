import Verif.Lemmas.Run
import Verif.Model.XR

/-!
# C98 — what a run of `imfit` saves belongs to the fitted parameters and the data

`s` is the model object after the set-up, `image p` the model image for the parameters `p`; the solver and the fits to resampled data do any evaluations.
-/

namespace Imfit

open XR

namespace Spec

/-- `v` is the fit statistic that a run which does nothing but the set-up and one evaluation at `p` would find. -/
def StatisticOf {α : Type} [FP α] (s : MO α) (image : List α → List α) (p : List α) (v : α) : Prop :=
  ∃ t, getFitStatistic (withModel s (image p)) = .ok (t, v)

/-- The pixels of a saved model image: those of the model image for `p`, without the margin. -/
def ShowsModel {α : Type} (s : MO α) (image : List α → List α) (p : List α) (l : List α) : Prop :=
  ∀ z, z < s.nDataVals → rd l z = rd (image p) (modelIndex s z)

/-- The pixels of a saved residual image: data minus model. -/
def ShowsResidual {α : Type} [FP α] (s : MO α) (image : List α → List α) (p : List α) (l : List α) : Prop :=
  ∀ z, z < s.nDataVals → ∃ d m, rdp s.dataVec z = .ok d ∧ rd (image p) (modelIndex s z) = .ok m ∧ rd l z = .ok (d - m)

end Spec

section
variable {α : Type} [FP α]

omit [FP α] in
theorem overwrite_get {n : Nat} {buf b : List α} {f : Nat → Res α} (h : overwrite n buf f = .ok b) : ∀ z, z < n → rd b z = f z := by
  unfold overwrite at h
  refine (forN_inv n buf b _ (fun k t => ∀ z, z < k → rd t z = f z) (fun z hz => absurd hz (Nat.not_lt_zero z)) ?_ h)
  intro z t t' _ ih ht w hw
  obtain ⟨v, h1, h2⟩ := bind_ok ht
  have hlt : z < t.length := by
    by_contra hc
    rw [wr_oob (by omega)] at h2
    cases h2
  rw [wr_ok hlt] at h2
  cases h2
  by_cases e : w = z
  · subst e
    rw [rd_ok (by simpa using hlt), h1]
    simp
  · have := ih w (by omega)
    rw [← this]
    unfold rd
    rw [List.getElem?_set_ne (by omega)]

/-- Reading and writing of output images: the buffers of the object do not matter for what is read back. -/
theorem savePart_model {o o' : Out α} {l : Option (List α)} (hc : o.mo.modelImageComputed = true) {img : List α} (hi : o.mo.modelVec = some img)
    (h : savePart true .model o = .ok (o', l)) :
    o'.mo = o.mo ∧ ∃ v, l = some v ∧ ∀ z, z < o.mo.nDataVals → rd v z = rd img (modelIndex o.mo z) := by
  unfold savePart at h
  simp only [if_true] at h
  obtain ⟨q, h1, h⟩ := bind_ok h
  unfold serve getModelImage at h1
  simp only [hc, if_true] at h1
  split at h1
  · obtain ⟨b, h2, h1⟩ := bind_ok h1
    cases h1
    cases h
    refine ⟨rfl, b, rfl, fun z hz => ?_⟩
    rw [overwrite_get h2 z hz, hi]
    rfl
  · rename_i hd
    cases h1
    cases h
    refine ⟨rfl, img, hi, fun z hz => ?_⟩
    have : modelIndex o.mo z = z := by unfold modelIndex; rw [if_neg hd]
    rw [this]

theorem savePart_residual {o o' : Out α} {l : Option (List α)} (hc : o.mo.modelImageComputed = true) {img : List α} (hi : o.mo.modelVec = some img)
    (h : savePart true .residual o = .ok (o', l)) :
    o'.mo = o.mo ∧ ∃ v, l = some v ∧ ∀ z, z < o.mo.nDataVals → ∃ d m, rdp o.mo.dataVec z = .ok d ∧ rd img (modelIndex o.mo z) = .ok m ∧ rd v z = .ok (d - m) := by
  unfold savePart at h
  simp only [if_true] at h
  obtain ⟨q, h1, h⟩ := bind_ok h
  unfold serve getResidualImage at h1
  simp only [hc, if_true] at h1
  obtain ⟨b, h2, h1⟩ := bind_ok h1
  cases h1
  cases h
  refine ⟨rfl, b, rfl, fun z hz => ?_⟩
  have e := overwrite_get h2 z hz
  have hlt : z < b.length := by
    by_contra hcc
    unfold overwrite at h2
    have := forN_inv o.mo.nDataVals _ b _ (fun k t => k ≤ t.length) (Nat.zero_le _) (fun z t t' _ ih ht => by
      obtain ⟨v, -, hw⟩ := bind_ok ht
      by_cases hl : z < t.length
      · rw [wr_ok hl] at hw; cases hw; simpa using hl
      · rw [wr_oob (by omega)] at hw; cases hw) h2
    omega
  rw [rd_ok hlt] at e
  obtain ⟨d, hd, e⟩ := bind_ok e.symm
  obtain ⟨m, hm, e⟩ := bind_ok e
  rw [hi] at hm
  refine ⟨d, m, hd, hm, ?_⟩
  rw [rd_ok hlt]
  exact e.symm

theorem savePart_mo {w : Bool} {r : Req} {o o' : Out α} {l : Option (List α)} (h : savePart w r o = .ok (o', l)) : o'.mo = o.mo := by
  unfold savePart at h
  split at h
  · obtain ⟨q, h1, h⟩ := bind_ok h
    have e : q.1.mo = o.mo := by
      cases r <;> simp only [serve, getModelImage, getExpandedModelImage, getResidualImage, getWeightImage, getDataImage] at h1 <;>
        (repeat' split at h1) <;>
        first
          | (obtain ⟨b, -, h1⟩ := bind_ok h1; cases h1; rfl)
          | (cases h1; rfl)
    split at h <;> (cases h; exact e)
  · cases h; rfl

/-- Is the data resampled? -/
def RunOpts.resamples (o : RunOpts) : Prop := ∃ n, o.boot = some (n + 1)

/-- The object when the files are written. -/
def Base (s b : MO α) : Prop := Kin s b ∨ ∃ U, Kin (booted s U) b

theorem bootPart_base {image : List α → List α} {o : RunOpts} {fits : Nat → List (Eval α)} {rng : Nat → Nat} {fuel : Nat} {i : Bool} {s t b : MO α} (hs : Kin s t)
    (h : bootPart image o fits rng fuel i t = .ok b) :
    (o.resamples ∧ i = false → ∃ U, Kin (booted s U) b) ∧ (¬ (o.resamples ∧ i = false) → Kin s b) := by
  unfold bootPart at h
  split at h
  · rename_i n hn
    cases i with
    | true =>
      simp only [if_true] at h
      cases h
      exact ⟨fun hr => absurd hr.2 (by decide), fun _ => hs⟩
    | false =>
      simp only [Bool.false_eq_true, if_false] at h
      exact ⟨fun _ => runBootstrap_kin hs h, fun hc => absurd ⟨⟨n, hn⟩, rfl⟩ hc⟩
  · rename_i hn
    cases h
    refine ⟨fun hr => ?_, fun _ => hs⟩
    obtain ⟨⟨n, hb⟩, -⟩ := hr
    exact absurd hb (hn n)

theorem base_fields {s b : MO α} (h : Base s b) : b.nDataVals = s.nDataVals ∧ b.dataVec = s.dataVec ∧ ∀ z, modelIndex b z = modelIndex s z := by
  have key : ∀ u : MO α, u.nDataVals = s.nDataVals → u.dataVec = s.dataVec → (∀ z, modelIndex u z = modelIndex s z) → Kin u b →
      b.nDataVals = s.nDataVals ∧ b.dataVec = s.dataVec ∧ ∀ z, modelIndex b z = modelIndex s z := by
    intro u h1 h2 h3 hk
    refine ⟨(congrArg MO.nDataVals (hk.same [])).trans h1, (congrArg MO.dataVec (hk.same [])).trans h2, fun z => ?_⟩
    have e : modelIndex (withModel b []) z = modelIndex (withModel u []) z := by rw [hk.same []]; rfl
    exact e.trans (h3 z)
  rcases h with h | ⟨U, h⟩
  · exact key s rfl rfl (fun _ => rfl) h
  · exact key (booted s U) rfl rfl (fun _ => rfl) h

/-- The parts of a run that fits and saves the parameters. -/
theorem runFit_parts {image : List α → List α} {o : RunOpts} {start : List α} {f : Solve α} {fits : Nat → List (Eval α)} {rng : Nat → Nat} {fuel : Nat} {s : MO α}
    {out : Saved α} (hf : o.statOnly = false) (hp : o.params = true) (h : runFit image o start f fits rng fuel s = .ok out) :
    ∃ b r, ((o.resamples ∧ f.interrupted = false → ∃ U, Kin (booted s U) b) ∧ (¬ (o.resamples ∧ f.interrupted = false) → Kin s b)) ∧
      getFitStatistic (withModel b (image f.result)) = .ok r ∧ out.params = some (f.result, r.2) ∧ out.aside = f.interrupted ∧
      ∃ m q w, savePart (o.model && !f.interrupted) .model ⟨r.1, none, none, []⟩ = .ok m ∧ savePart (o.residual && !f.interrupted) .residual m.1 = .ok q ∧
        savePart (o.weight && !f.interrupted) .weight q.1 = .ok w ∧ out.model = m.2 ∧ out.residual = q.2 ∧ out.weight = w.2 := by
  unfold runFit at h
  obtain ⟨a, h1, h⟩ := bind_ok h
  obtain ⟨b, h2, h⟩ := bind_ok h
  obtain ⟨c, h3, h⟩ := bind_ok h
  obtain ⟨m, h4, h⟩ := bind_ok h
  obtain ⟨q, h5, h⟩ := bind_ok h
  obtain ⟨w, h6, h⟩ := bind_ok h
  cases h
  unfold fitPart at h1
  simp only [hf, Bool.false_eq_true, if_false] at h1
  obtain ⟨t, g1, h1⟩ := bind_ok h1
  cases h1
  simp only [hp] at h2 h3 h4 h5 h6
  unfold saveParamsPart at h3
  simp only [if_true] at h3
  obtain ⟨r, g2, h3⟩ := bind_ok h3
  cases h3
  exact ⟨b, r, bootPart_base (evalAll_kin g1) h2, g2, rfl, rfl, m, q, w, h4, h5, h6, rfl, rfl, rfl⟩

/-- Without resampling, or if the fit was interrupted: the file holds the parameters left by the solver, and the best-fit value in it is the statistic
of exactly these parameters for the data, whatever the solver evaluated before. (Partial: with resampling see `C98_bootstrap_false`.) -/
theorem C98_statistic_partial (image : List α → List α) (o : RunOpts) (start : List α) (f : Solve α) (fits : Nat → List (Eval α)) (rng : Nat → Nat) (fuel : Nat)
    (s : MO α) (out : Saved α) (ho : OneStatistic s) (hf : o.statOnly = false) (hp : o.params = true) (hb : ¬ (o.resamples ∧ f.interrupted = false))
    (h : runFit image o start f fits rng fuel s = .ok out) :
    ∃ v, out.params = some (f.result, v) ∧ out.aside = f.interrupted ∧ Spec.StatisticOf s image f.result v := by
  obtain ⟨b, r, hk, h1, h2, h3, -⟩ := runFit_parts hf hp h
  refine ⟨r.2, h2, h3, r.1, ?_⟩
  rw [← statistic_kin (hk.2 hb) ho]
  exact h1

/-- With resampling: the best-fit value in the file is the statistic of these parameters for the last resampled data. -/
theorem C98_bootstrap (image : List α → List α) (o : RunOpts) (start : List α) (f : Solve α) (fits : Nat → List (Eval α)) (rng : Nat → Nat) (fuel : Nat)
    (s : MO α) (out : Saved α) (ho : OneStatistic s) (hf : o.statOnly = false) (hp : o.params = true) (hb : o.resamples ∧ f.interrupted = false)
    (h : runFit image o start f fits rng fuel s = .ok out) :
    ∃ v T, out.params = some (f.result, v) ∧ Spec.StatisticOf (booted s T) image f.result v := by
  obtain ⟨b, r, hk, h1, h2, -, -⟩ := runFit_parts hf hp h
  obtain ⟨T, hT⟩ := hk.1 hb
  refine ⟨r.2, T, h2, r.1, ?_⟩
  rw [← statistic_kin hT ho]
  exact h1

/-- After a fit that was not interrupted, the model and residual images asked for are saved and belong to the saved parameters and the data, whatever was
evaluated and resampled before; nothing else is saved. -/
theorem C98_images (image : List α → List α) (o : RunOpts) (start : List α) (f : Solve α) (fits : Nat → List (Eval α)) (rng : Nat → Nat) (fuel : Nat)
    (s : MO α) (out : Saved α) (hf : o.statOnly = false) (hp : o.params = true) (h : runFit image o start f fits rng fuel s = .ok out) :
    (o.model = true ∧ f.interrupted = false → ∃ l, out.model = some l ∧ Spec.ShowsModel s image f.result l) ∧
      (o.residual = true ∧ f.interrupted = false → ∃ l, out.residual = some l ∧ Spec.ShowsResidual s image f.result l) ∧
      (¬ (o.model = true ∧ f.interrupted = false) → out.model = none) ∧ (¬ (o.residual = true ∧ f.interrupted = false) → out.residual = none) ∧
      (¬ (o.weight = true ∧ f.interrupted = false) → out.weight = none) := by
  obtain ⟨b, r, hk, h1, -, -, m, q, w, h4, h5, h6, e4, e5, e6⟩ := runFit_parts hf hp h
  have hB : Base s b := by
    by_cases hb : o.resamples ∧ f.interrupted = false
    · exact Or.inr (hk.1 hb)
    · exact Or.inl (hk.2 hb)
  obtain ⟨b1, b2, b3⟩ := base_fields hB
  have hst := statistic_state h1
  have r1 : r.1.modelImageComputed = true := by rw [hst]; rfl
  have r2 : r.1.modelVec = some (image f.result) := by rw [hst]; rfl
  have r3 : r.1.nDataVals = s.nDataVals := by rw [hst]; exact b1
  have r4 : r.1.dataVec = s.dataVec := by rw [hst]; exact b2
  have r5 : ∀ z, modelIndex r.1 z = modelIndex s z := by
    intro z
    have : modelIndex r.1 z = modelIndex b z := by rw [hst]; rfl
    exact this.trans (b3 z)
  have m1 : m.1.mo = r.1 := savePart_mo (o := ⟨r.1, none, none, []⟩) h4
  have off : ∀ {x : Bool} {y : Req} {u : Out α} {k : Out α × Option (List α)}, ¬ (x = true ∧ f.interrupted = false) → savePart (x && !f.interrupted) y u = .ok k → k.2 = none := by
    intro x y u k hn hs
    have : (x && !f.interrupted) = false := by
      cases x with
      | false => rfl
      | true =>
        cases hi : f.interrupted with
        | true => rfl
        | false => exact absurd ⟨rfl, hi⟩ hn
    rw [this] at hs
    unfold savePart at hs
    cases hs
    rfl
  refine ⟨fun ⟨x1, x2⟩ => ?_, fun ⟨x1, x2⟩ => ?_, fun hn => e4.trans (off hn h4), fun hn => e5.trans (off hn h5), fun hn => e6.trans (off hn h6)⟩
  · rw [x1, x2] at h4
    obtain ⟨-, v, k1, k2⟩ := savePart_model (o := ⟨r.1, none, none, []⟩) r1 r2 (show savePart true .model ⟨r.1, none, none, []⟩ = .ok (m.1, m.2) from h4)
    refine ⟨v, e4.trans k1, fun z hz => ?_⟩
    rw [k2 z (by rw [r3]; exact hz), r5]
  · rw [x1, x2] at h5
    obtain ⟨-, v, k1, k2⟩ := savePart_residual (o := m.1) (by rw [m1]; exact r1) (by rw [m1]; exact r2) (show savePart true .residual m.1 = .ok (q.1, q.2) from h5)
    refine ⟨v, e5.trans k1, fun z hz => ?_⟩
    obtain ⟨d, x, y1, y2, y3⟩ := k2 z (by rw [m1, r3]; exact hz)
    rw [m1, r4] at y1
    rw [m1, r5] at y2
    exact ⟨d, x, y1, y2, y3⟩

end

/-! ## The set-up -/

section
variable {α : Type} [FP α]

/-- The two switches of the statistic. -/
def switches (s : MO α) : Bool × Bool := (s.useCash, s.modelErrors)

theorem finalSetup_switches {s t : MO α} {st : Int} (h : finalSetup s = .ok (t, st)) : switches t = switches s := by
  unfold finalSetup at h
  obtain ⟨s2, h2, h⟩ := bind_ok h
  obtain ⟨s3, h3, h⟩ := bind_ok h
  obtain ⟨s4, h4, h⟩ := bind_ok h
  obtain ⟨s5, h5, h⟩ := bind_ok h
  obtain ⟨s6, h6, h⟩ := bind_ok h
  obtain ⟨ok, h7, h⟩ := bind_ok h
  dsimp only at h
  obtain ⟨p, h8, h⟩ : ∃ p, (if s6.dataValsSet then vetData s6 else pure (s6, true) : Res (MO α × Bool)) = .ok p ∧ p.1 = t := by
    split at h
    · rename_i hd
      obtain ⟨p, h8, h⟩ := bind_ok h
      cases h
      exact ⟨p, by rw [if_pos hd]; exact h8, rfl⟩
    · rename_i hd
      cases h
      exact ⟨(s6, true), by rw [if_neg hd]; rfl, rfl⟩
  have e1 : switches (finalDefaultMask s) = switches s := by unfold finalDefaultMask; split <;> rfl
  have e2 : switches s2 = switches (finalDefaultMask s) := by
    unfold finalMaskBadData at h2
    obtain ⟨r, -, h2⟩ := bind_ok h2
    cases h2; rfl
  have e3 : switches s3 = switches s2 := by
    unfold finalGenErrors at h3
    split at h3
    · unfold generateErrors at h3
      obtain ⟨r, -, h3⟩ := bind_ok h3
      cases h3; rfl
    · cases h3; rfl
  have e4 : switches s4 = switches s3 := by
    unfold finalGenExtra at h4
    split at h4
    · unfold generateExtraTerms at h4
      obtain ⟨r, -, h4⟩ := bind_ok h4
      obtain ⟨r, -, h4⟩ := bind_ok h4
      cases h4; rfl
    · cases h4; rfl
  have e5 : switches s5 = switches s4 := by
    unfold finalMaskBadWeights at h5
    split at h5
    · obtain ⟨r, -, h5⟩ := bind_ok h5
      cases h5; rfl
    · cases h5; rfl
  have e6 : switches s6 = switches s5 := by
    unfold applyMask at h6
    split at h6
    · obtain ⟨r, -, h6⟩ := bind_ok h6
      cases h6; rfl
    · cases h6; rfl
  have e8 : switches p.1 = switches s6 := by
    split at h8
    · unfold vetData at h8
      obtain ⟨r, -, h8⟩ := bind_ok h8
      cases h8; rfl
    · cases h8; rfl
  subst h
  rw [e8, e6, e5, e4, e3, e2, e1]

theorem setupBase_switches {i : FitInput α} {a : MO α} (h : setupBase i = .ok a) : switches a = (false, false) := by
  unfold setupBase at h
  obtain ⟨c, h4, h2⟩ := bind_ok h
  have ec : switches c = (false, false) := by
    unfold addImageData setupModelImage at h4
    split at h4
    · cases h4
    · simp only [Except.ok.injEq] at h4
      rw [← h4]
      unfold switches
      cases i.psf with
      | none => rfl
      | some q => rfl
  unfold addImageChars at h2
  split at h2
  · simp only [Except.ok.injEq] at h2
    rw [← h2]; exact ec
  · cases h2

theorem setupMask_switches {i : FitInput α} {a b : MO α} (h3 : setupMask i a = .ok b) : switches b = switches a := by
  unfold setupMask at h3
  split at h3
  · obtain ⟨r, h4, h3⟩ := bind_ok h3
    have er : switches r.1 = switches a := by
      unfold addMask at h4
      split at h4
      · cases h4
      · split at h4
        · obtain ⟨q, -, h4⟩ := bind_ok h4
          simp only [pure_eq_ok, Except.ok.injEq] at h4
          rw [← h4]; rfl
        · split at h4
          · obtain ⟨q, -, h4⟩ := bind_ok h4
            simp only [pure_eq_ok, Except.ok.injEq] at h4
            rw [← h4]; rfl
          · simp only [pure_eq_ok, Except.ok.injEq] at h4
            rw [← h4]; rfl
    split at h3
    · cases h3
    · simp only [Except.ok.injEq] at h3
      rw [← h3]; exact er
  · simp only [Except.ok.injEq] at h3
    rw [← h3]

theorem addError_switches {s t : MO α} {pix : List α} {n c r : Nat} {code : Int} (h : addError s pix n c r code = .ok t) : switches t = switches s := by
  unfold addError at h
  split at h
  · cases h
  · dsimp only at h
    split at h
    · obtain ⟨q, -, h1⟩ := bind_ok h
      simp only [pure_eq_ok, Except.ok.injEq] at h1
      rw [← h1]; rfl
    · split at h
      · obtain ⟨q, -, h1⟩ := bind_ok h
        simp only [pure_eq_ok, Except.ok.injEq] at h1
        rw [← h1]; rfl
      · split at h
        · obtain ⟨q, -, h1⟩ := bind_ok h
          simp only [pure_eq_ok, Except.ok.injEq] at h1
          rw [← h1]; rfl
        · simp only [pure_eq_ok, Except.ok.injEq] at h
          rw [← h]; rfl

theorem setupStat_switches {i : FitInput α} {b t : MO α} (hb : switches b = (false, false)) (h : setupStat i b = .ok t) :
    switches t = (false, false) ∨ switches t = (true, false) ∨ switches t = (false, true) := by
  have b1 : b.useCash = false := congrArg Prod.fst hb
  have b2 : b.modelErrors = false := congrArg Prod.snd hb
  unfold setupStat at h
  split at h
  · right; left
    simp only [Except.ok.injEq] at h
    rw [← h]
    show (true, b.modelErrors) = _
    rw [b2]
  · right; left
    simp only [Except.ok.injEq] at h
    rw [← h]
    show (true, b.modelErrors) = _
    rw [b2]
  · left
    rw [addError_switches h, hb]
  · right; right
    simp only [Except.ok.injEq] at h
    rw [← h]
    show (b.useCash, true) = _
    rw [b1]
  · left
    simp only [Except.ok.injEq] at h
    rw [← h]; exact hb

/-- The set-up of `imfit` never combines model-based errors with the Cash statistic. -/
theorem C98_setup (i : FitInput α) (s : MO α) (st : Int) (h : runSetup i = .ok (s, st)) : OneStatistic s := by
  unfold runSetup at h
  obtain ⟨t, h1, h⟩ := bind_ok h
  have e := finalSetup_switches h
  unfold setupFit at h1
  obtain ⟨a, h2, h1⟩ := bind_ok h1
  obtain ⟨b, h3, h1⟩ := bind_ok h1
  have et := setupStat_switches ((setupMask_switches h3).trans (setupBase_switches h2)) h1
  rw [← e] at et
  intro hc
  rcases et with et | et | et <;> simp only [switches, Prod.mk.injEq] at et
  · exact et.2
  · exact et.2
  · rw [hc] at et; cases et.1

end

/-! ## The value after resampling -/

/-- Two pixels without light, Cash statistic. -/
noncomputable def darkInput : FitInput XR :=
  { nCols := 2, nRows := 1, data := [.fin 0, .fin 0], psf := none, mask := none, errors := [], stat := .cash, gain := .fin 1, readNoise := .fin 0, expTime := .fin 1,
    nCombined := 1, sky := .fin 0 }

/-- The object after the set-up. -/
noncomputable def darkModel : MO XR :=
  { (moInit : MO XR) with
    nDataCols := 2, nDataRows := 1, nDataVals := 2, nValid := some 2, nModelCols := 2, nModelRows := 1, nModelVals := 2
    dataVec := some [fin 0, fin 0], weightVec := some [fin 1, fin 1], maskVec := some [fin 1, fin 1]
    extraVec := some [fin 0, fin 0]
    modelVec := some [fin 0, fin 0], dataValsSet := true, weightValsSet := true, weightAllocated := true, maskExists := true, useCash := true
    effGain := fin 1, nCombined := fin 1, readNoiseAduSq := fin 0, sky := fin 0 }

theorem dark_setup : runSetup darkInput = .ok (darkModel, 0) := by
  simp [runSetup, setupFit, setupBase, darkInput, darkModel, addImageData, setupModelImage, addImageChars, setupMask, loopAcc, loopMap, rd, setupStat,
    useCashStatistic, onesWeights, finalSetup, finalDefaultMask, finalMaskBadData, rdp, deref, finalGenErrors, finalGenExtra, finalMaskBadWeights, applyMask,
    maskedWeight, checkWeights, forN, vetData, tooFewValid, moInit, List.replicate]

/-- The component: a slope with the given height. -/
noncomputable def slope : List XR → List XR := fun p => [p.headD 0, p.headD 0 * fin 3]

/-- One evaluation by the solver, which leaves the parameter 1. -/
noncomputable def slopeFit : Solve XR := ⟨[⟨false, [fin 2]⟩], [fin 1], false⟩

/-- Draws that always give the first pixel. -/
def firstPixel : Nat → Nat := fun _ => 0

/-- What is saved after one resampling that takes the first pixel twice. -/
theorem slope_run : runFit slope ⟨false, some 1, true, true, false, false⟩ [fin 2] slopeFit (fun _ => []) firstPixel 1 darkModel =
    .ok ⟨some ([fin 1], fin 4), false, some [fin 1, fin 3], none, none⟩ := by
  have h0 : drawIndex 2 0 = 0 := by norm_num [drawIndex]
  simp [runFit, fitPart, slopeFit, evalAll, evalOne, getFitStatistic, cashStatistic, cashTerm, darkModel, withModel, moInit, nTerms, forN, termPixel, modelIndex, rdp, deref, rd,
    slope, bootPart, runBootstrap, useBootstrap, makeBootstrapSample, nValidNat, bootBuffer, pickIndex, firstPixel, wr, bootFits, saveParamsPart, savePart, serve, getModelImage,
    Out.read, h0, ok_bind, logModel, flog_fin_of_pos]
  norm_num

/-- The statistic of the saved parameters. -/
theorem slope_value : Spec.StatisticOf darkModel slope [fin 1] (fin 8) := by
  refine ⟨withModel darkModel (slope [fin 1]), ?_⟩
  simp [getFitStatistic, cashStatistic, cashTerm, darkModel, withModel, moInit, nTerms, forN, termPixel, modelIndex, rdp, deref, rd, slope, ok_bind, logModel, flog_fin_of_pos]
  norm_num

/-- The full claim is false if the data are resampled: nothing switches the resampling off again before the parameters are saved. Two pixels, a model with the
values 1 and 3: the Cash statistic is 8, but 4 is written as the best-fit value of the fit, the statistic of a sample that has the first pixel twice. -/
theorem C98_bootstrap_false : ∃ (s : MO XR) (out : Saved XR),
    runSetup darkInput = .ok (s, 0) ∧ runFit slope ⟨false, some 1, true, true, false, false⟩ [fin 2] slopeFit (fun _ => []) firstPixel 1 s = .ok out ∧
      out.params = some ([fin 1], fin 4) ∧ Spec.StatisticOf s slope [fin 1] (fin 8) :=
  ⟨darkModel, _, dark_setup, slope_run, rfl, slope_value⟩

/-- The images are false as well with `--chisquare-only`, where the parameters are not saved: with resampling, the model image written belongs to
the last evaluation of the last fit to resampled data (here 5 and 15), not to the parameters given (image 2 and 6). -/
theorem C98_only_false : ∃ (s : MO XR) (out : Saved XR),
    runSetup darkInput = .ok (s, 0) ∧
      runFit slope ⟨true, some 1, true, true, false, false⟩ [fin 2] slopeFit (fun _ => [⟨false, [fin 5]⟩]) firstPixel 1 s = .ok out ∧
      out.model = some [fin 5, fin 15] ∧ slope [fin 2] = [fin 2, fin 6] := by
  refine ⟨darkModel, ⟨none, false, some [fin 5, fin 15], none, none⟩, dark_setup, ?_, rfl, ?_⟩
  · have h0 : drawIndex 2 0 = 0 := by norm_num [drawIndex]
    simp [runFit, fitPart, evalAll, evalOne, getFitStatistic, cashStatistic, cashTerm, darkModel, withModel, moInit, nTerms, forN, termPixel, modelIndex, rdp, deref, rd,
      slope, bootPart, runBootstrap, useBootstrap, makeBootstrapSample, nValidNat, bootBuffer, pickIndex, firstPixel, wr, bootFits, saveParamsPart, savePart, serve, getModelImage,
      Out.read, h0, ok_bind, logModel, flog_fin_of_pos]
    norm_num
  · simp [slope]
    norm_num

/-- Without resampling the same fit gives 8. -/
example (out : Saved XR) (h : runFit slope ⟨false, none, true, true, true, false⟩ [fin 2] slopeFit (fun _ => []) firstPixel 1 darkModel = .ok out) :
    out.params = some ([fin 1], fin 8) := by
  obtain ⟨v, h1, -, t, h2⟩ := C98_statistic_partial slope _ _ slopeFit _ _ _ darkModel out (C98_setup darkInput _ _ dark_setup) rfl rfl
    (fun h => by obtain ⟨⟨n, hn⟩, -⟩ := h; cases hn) h
  obtain ⟨t', h3⟩ := slope_value
  have h2 : getFitStatistic (withModel darkModel (slope [fin 1])) = .ok (t, v) := h2
  rw [h3] at h2
  cases h2
  exact h1

end Imfit
