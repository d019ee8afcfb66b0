import Verif.Props.C125
import Verif.Props.C126
import Verif.Props.C127

/-!
# C128 — imfit and makeimage understand a configuration file in the same way

Every file that imfit accepts is accepted by makeimage, which makes the same functions and takes the same numbers. So a fit of the image that makeimage makes from a file, started from
the same file, begins and ends with the numbers in the file.
-/

namespace Imfit

open Spec XR FP

variable {α : Type}

theorem stepParam_unchecked [FP α] (nl : Strtod α) (st : PState0 α) (l : Str) (r : PState0 α) (h : stepParam nl true st l = .ok (some r)) :
    stepParam nl false st l = .ok (some r) := by
  unfold stepParam at h ⊢
  cases hp : addParam nl l with
  | error e => rw [hp] at h; cases h
  | ok p =>
    rw [hp, ok_bind] at h
    rw [ok_bind]
    obtain ⟨v, o, f⟩ := p
    cases o with
    | none => cases h
    | some q => exact h

theorem parseLoop_unchecked [FP α] (nl : Strtod α) (mode2D : Bool) (ls : List Str) : ∀ (w : Bool) (st r : PState0 α), parseLoop nl mode2D true w st ls = .ok (some r) →
    parseLoop nl mode2D false w st ls = .ok (some r) := by
  have step : ∀ (ls : List Str), (∀ (w : Bool) (st r : PState0 α), parseLoop nl mode2D true w st ls = .ok (some r) → parseLoop nl mode2D false w st ls = .ok (some r)) →
      ∀ (st : PState0 α) (l : Str) (w : Bool) (r : PState0 α),
        (do match ← stepParam nl true st l with
            | none => .ok none
            | some st1 => parseLoop nl mode2D true w st1 ls : Res (Option (PState0 α))) = .ok (some r) →
        (do match ← stepParam nl false st l with
            | none => .ok none
            | some st1 => parseLoop nl mode2D false w st1 ls : Res (Option (PState0 α))) = .ok (some r) := by
    intro ls ih st l w r h
    cases hs : stepParam nl true st l with
    | error e => rw [hs] at h; cases h
    | ok o =>
      rw [hs, ok_bind] at h
      cases o with
      | none => cases h
      | some st1 =>
        rw [stepParam_unchecked nl st l st1 hs, ok_bind]
        exact ih w st1 r h
  induction ls with
  | nil =>
    intro w st r h
    cases w <;> exact h
  | cons l ls ih =>
    intro w st r h
    cases w with
    | true =>
      unfold parseLoop at h ⊢
      split at h
      · rename_i hy
        rw [if_pos hy]
        exact step ls ih _ _ _ _ h
      · rename_i hy
        rw [if_neg hy]
        exact h
    | false =>
      unfold parseLoop at h ⊢
      split at h
      · rename_i c1
        rw [if_pos c1]
        exact step ls ih _ _ _ _ h
      rename_i c1
      rw [if_neg c1]
      split at h
      · rename_i c2
        rw [if_pos c2]
        cases ha : addFunction st l with
        | error e => rw [ha] at h; cases h
        | ok s1 =>
          rw [ha, ok_bind] at h
          rw [ok_bind]
          exact ih _ _ _ h
      rename_i c2
      rw [if_neg c2]
      split at h
      · rename_i c3
        rw [if_pos c3]
        exact ih _ _ _ h
      rename_i c3
      rw [if_neg c3]
      split at h
      · rename_i c4
        rw [if_pos c4]
        exact ih _ _ _ h
      rename_i c4
      rw [if_neg c4]
      split at h
      · rename_i c5
        rw [if_pos c5]
        cases ha : addOptional st l with
        | error e => rw [ha] at h; cases h
        | ok s1 =>
          rw [ha, ok_bind] at h
          rw [ok_bind]
          exact ih _ _ _ h
      rename_i c5
      rw [if_neg c5]
      exact step ls ih _ _ _ _ h

/-- What is read with a check of the limits is read without it. -/
theorem readConfig_unchecked [FP α] (nl : Strtod α) (mode2D : Bool) (opts : List (List (Str × Str))) (file : Str) (c : Config α)
    (h : readConfig nl mode2D true opts file = .ok (some c)) : readConfig nl mode2D false opts file = .ok (some c) := by
  unfold readConfig at h ⊢
  cases hk : keepLines (textLines file) with
  | error e => rw [hk] at h; cases h
  | ok lines =>
    rw [hk, ok_bind] at h
    rw [ok_bind]
    unfold readKept at h ⊢
    cases hv : vetConfigFile nl mode2D lines with
    | error e => rw [hv] at h; cases h
    | ok v =>
      rw [hv, ok_bind] at h
      rw [ok_bind]
      cases v with
      | bad k => cases h
      | good k sect =>
        unfold readSections at h ⊢
        cases ho : readOptions (lines.take k) with
        | error e => simp only [ho] at h; cases h
        | ok os =>
          simp only [ho, ok_bind] at h ⊢
          unfold parseFunctionSection at h ⊢
          cases hp : parseLoop nl mode2D true false ⟨[], [], [], [], [], false, opts, 0, false⟩ sect with
          | error e => rw [hp] at h; cases h
          | ok o =>
            rw [hp, ok_bind] at h
            cases o with
            | none => cases h
            | some st =>
              rw [parseLoop_unchecked nl mode2D sect _ _ _ hp, ok_bind]
              exact h

theorem sub_lit_zero (v : XR) : v - lit (((0 : Int)) : ℚ) = v := by
  rw [XR.lit_def]
  cases v <;> simp <;> rfl

/-- A fit of a whole image starts with the values in the file. -/
theorem startFit_whole (cat : Catalogue) (c : Config XR) (st : FitStart XR) (h : startFit cat c 0 0 = .ok (some st)) : st.values = c.vals := by
  unfold startFit at h
  cases ha : addFunctions cat cat.accepts 0 [] c.names c.labels c.starts c.opts [] with
  | error e => rw [ha] at h; cases h
  | ok r =>
    rw [ha, ok_bind] at h
    cases r with
    | none => cases h
    | some b =>
      simp only at h
      split at h
      · cases h
      · rename_i hn
        have hn := Classical.not_not.1 hn
        split at h
        · cases h
        · cases h1 : loopMap b.total fun i => startRec b c.lims 0 0 i with
          | error e => rw [h1] at h; cases h
          | ok recs =>
            rw [h1, ok_bind] at h
            cases h2 : loopMap b.total fun i => startValue b c.vals 0 0 i with
            | error e => rw [h2] at h; cases h
            | ok vals =>
              rw [h2, ok_bind] at h
              cases h
              show vals = c.vals
              have hl := loopMap_length h2
              refine List.ext_getElem (by rw [hl, hn]) fun i hi hi' => ?_
              have hg := (loopMap_elems h2).2 i hi
              unfold startValue at hg
              rw [rd_ok hi', ok_bind] at hg
              cases hq : getParameterName b.labels b.total i with
              | error e => rw [hq] at hg; cases hg
              | ok nm =>
                rw [hq, ok_bind, sub_lit_zero] at hg
                split at hg
                · exact (Except.ok.inj hg).symm
                · split at hg <;> exact (Except.ok.inj hg).symm

/-- C128: a file that imfit accepts, for an image section or a whole image, is accepted by makeimage, which makes the same functions in the same sets and takes all numbers of the file. -/
theorem C128_same [FP α] (nl : Strtod α) (cat : Catalogue) (file : Str) (c : Config α) (ox oy : Int) (st : FitStart α)
    (hr : readConfig nl true true [] file = .ok (some c)) (hs : startFit cat c ox oy = .ok (some st)) : makeFromFile nl cat file = .ok (some (st.built, c.vals)) := by
  unfold makeFromFile
  rw [readConfig_unchecked nl true [] file c hr, ok_bind]
  exact makeStart_of cat c ox oy st hs

/-- C128, whole images: makeimage takes the numbers with which the fit starts. -/
theorem C128_whole (nl : Strtod XR) (cat : Catalogue) (file : Str) (c : Config XR) (st : FitStart XR)
    (hr : readConfig nl true true [] file = .ok (some c)) (hs : startFit cat c 0 0 = .ok (some st)) : makeFromFile nl cat file = .ok (some (st.built, st.values)) := by
  rw [startFit_whole cat c st hs]
  exact C128_same nl cat file c 0 0 st hr hs

/-- C128: the data are the image that makeimage makes from the file (`m` is the model object with its functions and PSF). A fit of it by chi-squared or Poisson-MLR with the Levenberg-Marquardt
solver, started from the same file, returns the numbers in the file. The deviates are those of `computeDeviates`. -/
theorem C128_stays_partial {i : FitInput XR} {m m' : Img XR} (nl : Strtod XR) (cat : Catalogue) (file : Str) (c : Config XR) (st : FitStart XR)
    (hr : readConfig nl true true [] file = .ok (some c)) (hs : startFit cat c 0 0 = .ok (some st)) (b : Built) (vals : List XR) (hm : makeFromFile nl cat file = .ok (some (b, vals)))
    (hok : createModelImage m vals = .ok m') (ch : Chars i) (sh : Shapes i) (s : MO XR) (hrun : runSetup i = .ok (s, 0)) (hstat : i.stat ≠ .cash)
    (hf : Spec.Fits m i.nCols i.nRows) (hp : PsfOf i m) (img : List ℝ) (hl : img.length = m.geom.n) (hv : m'.modelVec = img.map fin) (hd : cutOut m' i.nCols i.nRows = .ok i.data)
    (hpos : i.stat = .chi2Model → ∀ z, z < i.n → Used i z → 0 < ch.modelVariance (modelAt i img z))
    (hM : i.stat = .poissonMLR → ∀ z, z < i.n → Used i z → 0 < ch.counts (modelAt i img z))
    (E : SolverEnv XR) (hE : ∀ p q t y, createModelImage m p = .ok q → computeDeviates (withModel s q.modelVec) = .ok (t, y) → E.dev p = y)
    (info : List (MPPar XR)) (tol : XR) (limitsExist : Bool) (name : List Char) (useLHS : Bool) (r : Fitted XR)
    (h : dispatchToSolver E 1 st.values info tol limitsExist name useLHS = .ok r) : b = st.built ∧ r.params = c.vals ∧ r.params = vals := by
  have e := C128_whole nl cat file c st hr hs
  rw [hm] at e
  obtain ⟨rfl, rfl⟩ := Prod.mk.inj (Option.some.inj (Except.ok.inj e))
  have hw := startFit_whole cat c st hs
  have hmade := C127_made sh hf hp st.values hok img hl hv hd
  have hfin : ∀ z, z < i.n → pix i.data z ≠ nan ∧ pix i.data z ≠ pinf := by
    intro z hz
    obtain ⟨h1, h2, h3⟩ := pix_parts sh hz
    have := cut_model hf hp (create_keeps hok).1 (create_keeps hok).2 hl hv hd h1 h2
    rw [h3] at this
    unfold pix
    rw [List.getD_eq_getElem?_getD, this]
    exact ⟨fun h => (by cases h), fun h => (by cases h)⟩
  obtain ⟨t, y, h1, h2⟩ := C127_deviates ch sh s hrun hstat img (hl.trans (padLen_img hf hp).symm) hmade hpos (fun _ z hz _ => hfin z hz) hM
  have h3 := C127_stays E st.values info tol limitsExist name useLHS r (by rw [hE _ _ _ _ hok (hv ▸ h1)]; exact h2) h
  exact ⟨rfl, h3.trans hw, h3⟩

/-! ## Examples -/

/-- makeimage can use the sample configuration of imfit: it makes the galaxy with which a fit would start. -/
example : ∃ (b : Built) (vals : List Int), @makeFromFile Int toyFP tenthsStrtod (standardCatalogue false) sampleImfit = .ok (some (b, vals)) ∧ b.fns.map FnBuilt.name = ["Sersic".toList] := by
  obtain ⟨c, st, h1, h2, -, h3, -⟩ := C125_imfit
  exact ⟨_, _, @C128_same Int toyFP tenthsStrtod (standardCatalogue false) sampleImfit c 0 0 st h1 h2, h3⟩

/-- Not conversely: with limits in the wrong order imfit refuses a file that makeimage accepts. -/
example : (match @readConfig Int toyFP tenthsStrtod true true [] "X0 1 5,2\nY0 1\nFUNCTION FlatSky\nI_sky 3\n".toList,
    @makeFromFile Int toyFP tenthsStrtod (standardCatalogue false) "X0 1 5,2\nY0 1\nFUNCTION FlatSky\nI_sky 3\n".toList with
    | .ok none, .ok (some (_, v)) => v == [10, 10, 30]
    | _, _ => false) = true := by decide +kernel

/-- One pixel with one constant function, without PSF. -/
noncomputable def exOnePixel : Img XR :=
  { fns := [⟨⟨1, false, fun ps _ _ _ _ => ps.headD (fin 0)⟩, [], fin 0, fin 0, none, fin 1, fin 1⟩],
    starts := [true], geom := ⟨1, 1, 0, 0⟩, conv := none, interp := none, regions := [], modelVec := [], computed := false }

/-- The conditions on images in `C128_stays_partial` hold for a pixel with one count, made with a constant function and fitted with Poisson-MLR. -/
example : Spec.Fits exOnePixel c06Input.nCols c06Input.nRows ∧ PsfOf c06Input exOnePixel ∧ (∃ s, runSetup c06Input = .ok (s, 0)) ∧
    ∃ m', createModelImage exOnePixel [fin 1, fin 1, fin 1] = .ok m' ∧ m'.modelVec = [(1 : ℝ)].map fin ∧ cutOut m' c06Input.nCols c06Input.nRows = .ok c06Input.data ∧
      ∀ z, z < c06Input.n → Used c06Input z → 0 < c06Chars.counts (modelAt c06Input [1] z) := by
  have hset : setupFns [fin 1, fin 1, fin 1] (exOnePixel.fns.zip exOnePixel.starts) ⟨0, 0, 0⟩ =
      .ok ([⟨⟨1, false, fun ps _ _ _ _ => ps.headD (fin 0)⟩, [fin 1], fin 1, fin 1, none, fin 1, fin 1⟩], ⟨3, fin 1, fin 1⟩) := by
    simp [exOnePixel, setupFns, newSet, fnSetup, loopMap, rd]
  have hfill : fillImage exOnePixel.geom.n (mainX exOnePixel.geom) (mainY exOnePixel.geom) [⟨⟨1, false, fun ps _ _ _ _ => ps.headD (fin 0)⟩, [fin 1], fin 1, fin 1, none, fin 1, fin 1⟩] =
      .ok [fin 1] := by
    refine (loopMap_ok 1 _ (fun _ => fin 1) fun k hk => ?_).trans rfl
    have h0 : (0 : XR) = fin 0 := rfl
    show Except.ok ((0 : XR) + (fin 1 - (0 : XR))) = _
    rw [h0, fin_sub, fin_add, zero_add, sub_zero]
  refine ⟨⟨by decide, fun h => (by cases h), fun _ => ⟨rfl, rfl, rfl, rfl⟩⟩, rfl, c06Run, { exOnePixel with
    fns := [⟨⟨1, false, fun ps _ _ _ _ => ps.headD (fin 0)⟩, [fin 1], fin 1, fin 1, none, fin 1, fin 1⟩], modelVec := [fin 1], computed := true }, ?_, rfl, ?_, ?_⟩
  · unfold createModelImage
    rw [hset, ok_bind]
    simp only
    rw [hfill, ok_bind]
    rfl
  · rfl
  · intro z hz _
    have hz : z = 0 := by have hz : z < 1 := hz; omega
    have hg : c06Chars.effGain = 1 := by simp [Chars.effGain, c06Chars, c06Input, c05Input]
    rw [hz, show modelAt c06Input [1] 0 = 1 from rfl]
    unfold Chars.counts
    rw [hg]
    simp [c06Chars]

end Imfit
