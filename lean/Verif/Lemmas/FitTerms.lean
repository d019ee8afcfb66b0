import Verif.Lemmas.FitCash
import Verif.Lemmas.Enorm
import Verif.Spec.Stat

/-!
# Closed forms of the statistics over a list of pixels
-/

namespace Imfit

open Spec XR

section anyFP
variable {α : Type} [FP α]

/-- State tables without an assumption on the bootstrap mode. -/
structure Tabs0 (n : Nat) (s : MO α) (d m w : Nat → α) (f : Nat → α) : Prop where
  hn : s.nDataVals = n
  hd : s.dataVec = some (tab n d)
  hw : s.weightVec = some (tab n w)
  hme : s.maskExists = true
  hm : s.maskVec = some (tab n m)
  hf : ∀ z, z < n → rdp s.modelVec (modelIndex s z) = .ok (f z)

/-- `T` lists the pixels of the terms. -/
structure IsTerms (n : Nat) (s : MO α) (T : List Nat) : Prop where
  len : nTerms s = T.length
  pix : ∀ k (h : k < T.length), termPixel s k = .ok T[k]
  lt : ∀ b ∈ T, b < n

variable {n : Nat} {s : MO α} {d m w : Nat → α} {f : Nat → α} {T : List Nat}

theorem upState_eq0 (h : Tabs0 n s d m w f) : maybeUpdateWeights s = .ok (upState n s m w f) := by
  unfold maybeUpdateWeights
  cases hme : s.modelErrors with
  | true =>
    simp only [if_true]
    unfold updateWeights
    rw [h.hn, loopMap_ok n _ (upW s m w f)]
    · simp only [ok_bind, pure_eq_ok, upState, tab, ← h.hn]
    · intro z hz
      rw [h.hme, h.hm, h.hw, rdp_tab m hz, rdp_tab w hz, h.hf z hz]
      unfold upW
      rw [hme]
      cases hf : flt 0 (m z) <;> simp [hf]
  | false =>
    simp only [Bool.false_eq_true, if_false]
    have : upW s m w f = w := by funext z; simp [upW, hme]
    unfold upState
    rw [this, ← h.hw]

theorem upTabs0 (h : Tabs0 n s d m w f) : Tabs0 n (upState n s m w f) d m (upW s m w f) f :=
  ⟨h.hn, h.hd, rfl, h.hme, h.hm, h.hf⟩

theorem upTerms (h : IsTerms n s T) (m w f : Nat → α) : IsTerms n (upState n s m w f) T :=
  ⟨h.len, h.pix, h.lt⟩

omit [FP α] in
theorem map_getElem_range {β : Type} (T : List Nat) (g : Nat → β) :
    (List.range T.length).map (fun k => g (T.getD k 0)) = T.map g := by
  apply List.ext_getElem
  · simp
  · intro k h1 h2
    simp at h1
    simp [List.getD_eq_getElem?_getD, h1]

omit [FP α] in
/-- A loop over the terms. -/
theorem loop_terms {β : Type} (hT : IsTerms n s T) (F : Nat → Res β) (g : Nat → β)
    (h : ∀ b, b < n → F b = .ok (g b)) :
    loopMap (nTerms s) (fun z => do let b ← termPixel s z; F b) = .ok (T.map g) := by
  rw [hT.len, loopMap_ok _ _ (fun k => g (T.getD k 0)), map_getElem_range]
  intro z hz
  rw [hT.pix z hz]
  simp only [ok_bind]
  rw [h _ (hT.lt _ (List.getElem_mem hz))]
  simp [List.getD_eq_getElem?_getD, hz]

theorem chiDeviate_eq0 (h : Tabs0 n s d m w f) {z : Nat} (hz : z < n) :
    chiDeviate s z (modelIndex s z) = .ok (w z * (d z - f z)) := by
  unfold chiDeviate
  rw [h.hf z hz, h.hd, h.hw, rdp_tab d hz, rdp_tab w hz]
  rfl

theorem chiSquared_terms (h : Tabs0 n s d m w f) (hT : IsTerms n s T) :
    chiSquared s = .ok (upState n s m w f,
      mpEnorm (T.map fun b => upW s m w f b * (d b - f b)) *
      mpEnorm (T.map fun b => upW s m w f b * (d b - f b))) := by
  unfold chiSquared
  rw [upState_eq0 h, ok_bind,
    loop_terms (upTerms hT m w f) (fun b => chiDeviate (upState n s m w f) b (modelIndex (upState n s m w f) b))
      (fun b => upW s m w f b * (d b - f b)) (fun b hb => chiDeviate_eq0 (upTabs0 h) hb)]
  rfl

theorem computeDeviates_terms (h : Tabs0 n s d m w f) (hT : IsTerms n s T) (hp : s.poissonMLR = false) :
    computeDeviates s = .ok (upState n s m w f, T.map fun b => upW s m w f b * (d b - f b)) := by
  unfold computeDeviates
  rw [upState_eq0 h, ok_bind]
  have : (upState n s m w f).poissonMLR = false := hp
  simp only [this, Bool.false_eq_true, if_false]
  rw [loop_terms (upTerms hT m w f) (fun b => chiDeviate (upState n s m w f) b (modelIndex (upState n s m w f) b))
      (fun b => upW s m w f b * (d b - f b)) (fun b hb => chiDeviate_eq0 (upTabs0 h) hb)]
  rfl

theorem computeDeviates_mlr_terms (h : Tabs0 n s d m w f) (hT : IsTerms n s T) (hp : s.poissonMLR = true)
    {e : Nat → α} (he : s.extraVec = some (tab n e)) :
    computeDeviates s = .ok (upState n s m w f, T.map (mlrD s (upW s m w f) d f e)) := by
  unfold computeDeviates
  rw [upState_eq0 h, ok_bind]
  have h1 : (upState n s m w f).poissonMLR = true := hp
  have h2 : (upState n s m w f).extraVec = some (tab n e) := he
  simp only [h1, if_true]
  rw [loop_terms (upTerms hT m w f) (fun b => mlrDeviate (upState n s m w f) b (modelIndex (upState n s m w f) b))
      (mlrD s (upW s m w f) d f e)]
  · rfl
  · intro z hz
    have hT' := upTabs0 h
    unfold mlrDeviate
    rw [hT'.hf z hz, hT'.hd, hT'.hw, h2, rdp_tab d hz, rdp_tab e hz, rdp_tab (upW s m w f) hz]
    rfl

/-- left-to-right sum of Cash terms over a list of pixels -/
def cashFold (s : MO α) (w d f e : Nat → α) (T : List Nat) : α :=
  T.foldl (fun acc b => acc + w b * cashTerm s.effGain s.sky (d b) (f b) (e b)) 0

theorem cashStatistic_terms (h : Tabs0 n s d m w f) (hT : IsTerms n s T) {e : Nat → α}
    (he : s.extraVec = some (tab n e)) :
    cashStatistic s = .ok (lit 2 * cashFold s w d f e T) := by
  unfold cashStatistic
  rw [hT.len, forN_ok T.length 0 _ (fun k => cashFold s w d f e (T.take k)) (by simp [cashFold])]
  · simp
  · intro z hz
    rw [hT.pix z hz]
    have hb := hT.lt _ (List.getElem_mem hz)
    simp only [ok_bind]
    rw [h.hf _ hb, h.hd, h.hw, he, rdp_tab d hb, rdp_tab w hb, rdp_tab e hb]
    simp only [ok_bind, pure_eq_ok]
    congr 1
    unfold cashFold
    rw [List.take_add_one, List.getElem?_eq_getElem hz, List.foldl_append]
    rfl

end anyFP

section exact
variable {i : FitInput XR} {c : Chars i}

theorem modelIndex_pad (sh : Shapes i) (z : Nat) : modelIndex (runState i c) z = padIndex i z := by
  have f := setupFacts i c sh
  unfold modelIndex padIndex
  have h0 : (runState i c).doConvolution = i.psf.isSome := f.conv
  rw [h0]
  cases hp : i.psf with
  | none => rfl
  | some p =>
    obtain ⟨a, b⟩ := p
    obtain ⟨h1, h2, h3, h4⟩ := f.psf a b hp
    have e1 : (runState i c).nPSFCols = a := h1
    have e2 : (runState i c).nPSFRows = b := h2
    have e3 : (runState i c).nModelCols = i.nCols + 2 * a := h3
    have e4 : (runState i c).nDataCols = i.nCols := f.cols
    simp only [Option.isSome_some, if_true]
    rw [e1, e2, e3, e4]
    rw [Nat.mod_eq_sub_div_mul]
    ring

theorem modelIndex_spec (sh : Shapes i) (img : List ℝ) (z : Nat) :
    imgAt (runState i c) (img.map fin) z = fin (modelAt i img z) := by
  have hmap : ∀ k, pix (img.map fin) k = fin (img.getD k 0) := by
    intro k
    unfold pix
    simp only [List.getD_eq_getElem?_getD, List.getElem?_map]
    cases img[k]? <;> rfl
  unfold imgAt
  rw [hmap, modelIndex_pad sh]
  rfl

theorem run_tabs0 (sh : Shapes i) {s' : MO XR} {T : List Nat}
    (hm : Mode i.n (count i.n (Used i)) (runState i c) s' T) (img : List XR)
    (hl : img.length = padLen i) :
    Tabs0 i.n (withModel s' img) (fData i) (fMask i) (fWeight i c) (imgAt (runState i c) img) ∧
      IsTerms i.n (withModel s' img) T := by
  have T0 := run_tabs (c := c) sh img (by rw [run_nModelVals sh]; exact hl)
  have hf : ∀ z, z < i.n → rdp (some img) (modelIndex (runState i c) z) = .ok (imgAt (runState i c) img z) :=
    fun z hz => T0.hf z hz
  cases hm with
  | plain =>
    refine ⟨⟨T0.hn, T0.hd, T0.hw, T0.hme, T0.hm, hf⟩, ?_, ?_, ?_⟩
    · unfold nTerms; rw [T0.hb]; simp [T0.hn]
    · intro k hk
      unfold termPixel; rw [T0.hb]; simp
    · intro b hb; simpa using hb
  | boot T hT hlt =>
    refine ⟨⟨T0.hn, T0.hd, T0.hw, T0.hme, T0.hm, hf⟩, ?_, ?_, hlt⟩
    · unfold nTerms
      have : (withModel { runState i c with doBootstrap := true, bootIdx := some T } img).nValid =
        some ((count i.n (Used i) : Nat) : Int) := run_nValid sh
      rw [this]
      show (if true then _ else _) = _
      simp [hT]
    · intro k hk
      unfold termPixel
      show (if true then rdp (some T) k else _) = _
      simp only [if_true, rdp, deref, ok_bind]
      exact rd_ok hk

end exact

end Imfit
