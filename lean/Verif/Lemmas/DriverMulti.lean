import Verif.Lemmas.DriverStart
import Verif.Props.C45

/-!
# Lemmas about the start of a fit to several images
-/

namespace Imfit

open Spec FP

variable {α : Type}

theorem flat5 {β γ : Type} (q : Fin 5 → γ → β) (is : List γ) (l : List β) (hl : l.length = 5 * is.length)
    (h : ∀ k (hk : k < is.length) (j : Fin 5), l[k * 5 + j]? = some (q j is[k])) : l = is.flatMap fun i => [q 0 i, q 1 i, q 2 i, q 3 i, q 4 i] := by
  induction is generalizing l with
  | nil => simpa using hl
  | cons i is ih =>
    match l, hl with
    | a :: b :: c :: d :: e :: l, hl =>
      rw [List.flatMap_cons]
      have hh : ∀ j : Fin 5, (a :: b :: c :: d :: e :: l)[(j : ℕ)]? = some (q j i) := fun j => by
        have := h 0 (by simp) j
        rw [Nat.zero_mul, Nat.zero_add] at this
        exact this
      have h0 := hh 0
      have h1 := hh 1
      have h2 := hh 2
      have h3 := hh 3
      have h4 := hh 4
      simp at h0 h1 h2 h3 h4
      rw [ih l (by simp at hl ⊢; omega) fun k hk j => by
        have := h (k + 1) (by simpa using hk) j
        rw [show (k + 1) * 5 + (j : ℕ) = k * 5 + j + 5 by omega] at this
        simpa using this]
      simp [h0, h1, h2, h3, h4]
    | [], hl => simp at hl
    | [_], hl => simp at hl; omega
    | [_, _], hl => simp at hl; omega
    | [_, _, _], hl => simp at hl; omega
    | [_, _, _, _], hl => simp at hl; omega

/-- The five parameters that describe an image, as written. -/
def described (im : ImgInfo α) : List (Entry α) :=
  [⟨im.pixelScale, im.pixelScaleLim⟩, ⟨im.rotation, im.rotationLim⟩, ⟨im.intensityScale, im.intensityScaleLim⟩, ⟨im.x0, im.x0Lim⟩, ⟨im.y0, im.y0Lim⟩]

theorem imageDesc_eq [FP α] (im : ImgInfo α) (is : List (ImgInfo α)) :
    ∃ flag, imageDescParams (im :: is) [] =
      .ok (((is.flatMap described).map Entry.value, (is.flatMap described).map Entry.lim, flag), 5 * (is.length : Int)) := by
  obtain ⟨vals, recs, flag, h, hv, hr, hall, -⟩ := C45_layout im is []
  refine ⟨flag, ?_⟩
  have e1 := flat5 (fun j i => (Spec.ImgPar.all[(j : ℕ)]'(by simp [Spec.ImgPar.all])).val i) is vals hv fun k hk j => (hall k hk j j.2).1
  have e2 := flat5 (fun j i => (Spec.ImgPar.all[(j : ℕ)]'(by simp [Spec.ImgPar.all])).lim i) is recs hr fun k hk j => (hall k hk j j.2).2
  rw [h, e1, e2]
  simp [List.map_flatMap, described, Spec.ImgPar.all, Spec.ImgPar.val, Spec.ImgPar.lim]

/-- A parameter with its record, while offsets are being taken into account. -/
abbrev Slot (α : Type) := α × ParRec α

def slots (L : List (Slot α)) : List α × List (ParRec α) := (L.map Prod.fst, L.map Prod.snd)

def Slot.init (e : Entry α) : Slot α := (e.value, ⟨e.lim, 0⟩)

def Slot.shift [FP α] (d : Int) (p : Slot α) : Slot α := (p.1 - lit (d : ℚ), shiftLimited p.2 d)

theorem shiftAt_mid [FP α] (A B : List (Slot α)) (p : Slot α) (i : Nat) (hi : i = A.length) (d : Int) :
    shiftAt (slots (A ++ p :: B)) i d = .ok (slots (A ++ Slot.shift d p :: B)) := by
  subst hi
  unfold shiftAt slots
  simp only
  have e1 : rd ((A ++ p :: B).map Prod.fst) A.length = .ok p.1 := by
    rw [rd_ok (by simp)]; simp
  have e2 : rd ((A ++ p :: B).map Prod.snd) A.length = .ok p.2 := by
    rw [rd_ok (by simp)]; simp
  rw [e1, ok_bind, wr_ok (by simp), ok_bind, e2, ok_bind, wr_ok (by simp), ok_bind]
  simp [Slot.shift, List.set_append]

/-- Copying values into a vector. -/
theorem fill_ok {β : Type} (l : List β) (n : Nat) (hn : n = l.length) (A B C : List β) (hC : C.length = n) (m : Nat) (hm : m = A.length) :
    forN n (A ++ C ++ B) (fun k o => do
      let v ← rd l k
      wr o (m + k) v) = .ok (A ++ l ++ B) := by
  subst hn hm
  have := forN_ok l.length (A ++ C ++ B) (fun k o => do
      let v ← rd l k
      wr o (A.length + k) v) (fun k => A ++ (l.take k ++ C.drop k) ++ B) (by simp) (by
    intro k hk
    beta_reduce
    rw [rd_ok hk, ok_bind, wr_ok (by simp; omega)]
    congr 1
    rw [List.append_assoc, List.append_assoc, List.set_append_right _ _ (by omega), Nat.add_sub_cancel_left,
      List.append_assoc, List.append_assoc, List.set_append_right _ _ (by rw [List.length_take]; omega)]
    have hlt : (l.take k).length = k := by simp; omega
    rw [hlt, Nat.sub_self, List.drop_eq_getElem_cons (show k < C.length by omega), List.cons_append, List.set_cons_zero,
      List.take_succ_eq_append_getElem hk]
    simp only [List.append_assoc, List.cons_append, List.nil_append])
  rw [this]
  simp [← hC]

theorem multiValues_eq [FP α] (desc : List α) (c : Config α) (ims : List (ImgInfo α)) (hloc : localVals ims = []) :
    multiValues desc.length (desc.length + c.vals.length) desc c ims = .ok (desc ++ c.vals) := by
  unfold multiValues
  rw [hloc]
  have h1 := fill_ok desc desc.length rfl [] (List.replicate c.vals.length 0) (List.replicate desc.length (0 : α)) (by simp) 0 rfl
  simp only [Nat.zero_add, List.nil_append, List.replicate_append_replicate] at h1
  rw [h1, ok_bind]
  have h2 := fill_ok c.vals c.vals.length rfl desc [] (List.replicate c.vals.length (0 : α)) (by simp) desc.length rfl
  simp only [List.append_nil] at h2
  rw [Nat.add_sub_cancel_left, h2, ok_bind]
  rfl

theorem allLocal_none (ims : List (ImgInfo α)) (h : ∀ im ∈ ims, im.functions = none) : allLocalRecs ims = .ok [] ∧ localVals ims = [] := by
  induction ims with
  | nil => exact ⟨rfl, rfl⟩
  | cons im ims ih =>
    obtain ⟨h1, h2⟩ := ih fun k hk => h k (by simp [hk])
    refine ⟨?_, ?_⟩
    · unfold allLocalRecs localRecs
      rw [h im (by simp)]
      simp only
      rw [ok_bind, h1, ok_bind]
      rfl
    · unfold localVals at h2 ⊢
      rw [List.flatMap_cons, h2, h im (by simp)]
      rfl

theorem multiRecs_eq (desc : List (Entry α)) (E : List (Entry α)) (c : Config α) (hv : c.vals = E.map Entry.value) (hl : c.lims = E.map Entry.lim)
    (ims : List (ImgInfo α)) (h : ∀ im ∈ ims, im.functions = none) :
    multiRecs desc.length (desc.map Entry.lim) c ims = .ok ((desc ++ E).map fun e => (⟨e.lim, 0⟩ : ParRec α)) := by
  unfold multiRecs
  have h1 := loopMap_list desc (fun i => do
    let p ← rd (desc.map Entry.lim) i
    .ok (⟨p, 0⟩ : ParRec α)) (fun e => ⟨e.lim, 0⟩) fun i hi => by
      beta_reduce
      rw [rd_ok (by simpa using hi), ok_bind]; simp
  have h2 := loopMap_list E (fun i => do
    let p ← rd (E.map Entry.lim) i
    .ok (⟨p, 0⟩ : ParRec α)) (fun e => ⟨e.lim, 0⟩) fun i hi => by
      beta_reduce
      rw [rd_ok (by simpa using hi), ok_bind]; simp
  rw [h1, ok_bind, hv, hl, List.length_map, h2, ok_bind, (allLocal_none ims h).1, ok_bind]
  simp

theorem descLabels_length (n : Nat) : (descLabels n).length = 5 * n := by
  induction n with
  | zero => rfl
  | succ n ih => simp [descLabels, descNames, ih]; omega

/-- What becomes of the slots of one image. -/
def shiftedDesc [FP α] (im : ImgInfo α) (o : Int × Int) : List (Slot α) :=
  [Slot.init ⟨im.pixelScale, im.pixelScaleLim⟩, Slot.init ⟨im.rotation, im.rotationLim⟩, Slot.init ⟨im.intensityScale, im.intensityScaleLim⟩,
    Slot.shift o.1 (Slot.init ⟨im.x0, im.x0Lim⟩), Slot.shift o.2 (Slot.init ⟨im.y0, im.y0Lim⟩)]

theorem shiftDesc_loop [FP α] (is : List (ImgInfo α)) (o₀ : Int × Int) (os : List (Int × Int)) (ho : os.length = is.length) (G : List (Slot α)) :
    forN is.length (slots ((is.flatMap described).map Slot.init ++ G)) (fun k s => shiftDesc (o₀ :: os) k s) =
      .ok (slots ((is.zip os).flatMap (fun p => shiftedDesc p.1 p.2) ++ G)) := by
  have hA : ∀ k, k ≤ is.length → (((is.zip os).take k).flatMap fun p => shiftedDesc p.1 p.2).length = 5 * k := by
    intro k hk
    induction k with
    | zero => rfl
    | succ k ih =>
      rw [List.take_succ_eq_append_getElem (show k < (is.zip os).length by simp; omega), List.flatMap_append, List.length_append, ih (by omega)]
      simp [shiftedDesc]; omega
  have := forN_ok is.length (slots ((is.flatMap described).map Slot.init ++ G)) (fun k s => shiftDesc (o₀ :: os) k s)
    (fun k => slots (((is.zip os).take k).flatMap (fun p => shiftedDesc p.1 p.2) ++ (((is.drop k).flatMap described).map Slot.init ++ G))) (by simp) (by
      intro k hk
      beta_reduce
      have hk' : k < (is.zip os).length := by simp; omega
      unfold shiftDesc
      have ero : rd (o₀ :: os) (k + 1) = .ok os[k] := by
        rw [rd_ok (by simp; omega)]; simp
      rw [ero, ok_bind, List.drop_eq_getElem_cons hk, List.flatMap_cons, List.map_append]
      have hl := hA k (by omega)
      generalize hg : ((is.zip os).take k).flatMap (fun p => shiftedDesc p.1 p.2) = A at hl
      have e1 : A ++ ((described is[k]).map Slot.init ++ ((is.drop (k + 1)).flatMap described).map Slot.init ++ G) =
          (A ++ [Slot.init ⟨is[k].pixelScale, is[k].pixelScaleLim⟩, Slot.init ⟨is[k].rotation, is[k].rotationLim⟩,
            Slot.init ⟨is[k].intensityScale, is[k].intensityScaleLim⟩]) ++ Slot.init ⟨is[k].x0, is[k].x0Lim⟩ :: Slot.init ⟨is[k].y0, is[k].y0Lim⟩ ::
            (((is.drop (k + 1)).flatMap described).map Slot.init ++ G) := by simp [described]
      rw [e1, shiftAt_mid _ _ _ _ (by simp [hl, N_IMAGE_PARAMS]; omega), ok_bind]
      have e2 : (A ++ [Slot.init ⟨is[k].pixelScale, is[k].pixelScaleLim⟩, Slot.init ⟨is[k].rotation, is[k].rotationLim⟩,
            Slot.init ⟨is[k].intensityScale, is[k].intensityScaleLim⟩]) ++ Slot.shift os[k].1 (Slot.init ⟨is[k].x0, is[k].x0Lim⟩) ::
            Slot.init ⟨is[k].y0, is[k].y0Lim⟩ :: (((is.drop (k + 1)).flatMap described).map Slot.init ++ G) =
          (A ++ [Slot.init ⟨is[k].pixelScale, is[k].pixelScaleLim⟩, Slot.init ⟨is[k].rotation, is[k].rotationLim⟩,
            Slot.init ⟨is[k].intensityScale, is[k].intensityScaleLim⟩, Slot.shift os[k].1 (Slot.init ⟨is[k].x0, is[k].x0Lim⟩)]) ++
            Slot.init ⟨is[k].y0, is[k].y0Lim⟩ :: (((is.drop (k + 1)).flatMap described).map Slot.init ++ G) := by simp
      rw [e2, shiftAt_mid _ _ _ _ (by simp [hl, N_IMAGE_PARAMS]; omega), List.take_succ_eq_append_getElem hk', List.flatMap_append, hg]
      simp [shiftedDesc])
  rw [this, List.take_of_length_le (by simp), List.drop_of_length_le le_rfl]
  rfl

/-- What becomes of the slot of a parameter called `n`. -/
def shiftedGlobal [FP α] (o : Int × Int) (p : Str × Entry α) : Slot α :=
  if p.1 = kX0 then Slot.shift o.1 (Slot.init p.2) else if p.1 = kY0 then Slot.shift o.2 (Slot.init p.2) else Slot.init p.2

theorem shiftGlobal_loop [FP α] (D : List (Slot α)) (labels : List Str) (T : List (Str × Entry α)) (o : Int × Int) (hl : labels.length = D.length) :
    forN T.length (slots (D ++ T.map fun p => Slot.init p.2))
      (fun k s => shiftGlobal (labels ++ T.map Prod.fst) (D.length + T.length) D.length o k s) = .ok (slots (D ++ T.map (shiftedGlobal o))) := by
  have := forN_ok T.length (slots (D ++ T.map fun p => Slot.init p.2))
    (fun k s => shiftGlobal (labels ++ T.map Prod.fst) (D.length + T.length) D.length o k s)
    (fun k => slots (D ++ ((T.take k).map (shiftedGlobal o) ++ (T.drop k).map fun p => Slot.init p.2))) (by simp) (by
      intro k hk
      beta_reduce
      unfold shiftGlobal getParameterName
      rw [if_pos (by omega), rd_ok (by simp; omega)]
      have en : (labels ++ T.map Prod.fst)[D.length + k]'(by simp; omega) = T[k].1 := by
        rw [List.getElem_append_right (by omega)]; simp [hl]
      simp only [en, ok_bind, pure_eq_ok, Option.some.injEq]
      rw [List.drop_eq_getElem_cons hk, List.map_cons, List.take_succ_eq_append_getElem hk, List.map_append, List.map_singleton]
      have hlen : D.length + k = (D ++ (T.take k).map (shiftedGlobal o)).length := by simp; omega
      rw [← List.append_assoc]
      have hfin : ∀ q : Slot α, D ++ (T.take k).map (shiftedGlobal o) ++ q :: (T.drop (k + 1)).map (fun p => Slot.init p.2) =
          D ++ ((T.take k).map (shiftedGlobal o) ++ [q] ++ (T.drop (k + 1)).map fun p => Slot.init p.2) := fun q => by simp
      split
      · rename_i h
        rw [shiftAt_mid _ _ _ _ hlen, hfin]
        simp [shiftedGlobal, h]
      · rename_i h
        split
        · rename_i h'
          rw [shiftAt_mid _ _ _ _ hlen, hfin]
          have : shiftedGlobal o T[k] = Slot.shift o.2 (Slot.init T[k].2) := by simp [shiftedGlobal, h', kX0, kY0]
          rw [this]
        · rename_i h'
          rw [hfin]
          simp [shiftedGlobal, h, h'])
  rw [this]
  simp

theorem correctOffsets_eq [FP α] (is : List (ImgInfo α)) (o₀ : Int × Int) (os : List (Int × Int)) (ho : os.length = is.length) (T : List (Str × Entry α)) :
    correctOffsets (descLabels is.length ++ T.map Prod.fst) (5 * is.length + T.length) (is.length + 1) (o₀ :: os)
      (slots ((is.flatMap described).map Slot.init ++ T.map fun p => Slot.init p.2)) =
      .ok (slots ((is.zip os).flatMap (fun p => shiftedDesc p.1 p.2) ++ T.map (shiftedGlobal o₀))) := by
  unfold correctOffsets
  have hD : ((is.zip os).flatMap fun p => shiftedDesc p.1 p.2).length = 5 * is.length := by
    rw [List.length_flatMap]
    simp [shiftedDesc, ho]; omega
  rw [Nat.add_sub_cancel, shiftDesc_loop is o₀ os ho, ok_bind, rd_ok (by simp), ok_bind]
  have := shiftGlobal_loop ((is.zip os).flatMap fun p => shiftedDesc p.1 p.2) (descLabels is.length) T o₀ (by rw [descLabels_length, hD])
  rw [hD] at this
  rw [show N_IMAGE_PARAMS = 5 from rfl, Nat.add_sub_cancel_left]
  exact this

theorem buildImages_plan (cat : Catalogue) (c : Config α) (plan : List (SetWritten α)) (hs : Says c plan) (hf : Filled plan)
    (hk : ∀ f ∈ functions plan, (cat.params f.name).isSome ∧ cat.accepts f.name = true) (ims : List (ImgInfo α)) (h : ∀ im ∈ ims, im.functions = none) :
    buildImages cat c ims = .ok (some (ims.map fun _ =>
      ⟨(functions plan).map (builtOf cat fun _ => []), planFlags plan, (planNames cat plan).length, planNames cat plan⟩)) := by
  induction ims with
  | nil => rfl
  | cons im ims ih =>
    unfold buildImages buildImage
    rw [h im (by simp)]
    simp only
    rw [hs.names, hs.labels, hs.starts, addFunctions_plan cat cat.accepts 0 [] plan hf [] _ (fun _ => []) (fun k hk => ⟨rfl, true, by
      unfold flagFor
      split
      · rfl
      · rw [rd_ok (by simpa using hk)]; simp⟩) fun f hf => ⟨(hk f hf).1, Or.inl rfl, (hk f hf).2⟩, ok_bind]
    simp only
    rw [ih fun k hk => h k (by simp [hk]), ok_bind]
    simp

end Imfit
