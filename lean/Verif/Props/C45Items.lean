import Verif.Props.C45
import Verif.Lemmas.DE
import Verif.Spec.ImageItems

/-!
# C45, continued: everything else an image-information file says

For every accepted file: each piece of information is what the last line about it says, or the documented default; the oversampled regions are those told, in order.
-/

namespace Imfit

open Spec

variable {α : Type} [FP α]

omit [FP α] in
theorem second_ok' {w : Str} {ws : List Str} {f : Str → ImgInfo α} {i : ImgInfo α} (h : second (w :: ws) f = .ok i) : ∃ t r, ws = t :: r ∧ i = f t := by
  cases ws with
  | nil => cases h
  | cons t r => cases h; exact ⟨t, r, rfl, rfl⟩

omit [FP α] in
theorem secondInts_ok' {nl : NumLib α} {w : Str} {ws : List Str} {f : Int × Int → ImgInfo α} {i : ImgInfo α} (h : secondInts nl (w :: ws) f = .ok i) :
    ∃ t r a b r', ws = t :: r ∧ tokens (· == ',') t = a :: b :: r' ∧ i = f (nl.toInt a, nl.toInt b) := by
  cases ws with
  | nil => cases h
  | cons t r =>
    unfold secondInts at h
    have e0 : rd (w :: t :: r) 1 = .ok t := rfl
    rw [e0, ok_bind] at h
    unfold twoInts at h
    rw [splitString_eq] at h
    split at h
    · cases ht : tokens (· == ',') t with
      | nil => rw [ht] at h; cases h
      | cons a q =>
        cases q with
        | nil => rw [ht] at h; cases h
        | cons b r' => rw [ht] at h; cases h; exact ⟨t, r, a, b, r', rfl, ht, rfl⟩
    · cases h

theorem lookup_nil {w : Str} {β : Type} : ([] : List (Str × β)).lookup w = none := rfl

theorem lookup_ne {w k : Str} {β : Type} {f : β} {r : List (Str × β)} (h : ¬ w = k) (hr : r.lookup w = none) : ((k, f) :: r).lookup w = none := by
  have hb : (w == k) = false := by simpa using h
  rw [List.lookup_cons, hb, hr]

/-- What the words of a line do to the information. -/
structure ItemStep (nl : NumLib α) (w : Str) (ws : List Str) (i i' : ImgInfo α) : Prop where
  item : ∀ q : ImgItem, match (q.readers nl).lookup w with
    | none => q.val i' = q.val i
    | some f => f (w :: ws) = some (q.val i')
  names : i'.overNames = i.overNames ++ if w = iOverPsf then (w :: ws)[1]?.toList else []
  scales : i'.overScales = i.overScales ++ if w = iOverScale then ((w :: ws)[1]?.map nl.toInt).toList else []
  regions : i'.overRegions = i.overRegions ++ if w = iOverRegion then (w :: ws)[1]?.toList else []

local macro "item_step" : tactic => `(tactic| (
  refine ⟨fun q => ?_, ?_, ?_, ?_⟩
  · cases q <;> exact rfl
  all_goals first
    | rfl
    | (rw [if_neg (by decide), List.append_nil])))

local macro "item_step_two" ht:term : tactic => `(tactic| (
  refine ⟨fun q => ?_, ?_, ?_, ?_⟩
  · cases q
    all_goals first
      | exact rfl
      | (show Option.map _ ((tokens _ _)[_]?) = _
         rw [$ht:term]
         rfl)
  all_goals rw [if_neg (by decide), List.append_nil]))

theorem storeInfo_items (nl : NumLib α) (l : Str) (i i' : ImgInfo α) (hk : Kept l) (h : storeInfo nl l i = .ok i') :
    ∃ w ws, words l = w :: ws ∧ ItemStep nl w ws i i' := by
  obtain ⟨w, ws, hw⟩ := words_kept hk
  refine ⟨w, ws, hw, ?_⟩
  unfold storeInfo at h
  rw [split_kept hk, ok_bind, hw] at h
  have hr : rd (w :: ws) 0 = .ok w := rfl
  rw [hr, ok_bind] at h
  by_cases h0 : w = iGain
  · rw [if_pos h0] at h
    subst h0
    obtain ⟨t, r, rfl, rfl⟩ := second_ok' h
    item_step
  rw [if_neg h0] at h
  by_cases h1 : w = iReadNoise
  · rw [if_pos h1] at h
    subst h1
    obtain ⟨t, r, rfl, rfl⟩ := second_ok' h
    item_step
  rw [if_neg h1] at h
  by_cases h2 : w = iSky
  · rw [if_pos h2] at h
    subst h2
    obtain ⟨t, r, rfl, rfl⟩ := second_ok' h
    item_step
  rw [if_neg h2] at h
  by_cases h3 : w = iExpTime
  · rw [if_pos h3] at h
    subst h3
    obtain ⟨t, r, rfl, rfl⟩ := second_ok' h
    item_step
  rw [if_neg h3] at h
  by_cases h4 : w = iWeight
  · rw [if_pos h4] at h
    subst h4
    obtain ⟨t, r, rfl, rfl⟩ := second_ok' h
    item_step
  rw [if_neg h4] at h
  by_cases h5 : w = iPixelScale
  · rw [if_pos h5] at h
    subst h5
    obtain ⟨p, -, rfl⟩ := withLimits_ok h
    item_step
  rw [if_neg h5] at h
  by_cases h6 : w = iImagePA
  · rw [if_pos h6] at h
    subst h6
    obtain ⟨p, -, rfl⟩ := withLimits_ok h
    item_step
  rw [if_neg h6] at h
  by_cases h7 : w = iFluxScale
  · rw [if_pos h7] at h
    subst h7
    obtain ⟨p, -, rfl⟩ := withLimits_ok h
    item_step
  rw [if_neg h7] at h
  by_cases h8 : w = iX0
  · rw [if_pos h8] at h
    subst h8
    obtain ⟨p, -, rfl⟩ := withLimits_ok h
    item_step
  rw [if_neg h8] at h
  by_cases h9 : w = iY0
  · rw [if_pos h9] at h
    subst h9
    obtain ⟨p, -, rfl⟩ := withLimits_ok h
    item_step
  rw [if_neg h9] at h
  by_cases h10 : w = iNcols
  · rw [if_pos h10] at h
    subst h10
    obtain ⟨t, r, rfl, rfl⟩ := second_ok' h
    item_step
  rw [if_neg h10] at h
  by_cases h11 : w = iNrows
  · rw [if_pos h11] at h
    subst h11
    obtain ⟨t, r, rfl, rfl⟩ := second_ok' h
    item_step
  rw [if_neg h11] at h
  by_cases h12 : w = iNrowsNcols
  · rw [if_pos h12] at h
    subst h12
    obtain ⟨t, r, ta, tb, r', rfl, ht, rfl⟩ := secondInts_ok' h
    item_step_two ht
  rw [if_neg h12] at h
  by_cases h13 : w = iNcolsNrows
  · rw [if_pos h13] at h
    subst h13
    obtain ⟨t, r, ta, tb, r', rfl, ht, rfl⟩ := secondInts_ok' h
    item_step_two ht
  rw [if_neg h13] at h
  by_cases h14 : w = iNcombined
  · rw [if_pos h14] at h
    subst h14
    obtain ⟨t, r, rfl, rfl⟩ := second_ok' h
    item_step
  rw [if_neg h14] at h
  by_cases h15 : w = iData
  · rw [if_pos h15] at h
    subst h15
    obtain ⟨t, r, rfl, rfl⟩ := second_ok' h
    item_step
  rw [if_neg h15] at h
  by_cases h16 : w = iMask
  · rw [if_pos h16] at h
    subst h16
    obtain ⟨t, r, rfl, rfl⟩ := second_ok' h
    item_step
  rw [if_neg h16] at h
  by_cases h17 : w = iError
  · rw [if_pos h17] at h
    subst h17
    obtain ⟨t, r, rfl, rfl⟩ := second_ok' h
    item_step
  rw [if_neg h17] at h
  by_cases h18 : w = iPsf
  · rw [if_pos h18] at h
    subst h18
    obtain ⟨t, r, rfl, rfl⟩ := second_ok' h
    item_step
  rw [if_neg h18] at h
  by_cases h19 : w = iOverScale
  · rw [if_pos h19] at h
    subst h19
    obtain ⟨t, r, rfl, rfl⟩ := second_ok' h
    item_step
  rw [if_neg h19] at h
  by_cases h20 : w = iOverPsf
  · rw [if_pos h20] at h
    subst h20
    obtain ⟨t, r, rfl, rfl⟩ := second_ok' h
    item_step
  rw [if_neg h20] at h
  by_cases h21 : w = iOverRegion
  · rw [if_pos h21] at h
    subst h21
    obtain ⟨t, r, rfl, rfl⟩ := second_ok' h
    item_step
  rw [if_neg h21] at h
  by_cases h22 : w = iMaskGood
  · rw [if_pos h22] at h
    subst h22
    cases h
    item_step
  rw [if_neg h22] at h
  by_cases h23 : w = iMaskBad
  · rw [if_pos h23] at h
    subst h23
    cases h
    item_step
  rw [if_neg h23] at h
  by_cases h24 : w = iSigmas
  · rw [if_pos h24] at h
    subst h24
    cases h
    item_step
  rw [if_neg h24] at h
  by_cases h25 : w = iVariances
  · rw [if_pos h25] at h
    subst h25
    cases h
    item_step
  rw [if_neg h25] at h
  by_cases h26 : w = iWeights
  · rw [if_pos h26] at h
    subst h26
    cases h
    item_step
  rw [if_neg h26] at h
  cases h
  refine ⟨fun q => ?_, ?_, ?_, ?_⟩
  · have hn : (q.readers nl).lookup w = none := by
      cases q
      case gain => exact (lookup_ne h0 lookup_nil)
      case readNoise => exact (lookup_ne h1 lookup_nil)
      case sky => exact (lookup_ne h2 lookup_nil)
      case expTime => exact (lookup_ne h3 lookup_nil)
      case weight => exact (lookup_ne h4 lookup_nil)
      case nCombined => exact (lookup_ne h14 lookup_nil)
      case nColumns => exact (lookup_ne h10 (lookup_ne h13 (lookup_ne h12 lookup_nil)))
      case nRows => exact (lookup_ne h11 (lookup_ne h13 (lookup_ne h12 lookup_nil)))
      case data => exact (lookup_ne h15 lookup_nil)
      case mask => exact (lookup_ne h16 lookup_nil)
      case err => exact (lookup_ne h17 lookup_nil)
      case psf => exact (lookup_ne h18 lookup_nil)
      case maskGood => exact (lookup_ne h22 (lookup_ne h23 lookup_nil))
      case errType => exact (lookup_ne h24 (lookup_ne h25 (lookup_ne h26 lookup_nil)))
    rw [hn]
  · rw [if_neg h20, List.append_nil]
  · rw [if_neg h19, List.append_nil]
  · rw [if_neg h21, List.append_nil]

theorem descLines_cons (l : Str) (ls : List Str) : descLines (l :: ls) = if hasSub iFunctionsStart l then [] else l :: descLines ls := by
  unfold descLines
  by_cases h : hasSub iFunctionsStart l = true
  · have h' : Has functionsStart l := (has_iff _ _).1 h
    rw [if_pos h, List.takeWhile_cons_of_neg (by simpa using h')]
  · have h' : ¬ Has functionsStart l := fun hh => h ((has_iff _ _).2 hh)
    rw [if_neg h, List.takeWhile_cons_of_pos (by simpa using h')]

/-- What the lines say, starting from `i`. -/
structure SaidFrom (nl : NumLib α) (b : List Str) (i i' : ImgInfo α) : Prop where
  item : ∀ q : ImgItem, match q.said nl b with
    | none => q.val i' = q.val i
    | some v => v = some (q.val i')
  names : i'.overNames = i.overNames ++ overNamesSaid b
  scales : i'.overScales = i.overScales ++ overScalesSaid nl b
  regions : i'.overRegions = i.overRegions ++ overRegionsSaid b

omit [FP α] in
theorem SaidFrom.none (nl : NumLib α) (b : List Str) (h : descLines b = []) (i : ImgInfo α) : SaidFrom nl b i i := by
  refine ⟨fun q => ?_, ?_, ?_, ?_⟩
  · unfold ImgItem.said
    rw [h]
    rfl
  · unfold overNamesSaid; rw [h]; simp
  · unfold overScalesSaid; rw [h]; simp
  · unfold overRegionsSaid; rw [h]; simp

theorem addInfoLoop_items (nl : NumLib α) (ls : List Str) (hk : ∀ l ∈ ls, Kept l) (k : ℕ) (i i' : ImgInfo α) (m : ℕ)
    (h : addInfoLoop nl k i ls = .ok (i', m)) : SaidFrom nl ls i i' := by
  induction ls generalizing k i with
  | nil => cases h; exact SaidFrom.none nl [] rfl _
  | cons l ls ih =>
    unfold addInfoLoop at h
    by_cases hf : hasSub iFunctionsStart l = true
    · rw [if_pos hf] at h
      cases h
      exact SaidFrom.none nl _ (by rw [descLines_cons, if_pos hf]) _
    · rw [if_neg hf] at h
      obtain ⟨i1, h1, h⟩ := bind_ok h
      obtain ⟨w, ws, hw, hs⟩ := storeInfo_items nl l i i1 (hk l (by simp)) h1
      have h2 := ih (fun l hl => hk l (by simp [hl])) _ _ h
      have hd : descLines (l :: ls) = l :: descLines ls := by rw [descLines_cons, if_neg hf]
      refine ⟨fun q => ?_, ?_, ?_, ?_⟩
      · have e : q.said nl (l :: ls) = (q.said nl ls).or ((q.reader nl l).map fun f => f (words l)) := by
          unfold ImgItem.said
          rw [hd, List.reverse_cons, List.findSome?_append]
          congr 1
          simp [List.findSome?]
          cases q.reader nl l <;> rfl
        have a := h2.item q
        have b := hs.item q
        rw [e]
        cases hq : q.said nl ls with
        | some v => rw [hq] at a; exact a
        | none =>
          rw [hq] at a
          have er : q.reader nl l = (q.readers nl).lookup w := by unfold ImgItem.reader; rw [hw]; rfl
          rw [er]
          cases hr : (q.readers nl).lookup w with
          | none => rw [hr] at b; exact a.trans b
          | some f =>
            rw [hr] at b
            show f (words l) = some (q.val i')
            rw [hw, b]
            exact congrArg some a.symm
      · rw [h2.names, hs.names]
        unfold overNamesSaid
        rw [hd, List.flatMap_cons, hw, List.append_assoc]
        simp only [iOverPsf, List.append_cancel_left_eq, List.append_cancel_right_eq, List.head?_cons, Option.some.injEq]
        congr
      · rw [h2.scales, hs.scales]
        unfold overScalesSaid
        rw [hd, List.flatMap_cons, hw, List.append_assoc]
        simp only [iOverScale, List.append_cancel_left_eq, List.append_cancel_right_eq, List.head?_cons, Option.some.injEq]
        congr
      · rw [h2.regions, hs.regions]
        unfold overRegionsSaid
        rw [hd, List.flatMap_cons, hw, List.append_assoc]
        simp only [iOverRegion, List.append_cancel_left_eq, List.append_cancel_right_eq, List.head?_cons, Option.some.injEq]
        congr

theorem readImageBlock_items (nl : NumLib α) (b : List Str) (hk : ∀ l ∈ b, Kept l) (i : ImgInfo α) (h : readImageBlock nl b = .ok (some i)) :
    SaidFrom nl b ImgInfo.init i := by
  unfold readImageBlock at h
  obtain ⟨p, ha, h⟩ := bind_ok h
  have h1 := addInfoLoop_items nl b hk 0 _ p.1 p.2 ha
  by_cases hp : p.2 > 0
  · rw [if_pos hp] at h
    obtain ⟨r, hr, h⟩ := bind_ok h
    cases r with
    | none => cases h
    | some st =>
      cases h
      exact ⟨fun q => by have := h1.item q; cases q <;> exact this, h1.names, h1.scales, h1.regions⟩
  · rw [if_neg hp] at h
    cases h
    exact h1

/-- C45: for every accepted file, everything else stored about an image is what the last line about it says (or the default), and the oversampled regions are those
of its lines, in order. -/
theorem C45_items (nl : NumLib α) (k0 : Int) (file : Str) (pre : List Str) (bs : List (List Str)) (hpre : ∀ l ∈ pre, ¬ Has imageStart l)
    (hbs : IsBlocks bs) (hf : usable file = pre ++ bs.flatten) (is : List (ImgInfo α)) (h : readImageParams nl k0 file = .ok (.good is)) :
    is.length = bs.length ∧ ∀ p ∈ bs.zip is,
      (∀ q : ImgItem, match q.said nl p.1 with
        | none => q.val p.2 = q.default
        | some v => v = some (q.val p.2)) ∧
      p.2.overNames = overNamesSaid p.1 ∧ p.2.overScales = overScalesSaid nl p.1 ∧ p.2.overRegions = overRegionsSaid p.1 := by
  unfold readImageParams at h
  have hu := usable_kept file
  rw [keepLines_usable, ok_bind, hf] at h
  rw [hf] at hu
  obtain ⟨errs, hv, h⟩ := bind_ok h
  by_cases he : errs ≠ []
  · rw [if_pos he] at h; cases h
  · rw [if_neg he, imageStarts_none pre hpre, Nat.zero_add, imageBlocks_eq bs hbs] at h
    obtain ⟨r, hr, h⟩ := bind_ok h
    cases r with
    | none => cases h
    | some is' =>
      cases h
      obtain ⟨hl, hz⟩ := readImageBlocks_ok nl bs is hr
      refine ⟨hl, fun p hp => ?_⟩
      have hb : p.1 ∈ bs := (List.of_mem_zip hp).1
      have hk : ∀ l ∈ p.1, Kept l := fun l hl => hu l (by
        rw [List.mem_append]; right; rw [List.mem_flatten]; exact ⟨p.1, hb, hl⟩)
      have hd := readImageBlock_items nl p.1 hk p.2 (hz p hp)
      refine ⟨fun q => ?_, hd.names, hd.scales, hd.regions⟩
      have a := hd.item q
      cases hq : q.said nl p.1 with
      | none => rw [hq] at a; exact a.trans (by cases q <;> rfl)
      | some v => rw [hq] at a; exact a

/-- A size given as rows and columns, then corrected by a later line: 20 columns, 30 rows. -/
example (nl : NumLib XR) (h20 : nl.toInt ['2', '0'] = 20) :
    ImgItem.said nl .nColumns [['I', 'M', 'A', 'G', 'E', '_', 'S', 'T', 'A', 'R', 'T'],
      ['N', 'R', 'O', 'W', 'S', ',', 'N', 'C', 'O', 'L', 'S', ' ', '3', '0', ',', '4', '0'], ['N', 'C', 'O', 'L', 'S', ' ', '2', '0']] = some (some (.int 20)) := by
  have e : ImgItem.said nl .nColumns [['I', 'M', 'A', 'G', 'E', '_', 'S', 'T', 'A', 'R', 'T'],
      ['N', 'R', 'O', 'W', 'S', ',', 'N', 'C', 'O', 'L', 'S', ' ', '3', '0', ',', '4', '0'], ['N', 'C', 'O', 'L', 'S', ' ', '2', '0']] =
      some (some (.int (nl.toInt ['2', '0']))) := by rfl
  rw [e, h20]

end Imfit
