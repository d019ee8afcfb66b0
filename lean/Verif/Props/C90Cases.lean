import Verif.Props.C90
import Verif.Props.C45Cases

/-!
# C90: where saved image-information files lose something
-/

namespace Imfit

open Spec

variable {α : Type} [FP α]

/-- The flags of masks and errors, weights, exposure times, sizes and the functions of single images are not in the file; pixel scale and position angle
come back fixed, and no other image-description parameter has limits. -/
theorem C90_lost_false (nl : NumLib α) (pr : NumFmt α) (g : α → Str) (d : Int → Str) (params : List α) (ims : List (ImgInfo α)) :
    ∀ i ∈ survivors nl pr g d params ims, i.maskGood = true ∧ i.errType = 0 ∧ i.weight = 1 ∧ i.expTime = 1 ∧ i.nColumns = 0 ∧ i.nRows = 0 ∧
      i.functions = none ∧ i.intensityScaleLim = ParInfo.zero ∧ i.x0Lim = ParInfo.zero ∧ i.y0Lim = ParInfo.zero ∧
      i.pixelScaleLim.lim0 = false ∧ i.rotationLim.lim0 = false := by
  intro i hi
  cases ims with
  | nil => cases hi
  | cons im ims =>
    rcases List.mem_cons.1 hi with rfl | hi
    · exact ⟨rfl, rfl, rfl, rfl, rfl, rfl, rfl, rfl, rfl, rfl, rfl, rfl⟩
    · obtain ⟨j, hj, rfl⟩ := List.mem_mapIdx.1 hi
      exact ⟨rfl, rfl, rfl, rfl, rfl, rfl, rfl, rfl, rfl, rfl, rfl, rfl⟩

/-- Pixel scale and position angle of the other images are fixed in what is read, also if they were free. -/
theorem C90_fixed_false (nl : NumLib α) (pr : NumFmt α) (g : α → Str) (d : Int → Str) (params : List α) (im : ImgInfo α) (ims : List (ImgInfo α)) :
    ∀ i ∈ (survivors nl pr g d params (im :: ims)).tail, i.pixelScaleLim.fixed = true ∧ i.rotationLim.fixed = true := by
  intro i hi
  obtain ⟨j, hj, rfl⟩ := List.mem_mapIdx.1 hi
  exact ⟨rfl, rfl⟩

/-- The centre that is saved is the one in the image section: the centre shown to the user is larger by the offset of the section. -/
theorem C90_offset_false (nl : NumLib XR) (pr : NumFmt XR) (g : XR → Str) (d : Int → Str) (params : List XR) (im : ImgInfo XR) (ims : List (ImgInfo XR))
    (k : ℕ) (hk : k < ims.length) (hp : 5 * k + 5 ≤ params.length) (x y : ℝ) (hx : params[5 * k + 3]? = some (XR.fin x))
    (hy : params[5 * k + 4]? = some (XR.fin y)) (hpx : nl.d.val (pr.f4 (XR.fin x)) = XR.fin x) (hpy : nl.d.val (pr.f4 (XR.fin y)) = XR.fin y) (ox oy : ℤ) :
    (∃ i, (survivors nl pr g d params (im :: ims))[k + 1]? = some i ∧ i.x0 = XR.fin x ∧ i.y0 = XR.fin y) ∧
    ∃ s, shownDesc params k ox oy = .ok s ∧ s[3]? = some (XR.fin (x + ox)) ∧ s[4]? = some (XR.fin (y + oy)) := by
  have h3 : params.getD (5 * k + 3) 0 = XR.fin x := by rw [List.getD_eq_getElem?_getD, hx]; rfl
  have h4 : params.getD (5 * k + 4) 0 = XR.fin y := by rw [List.getD_eq_getElem?_getD, hy]; rfl
  constructor
  · refine ⟨survives nl pr g d ims[k] (some (descOf params k)), ?_, ?_, ?_⟩
    · simp [survivors, hk]
    · show nl.d.val (pr.f4 (params.getD (5 * k + 3) 0)) = _
      rw [h3, hpx]
    · show nl.d.val (pr.f4 (params.getD (5 * k + 4) 0)) = _
      rw [h4, hpy]
  · unfold shownDesc extractImageParams N_IMAGE_PARAMS
    rw [rd_getD 0 (by omega), rd_getD 0 (by omega), rd_getD 0 (by omega), rd_getD 0 (by omega), rd_getD 0 (by omega)]
    simp only [ok_bind, pure_eq_ok, h3, h4]
    refine ⟨_, rfl, ?_, ?_⟩ <;> simp [XR.lit_def, XR.fin_add]

/-- If the number of combined images is not one, the argument of the conversion is not what was passed. -/
theorem C90_combined_false (pr : NumFmt α) (g : α → Str) (d : Int → Str) (header : List Str) (params : List α) (total : ℕ) (im : ImgInfo α)
    (h : im.nCombined ≠ 1) : saveImageInfo pr g d header params none total [im] = .error .uninit := by
  unfold saveImageInfo allDescParams descErrors imageInfoLoop imageInfoLines combinedLine
  rw [if_pos h]
  rfl

/-- An oversampled PSF without its scale: the vector of scales is read outside its end. -/
theorem C90_scales_false (pr : NumFmt α) (g : α → Str) (d : Int → Str) (header : List Str) (params : List α) (total : ℕ) (im : ImgInfo α)
    (h1 : im.nCombined = 1) (h2 : im.overNames ≠ []) (h3 : im.overScales = []) (h4 : im.overRegions ≠ []) :
    saveImageInfo pr g d header params none total [im] = .error .oob := by
  obtain ⟨a, as, ha⟩ := List.exists_cons_of_ne_nil h2
  obtain ⟨b, bs, hb⟩ := List.exists_cons_of_ne_nil h4
  have ho : overLines d im = .error .oob := by
    unfold overLines
    rw [if_neg h2, hb, List.length_cons, List.range_succ_eq_map, List.mapM_cons, if_pos (by rw [ha]; simp), ha, h3]
    rfl
  unfold saveImageInfo allDescParams descErrors imageInfoLoop imageInfoLines combinedLine
  rw [if_neg (by simp [h1]), ho]
  rfl

/-! ## A case -/

theorem sevens_printing : Printing natLib sevens (fun _ => ['7']) (fun _ => ['7']) := by
  have h7 : NumWord natStrtod ['7'] := ⟨by decide, by decide, by decide +kernel⟩
  refine ⟨sevens_ok, fun _ => h7, fun _ => num_good' h7, fun v => ?_, fun _ => by decide⟩
  cases v <;> refine ⟨?_, ?_, ?_, ?_⟩ <;> simp [sevens]

/-- Two images: one with a sky level, a mask whose zeros are bad, an oversampled PSF; one with image-description parameters. -/
noncomputable def twoImages : List (ImgInfo XR) :=
  [{ ImgInfo.init with
      data := some "a.fits[10:20,5:9]".toList, originalSky := .nan, mask := some "m.fits".toList, maskGood := false
      overNames := ["p.fits".toList], overScales := [3], overRegions := ["1:2,3:4".toList, "5:6,7:8".toList] },
    { ImgInfo.init with data := some "b.fits".toList }]

def ReadImg.names : ReadImg XR → Option (List (Option Str × Option Str × Bool × List Str × List Int × List Str))
  | .good is => some (is.map fun i => (i.data, i.mask, i.maskGood, i.overNames, i.overScales, i.overRegions))
  | _ => none

/-- What is read: the oversampled PSF and its regions are kept, the meaning of the mask is not. -/
example : (ReadImg.good (survivors natLib sevens (fun _ => ['7']) (fun _ => ['7']) [1, .nan, 1, 1, 1, 0, 0] twoImages)).names =
    some [(some "a.fits[10:20,5:9]".toList, some "m.fits".toList, true, ["p.fits".toList], [7], ["1:2,3:4".toList, "5:6,7:8".toList]),
      (some "b.fits".toList, none, true, [], [], [])] ∧
    (ReadImg.good (survivors natLib sevens (fun _ => ['7']) (fun _ => ['7']) [1, .nan, 1, 1, 1, 0, 0] twoImages)).flags =
    some [List.replicate 5 (false, false), [(true, false), (true, false), (false, false), (false, false), (false, false)]] :=
  ⟨rfl, rfl⟩

/-- The assumptions of the theorem hold in this case. -/
example : ∃ file, saveImageInfo sevens (fun _ => ['7']) (fun _ => ['7']) ["# head".toList] [1, .nan, 1, 1, 1, 0, 0] (some [1, 1, 1, 1, 1, 0, 0]) 7 twoImages =
    .ok file ∧ ∀ k0, readImageParams natLib k0 file =
      .ok (.good (survivors natLib sevens (fun _ => ['7']) (fun _ => ['7']) [1, .nan, 1, 1, 1, 0, 0] twoImages)) := by
  refine C90_read_back_partial natLib sevens _ _ sevens_printing _ ?_ _ _ _ _ (by simp [twoImages]) ?_ (by simp [twoImages]) (by simp [twoImages]) ?_
  · intro l hl
    simp only [List.mem_singleton] at hl
    subst hl
    exact ⟨Or.inr ⟨" head".toList, by decide +kernel⟩, by decide⟩
  · have key : ∀ f ∈ ["a.fits[10:20,5:9]".toList, "m.fits".toList, "p.fits".toList, "1:2,3:4".toList, "5:6,7:8".toList, "b.fits".toList], FileName f := by
      unfold FileName Word Unmarked Has
      decide +kernel
    intro im him
    simp only [twoImages, List.mem_cons, List.not_mem_nil, or_false] at him
    rcases him with rfl | rfl
    · refine ⟨rfl, fun f hf => key f ?_, by decide⟩
      simp [ImgInfo.init] at hf ⊢
      tauto
    · refine ⟨rfl, fun f hf => key f ?_, by decide⟩
      simp [ImgInfo.init] at hf ⊢
      tauto
  · intro es hes
    cases hes
    simp

end Imfit
