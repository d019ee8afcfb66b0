import Verif.Props.C45

/-!
# C45: where the claim about image-information files fails
-/

namespace Imfit

open Spec

variable {α : Type} [FP α]

/-- Some of what was read. -/
def ReadImg.flags : ReadImg XR → Option (List (List (Bool × Bool)))
  | .good is => some (is.map fun i => [i.pixelScaleLim, i.rotationLim, i.intensityScaleLim, i.x0Lim, i.y0Lim].map fun r => (r.fixed, r.lim0))
  | _ => none

/-- Number readers for examples. -/
noncomputable def natLib : NumLib XR := ⟨natStrtod, fun s => digitsVal 0 (s.takeWhile Char.isDigit)⟩

theorem natLib_val (s : Str) (n : ℕ) (h1 : cstr s ≠ ['n', 'a', 'n']) (h : digitsVal 0 ((cstr s).takeWhile Char.isDigit) = n) :
    natLib.d.val s = .fin (n : ℝ) := by
  unfold natLib Strtod.val natStrtod
  simp only [if_neg h1, h]

/-- A file with everything: the first image, then one with pixel scale fixed by default, rotation with limits, flux scale fixed and position limited. -/
def goodImages : Str := ("IMAGE_START\nDATA a.fits\n\n# second\nIMAGE_START\nDATA b.fits\nPIXEL_SCALE 2\nIMAGE_PA 5 nan,nan\nFLUX_SCALE 3 fixed\n" ++
  "X0 4 1,9\nY0 4").toList

example : (do let r ← readImageParams natLib 0 goodImages; .ok r.flags) = (.ok (some [[(false, false), (false, false), (false, false), (false, false),
    (false, false)], [(true, false), (false, true), (true, false), (false, true), (false, false)]]) : Res _) := by decide +kernel

/-- Left out, pixel scale and rotation are free in the fit. -/
theorem C45_omitted_false : (do let r ← readImageParams natLib 0 "IMAGE_START\nDATA a\nIMAGE_START\nDATA b".toList; .ok r.flags) =
    (.ok (some (List.replicate 2 (List.replicate 5 (false, false)))) : Res _) := by decide +kernel

/-- Limits in the wrong order, not containing the value, are accepted for the position (and likewise for the flux scale). -/
theorem C45_bad_limits_false : ∃ is : List (ImgInfo XR), readImageParams natLib 0 "IMAGE_START\nX0 50 30,20\nFLUX_SCALE 50 30,20".toList = .ok (.good is) ∧
    ∀ i ∈ is, i.x0 = .fin 50 ∧ i.x0Lim = ⟨false, true, true, .fin 30, .fin 20⟩ ∧ i.intensityScaleLim = ⟨false, true, true, .fin 30, .fin 20⟩ := by
  have hu : usable "IMAGE_START\nX0 50 30,20\nFLUX_SCALE 50 30,20".toList = [] ++ [["IMAGE_START".toList, "X0 50 30,20".toList,
      "FLUX_SCALE 50 30,20".toList]].flatten := by decide +kernel
  have hok : (do let r ← readImageParams natLib 0 "IMAGE_START\nX0 50 30,20\nFLUX_SCALE 50 30,20".toList; .ok r.flags) =
      (.ok (some [[(false, false), (false, false), (false, true), (false, true), (false, false)]]) : Res _) := by decide +kernel
  have hbs : IsBlocks [["IMAGE_START".toList, "X0 50 30,20".toList, "FLUX_SCALE 50 30,20".toList]] := by
    intro b hb
    rw [List.mem_singleton] at hb
    subst hb
    refine ⟨_, _, rfl, by decide +kernel, by decide +kernel⟩
  cases hr : readImageParams natLib 0 "IMAGE_START\nX0 50 30,20\nFLUX_SCALE 50 30,20".toList with
  | error e => rw [hr] at hok; cases hok
  | ok r =>
    rw [hr] at hok
    cases r with
    | badLines e => cases hok
    | badFunctions => cases hok
    | good is =>
      refine ⟨is, rfl, ?_⟩
      obtain ⟨hl, hd⟩ := C45_described natLib 0 _ [] _ (by simp) hbs hu is hr
      clear hr hok hu hbs
      obtain ⟨i, rfl⟩ := List.length_eq_one_iff.1 hl
      intro i' hi'
      rw [List.mem_singleton] at hi'
      subst hi'
      have hx := hd _ (List.mem_singleton_self _) .x0
      have hf := hd _ (List.mem_singleton_self _) .intensityScale
      have n50 : natLib.d.val ['5', '0'] = .fin 50 := by
        rw [natLib_val _ 50 (by decide +kernel) (by decide +kernel)]; norm_num
      have n30 : natLib.d.val ['3', '0'] = .fin 30 := by
        rw [natLib_val _ 30 (by decide +kernel) (by decide +kernel)]; norm_num
      have n20 : natLib.d.val ['2', '0'] = .fin 20 := by
        rw [natLib_val _ 20 (by decide +kernel) (by decide +kernel)]; norm_num
      unfold DescribedBy at hx hf
      have e1 : lineFor (ImgPar.word .x0) ["IMAGE_START".toList, "X0 50 30,20".toList, "FLUX_SCALE 50 30,20".toList] = some "X0 50 30,20".toList := by
        decide +kernel
      have e2 : lineFor (ImgPar.word .intensityScale) ["IMAGE_START".toList, "X0 50 30,20".toList, "FLUX_SCALE 50 30,20".toList] =
          some "FLUX_SCALE 50 30,20".toList := by decide +kernel
      have w1 : words "X0 50 30,20".toList = [['X', '0'], ['5', '0'], ['3', '0', ',', '2', '0']] := by decide +kernel
      have w2 : words "FLUX_SCALE 50 30,20".toList = ["FLUX_SCALE".toList, ['5', '0'], ['3', '0', ',', '2', '0']] := by decide +kernel
      have tk : tokens (· == ',') ['3', '0', ',', '2', '0'] = [['3', '0'], ['2', '0']] := by decide +kernel
      rw [e1] at hx
      rw [e2] at hf
      simp only [given, w1, w2, tk, List.getElem?_cons_succ, List.getElem?_cons_zero, ImgPar.strict, ImgPar.val, ImgPar.lim, Option.some.injEq,
        n30, n20] at hx hf
      obtain ⟨⟨t, rfl, hx1⟩, hx2⟩ := hx
      refine ⟨hx1.trans n50, ?_, ?_⟩
      · simpa using hx2
      · simpa using hf.2

/-- A comment containing a comma is read as limits. -/
theorem C45_comment_false :
    (do let r ← readImageParams natLib 0 "IMAGE_START\nX0 40 #left,right".toList; .ok r.flags) =
      (.ok (some [[(false, false), (false, false), (false, false), (false, true), (false, false)]]) : Res _) ∧
    (do let r ← readImageParams natLib 0 "IMAGE_START\nX0 40".toList; .ok r.flags) =
      (.ok (some [List.replicate 5 (false, false)]) : Res _) := by
  constructor <;> decide +kernel

/-- Commas that make the reader go outside a vector. -/
theorem C45_overrun_false : ∀ f ∈ ["IMAGE_START\nX0 5 1,", "IMAGE_START\nFLUX_SCALE 1 ,2", "IMAGE_START\nNCOLS,NROWS 100"],
    (do let r ← readImageParams natLib 0 f.toList; .ok r.flags) = (.error .oob : Res _) := by decide +kernel

/-- Number readers that also know "inf". -/
noncomputable def infLib : NumLib XR := ⟨⟨fun s => if s = ['i', 'n', 'f'] then (.pinf, 3) else natStrtod.run s⟩, natLib.toInt⟩

/-- Numbers of values and limit records of the functions of each image. -/
def ReadImg.functionCounts : ReadImg XR → Option (List (Option (ℕ × ℕ)))
  | .good is => some (is.map fun i => i.functions.map fun s => (s.vals.length, s.lims.length))
  | _ => none

/-- The functions of a single image may get fewer limit records than parameters: a record that makes no sense is left out, so that the later ones belong
to the wrong parameters. -/
theorem C45_functions_false :
    (do let r ← readImageParams infLib 0 "IMAGE_START\nDATA a\nFUNCTIONS_START\nX0 1 inf,inf\nY0 2 fixed\nFUNCTION F\nPA 10".toList
        .ok r.functionCounts) = (.ok (some [some (3, 2)]) : Res _) ∧
    (do let r ← readImageParams infLib 0 "IMAGE_START\nDATA a\nFUNCTIONS_START\nX0 1\nY0 2 fixed\nFUNCTION F\nPA 10".toList
        .ok r.functionCounts) = (.ok (some [some (3, 3)]) : Res _) := by
  constructor <;> decide +kernel

/-- The errors reported. -/
def ReadImg.errs : ReadImg XR → List (Int × Int)
  | .badLines e => e
  | _ => []

/-- A flag on a line of its own is refused. -/
theorem C45_flag_false : ∀ f ∈ ["MASK_ZERO_IS_BAD", "ERRORS_ARE_VARIANCES", "ERRORS_ARE_WEIGHTS", "MASK_ZERO_IS_GOOD", "ERRORS_ARE_SIGMAS"],
    (do let r ← readImageParams natLib 0 ("IMAGE_START\nDATA a\n" ++ f).toList; .ok r.errs) = (.ok [(-4, 0)] : Res _) := by
  decide +kernel

/-- The line number reported for a bad line does not depend on where it is: it is whatever was in the variable. -/
theorem C45_line_number_false (nl : NumLib α) (k0 : Int) (file : Str) (errs : List (Int × Int))
    (h : readImageParams nl k0 file = .ok (.badLines errs)) : ∀ e ∈ errs, e.1 = -4 → e.2 = k0 := by
  unfold readImageParams at h
  rw [keepLines_usable, ok_bind] at h
  unfold vetInputLines at h
  have key : ∀ es : List (Int × Int), (if es ≠ [] then (.ok (.badLines es) : Res (ReadImg α)) else do
      let r ← readImageBlocks nl (imageBlocks (usable file) (imageStarts 0 (usable file)))
      .ok (.ofOption r)) = .ok (.badLines errs) → errs = es := by
    intro es h
    by_cases he : es ≠ []
    · rw [if_pos he] at h; cases h; rfl
    · rw [if_neg he] at h
      cases hb : readImageBlocks nl (imageBlocks (usable file) (imageStarts 0 (usable file))) with
      | error e => rw [hb] at h; cases h
      | ok x => rw [hb, ok_bind] at h; cases x <;> cases h
  by_cases hn : usable file = []
  · rw [if_pos hn, ok_bind] at h
    rw [key _ h]
    simp
  · rw [if_neg hn] at h
    obtain ⟨r, hr, h1, -⟩ := vetImageLoop_eq nl k0 (usable file) (usable_kept file)
    rw [hr, ok_bind] at h
    by_cases hs : (usable file).any (hasSub iImageStart) = true
    · rw [if_pos hs, ok_bind] at h
      rw [key _ h]
      intro e he _
      rw [h1 e he]
    · rw [if_neg hs, ok_bind] at h
      rw [key _ h]
      intro e he h4
      rcases List.mem_append.1 he with he | he
      · rw [h1 e he]
      · simp only [List.mem_singleton] at he
        subst he
        simp at h4

end Imfit
