import Verif.Lemmas.ImageRows
import Verif.Lemmas.Stats

/-!
# C90 — saved image-information files can be read back
-/

namespace Imfit

open Spec

variable {α : Type} [FP α]

/-! ## The rows of a saved file -/

def nameRow (k : RKey) : Option Str → List IRow
  | none => []
  | some f => [⟨k, "    ".toList, f, none⟩]

def numRow (g : α → Str) (k : RKey) (v dflt : α) : List IRow := if fne v dflt then [⟨k, ['\t', '\t'], g v, none⟩] else []

def overRow (d : Int → Str) (im : ImgInfo α) (i : Nat) : List IRow :=
  (if i < im.overNames.length then [⟨.overPsf, "         ".toList, im.overNames.getD i [], none⟩,
    ⟨.overScale, "        ".toList, d (im.overScales.getD i 0), none⟩] else []) ++ [⟨.overRegion, "      ".toList, im.overRegions.getD i [], none⟩]

def overRows (d : Int → Str) (im : ImgInfo α) : List IRow :=
  if im.overNames = [] then [] else (List.range im.overRegions.length).flatMap (overRow d im)

def padded (pr : NumFmt α) (k : RKey) (v : α) (e : Option α) : IRow := ⟨k, '\t' :: '\t' :: (pr.g7 v).takeWhile (· == ' '), bare pr v, e.map pr.g5⟩

def descRows (pr : NumFmt α) (v : Spec.ImgPar → α) (e : Option (Spec.ImgPar → α)) : List IRow :=
  [padded pr .pixelScale (v .pixelScale) (e.map (· .pixelScale)), padded pr .imagePA (v .rotation) (e.map (· .rotation)),
    padded pr .fluxScale (v .intensityScale) (e.map (· .intensityScale)), ⟨.x0, ['\t', '\t'], pr.f4 (v .x0), e.map fun e => pr.f4 (e .x0)⟩,
    ⟨.y0, ['\t', '\t'], pr.f4 (v .y0), e.map fun e => pr.f4 (e .y0)⟩]

def partRows (pr : NumFmt α) : Option ((Spec.ImgPar → α) × Option (Spec.ImgPar → α)) → List IRow
  | none => []
  | some (v, e) => descRows pr v e

/-- `p`: values and errors of the image-description parameters. -/
def imageRows (pr : NumFmt α) (g : α → Str) (d : Int → Str) (im : ImgInfo α) (p : Option ((Spec.ImgPar → α) × Option (Spec.ImgPar → α))) : List IRow :=
  nameRow .data im.data ++ numRow g .sky im.originalSky 0 ++ numRow g .gain im.gain 1 ++ numRow g .readNoise im.readNoise 0 ++
    nameRow .mask im.mask ++ nameRow .err im.err ++ nameRow .psf im.psf ++ overRows d im ++ partRows pr p

/-! ## What they say -/

abbrev putAll (nl : NumLib α) (i : ImgInfo α) (rs : List IRow) : ImgInfo α := rs.foldl (fun i r => r.key.put nl r.val i) i

theorem putAll_append (nl : NumLib α) (i : ImgInfo α) (a b : List IRow) : putAll nl i (a ++ b) = putAll nl (putAll nl i a) b := List.foldl_append

theorem fold_over (nl : NumLib α) (d : Int → Str) (im i : ImgInfo α) (m : ℕ) (h1 : m ≤ im.overRegions.length)
    (h2 : min im.overNames.length m ≤ im.overScales.length) :
    putAll nl i ((List.range m).flatMap (overRow d im)) = { i with
      overNames := i.overNames ++ im.overNames.take m
      overScales := i.overScales ++ (im.overScales.take (min im.overNames.length m)).map fun s => nl.toInt (d s)
      overRegions := i.overRegions ++ im.overRegions.take m } := by
  induction m with
  | zero => simp [putAll]
  | succ m ih =>
    rw [List.range_succ, List.flatMap_append, putAll_append, ih (by omega) (by omega)]
    have hr : im.overRegions.take (m + 1) = im.overRegions.take m ++ [im.overRegions.getD m []] := by
      rw [List.take_succ_eq_append_getElem (by omega)]
      simp [List.getD_eq_getElem?_getD, show m < im.overRegions.length by omega]
    simp only [List.flatMap_cons, List.flatMap_nil, List.append_nil, overRow]
    by_cases hm : m < im.overNames.length
    · have hs : m < im.overScales.length := by omega
      have hn : im.overNames.take (m + 1) = im.overNames.take m ++ [im.overNames.getD m []] := by
        rw [List.take_succ_eq_append_getElem hm]
        simp [List.getD_eq_getElem?_getD, hm]
      have hsc : im.overScales.take (min im.overNames.length (m + 1)) = im.overScales.take (min im.overNames.length m) ++ [im.overScales.getD m 0] := by
        rw [show min im.overNames.length (m + 1) = m + 1 by omega, show min im.overNames.length m = m by omega, List.take_succ_eq_append_getElem hs]
        simp [List.getD_eq_getElem?_getD, hs]
      rw [if_pos hm, hr, hn, hsc]
      simp only [putAll, List.cons_append, List.nil_append, List.foldl_cons, List.foldl_nil, RKey.put, List.map_append, List.map_cons, List.map_nil,
        List.append_assoc]
    · have hn : im.overNames.take (m + 1) = im.overNames.take m := by rw [List.take_of_length_le (by omega), List.take_of_length_le (by omega)]
      rw [if_neg hm, hr, hn, show min im.overNames.length (m + 1) = min im.overNames.length m by omega]
      simp only [putAll, List.nil_append, List.foldl_cons, List.foldl_nil, RKey.put, List.append_assoc]

theorem rows_say (nl : NumLib α) (pr : NumFmt α) (g : α → Str) (d : Int → Str) (im : ImgInfo α) (p : Option ((Spec.ImgPar → α) × Option (Spec.ImgPar → α)))
    (h2 : min im.overNames.length im.overRegions.length ≤ im.overScales.length) :
    putAll nl ImgInfo.init (imageRows pr g d im p) = survives nl pr g d im (p.map (·.1)) := by
  unfold imageRows
  simp only [putAll_append]
  have n1 : ∀ i : ImgInfo α, i.data = none → putAll nl i (nameRow .data im.data) = { i with data := im.data } := by
    intro i h; cases hd : im.data with
    | none => cases i; simp only at h; subst h; rfl
    | some f => rfl
  have n2 : ∀ i : ImgInfo α, i.mask = none → putAll nl i (nameRow .mask im.mask) = { i with mask := im.mask } := by
    intro i h; cases hd : im.mask with
    | none => cases i; simp only at h; subst h; rfl
    | some f => rfl
  have n3 : ∀ i : ImgInfo α, i.err = none → putAll nl i (nameRow .err im.err) = { i with err := im.err } := by
    intro i h; cases hd : im.err with
    | none => cases i; simp only at h; subst h; rfl
    | some f => rfl
  have n4 : ∀ i : ImgInfo α, i.psf = none → putAll nl i (nameRow .psf im.psf) = { i with psf := im.psf } := by
    intro i h; cases hd : im.psf with
    | none => cases i; simp only at h; subst h; rfl
    | some f => rfl
  have hq : ∀ v z : α, fne v z = !(FP.fle v z && FP.fle z v) := fun v z => rfl
  have m1 : ∀ i : ImgInfo α, i.originalSky = 0 → putAll nl i (numRow g .sky im.originalSky 0) = { i with originalSky := orDefault nl.d.val g 0 im.originalSky } := by
    intro i h
    unfold numRow orDefault
    rw [hq]
    cases hd : (FP.fle im.originalSky 0 && FP.fle 0 im.originalSky) with
    | true => cases i; simp only at h; subst h; rfl
    | false => rfl
  have m2 : ∀ i : ImgInfo α, i.gain = 1 → putAll nl i (numRow g .gain im.gain 1) = { i with gain := orDefault nl.d.val g 1 im.gain } := by
    intro i h
    unfold numRow orDefault
    rw [hq]
    cases hd : (FP.fle im.gain 1 && FP.fle 1 im.gain) with
    | true => cases i; simp only at h; subst h; rfl
    | false => rfl
  have m3 : ∀ i : ImgInfo α, i.readNoise = 0 → putAll nl i (numRow g .readNoise im.readNoise 0) = { i with readNoise := orDefault nl.d.val g 0 im.readNoise } := by
    intro i h
    unfold numRow orDefault
    rw [hq]
    cases hd : (FP.fle im.readNoise 0 && FP.fle 0 im.readNoise) with
    | true => cases i; simp only at h; subst h; rfl
    | false => rfl
  have o1 : ∀ i : ImgInfo α, i.overNames = [] → i.overScales = [] → i.overRegions = [] → putAll nl i (overRows d im) = { i with
      overNames := im.overNames.take im.overRegions.length
      overScales := (im.overScales.take (im.overNames.take im.overRegions.length).length).map fun s => nl.toInt (d s)
      overRegions := if im.overNames = [] then [] else im.overRegions } := by
    intro i ha hb hc
    unfold overRows
    by_cases hn : im.overNames = []
    · rw [if_pos hn, if_pos hn, hn]
      cases i; simp only at ha hb hc; subst ha hb hc; simp [putAll]
    · rw [if_neg hn, if_neg hn, fold_over nl d im i _ le_rfl h2, ha, hb, hc]
      simp [Nat.min_comm]
  rw [n1 _ rfl, m1 _ rfl, m2 _ rfl, m3 _ rfl, n2 _ rfl, n3 _ rfl, n4 _ rfl, o1 _ rfl rfl rfl]
  cases p with
  | none => rfl
  | some p => rfl

/-! ## The lines that are written -/

omit [FP α] in
theorem descLine_ok (pr : NumFmt α) (k : RKey) (desc : List α) (errs : Option (List α)) (j : ℕ) (v : α) (e : Option α) (hv : rd desc j = .ok v)
    (he : ∀ es, errs = some es → ∃ x, rd es j = .ok x ∧ e = some x) (hn : errs = none → e = none) :
    ∃ l, descLine pr k.word desc errs (j : ℤ) = .ok l ∧ l.flatten = (padded pr k v e).text ++ ['\n'] := by
  unfold descLine
  rw [rdI_nat _ _ (by omega), Int.toNat_natCast, hv, ok_bind]
  have hg : ∀ v, pr.g7 v = (pr.g7 v).takeWhile (· == ' ') ++ bare pr v := fun v => (List.takeWhile_append_dropWhile).symm
  cases errs with
  | none =>
    rw [hn rfl]
    refine ⟨_, rfl, ?_⟩
    simp only [parText, padded, IRow.text, errTail, Option.map_none, tailText, List.flatten_cons, List.flatten_nil]
    conv_lhs => rw [hg v]
    simp
  | some es =>
    obtain ⟨x, hx, rfl⟩ := he es rfl
    simp only
    rw [rdI_nat _ _ (by omega), Int.toNat_natCast, hx, ok_bind, ok_bind]
    refine ⟨_, rfl, ?_⟩
    simp only [parText, padded, IRow.text, errTail, Option.map_some, tailText, List.flatten_cons, List.flatten_nil]
    conv_lhs => rw [hg v]
    simp

omit [FP α] in
theorem descXYLine_ok (pr : NumFmt α) (k : RKey) (desc : List α) (errs : Option (List α)) (j : ℕ) (v : α) (e : Option α) (hv : rd desc j = .ok v)
    (he : ∀ es, errs = some es → ∃ x, rd es j = .ok x ∧ e = some x) (hn : errs = none → e = none) :
    ∃ l, descXYLine pr k.word desc errs (j : ℤ) = .ok l ∧ l.flatten = (⟨k, ['\t', '\t'], pr.f4 v, e.map pr.f4⟩ : IRow).text ++ ['\n'] := by
  unfold descXYLine
  rw [rdI_nat _ _ (by omega), Int.toNat_natCast, hv, ok_bind]
  cases errs with
  | none =>
    rw [hn rfl]
    refine ⟨_, rfl, ?_⟩
    simp [xyText, IRow.text, errTail, tailText]
  | some es =>
    obtain ⟨x, hx, rfl⟩ := he es rfl
    simp only
    rw [rdI_nat _ _ (by omega), Int.toNat_natCast, hx, ok_bind, ok_bind]
    refine ⟨_, rfl, ?_⟩
    simp [xyText, IRow.text, errTail, tailText]

theorem descInfo_ok (pr : NumFmt α) (desc : List α) (errs : Option (List α)) (k : ℕ) (h : 5 * k + 5 ≤ desc.length)
    (he : ∀ es, errs = some es → 5 * k + 5 ≤ es.length) :
    ∃ ls, descInfoLines pr desc errs ((k : ℤ) * 5) = .ok ls ∧
      ls.map List.flatten = (descRows pr (descOf desc k) (errs.map fun es => descOf es k)).map fun r => r.text ++ ['\n'] := by
  have hv : ∀ j, j < 5 → rd desc (5 * k + j) = .ok (desc.getD (5 * k + j) 0) := fun j hj => rd_getD 0 (by omega)
  have hev : ∀ (q : Spec.ImgPar) (j : ℕ), j < 5 → (∀ l : List α, descOf l k q = l.getD (5 * k + j) 0) → ∀ es, errs = some es →
      ∃ x, rd es (5 * k + j) = .ok x ∧ (errs.map fun es => descOf es k q) = some x := by
    rintro q j hj hq es rfl
    exact ⟨_, rd_getD 0 (by have := he es rfl; omega), by simp [hq]⟩
  have hnone : ∀ q : Spec.ImgPar, errs = none → (errs.map fun es => descOf es k q) = none := by rintro q rfl; rfl
  obtain ⟨a, ha, hfa⟩ := descLine_ok pr .pixelScale desc errs (5 * k + 0) _ _ (hv 0 (by omega)) (hev .pixelScale 0 (by omega) fun l => rfl) (hnone _)
  obtain ⟨b, hb, hfb⟩ := descLine_ok pr .imagePA desc errs (5 * k + 1) _ _ (hv 1 (by omega)) (hev .rotation 1 (by omega) fun l => rfl) (hnone _)
  obtain ⟨c, hc, hfc⟩ := descLine_ok pr .fluxScale desc errs (5 * k + 2) _ _ (hv 2 (by omega)) (hev .intensityScale 2 (by omega) fun l => rfl) (hnone _)
  obtain ⟨x, hx, hfx⟩ := descXYLine_ok pr .x0 desc errs (5 * k + 3) _ _ (hv 3 (by omega)) (hev .x0 3 (by omega) fun l => rfl) (hnone _)
  obtain ⟨y, hy, hfy⟩ := descXYLine_ok pr .y0 desc errs (5 * k + 4) _ _ (hv 4 (by omega)) (hev .y0 4 (by omega) fun l => rfl) (hnone _)
  unfold descInfoLines
  simp only [RKey.word] at ha hb hc hx hy
  rw [show (0 : ℤ) + (k : ℤ) * 5 = ((5 * k + 0 : ℕ) : ℤ) by push_cast; ring, show (1 : ℤ) + (k : ℤ) * 5 = ((5 * k + 1 : ℕ) : ℤ) by push_cast; ring,
    show (2 : ℤ) + (k : ℤ) * 5 = ((5 * k + 2 : ℕ) : ℤ) by push_cast; ring, show (3 : ℤ) + (k : ℤ) * 5 = ((5 * k + 3 : ℕ) : ℤ) by push_cast; ring,
    show (4 : ℤ) + (k : ℤ) * 5 = ((5 * k + 4 : ℕ) : ℤ) by push_cast; ring, ha, hb, hc, hx, hy]
  refine ⟨_, rfl, ?_⟩
  simp only [List.map_cons, List.map_nil, hfa, hfb, hfc, hfx, hfy, descRows, Option.map_map]
  rfl

omit [FP α] in
theorem over_ok (d : Int → Str) (im : ImgInfo α) (h : min im.overNames.length im.overRegions.length ≤ im.overScales.length) :
    ∃ ls, overLines d im = .ok ls ∧ ls.map List.flatten = (overRows d im).map fun r => r.text ++ ['\n'] := by
  unfold overLines overRows
  by_cases hn : im.overNames = []
  · rw [if_pos hn, if_pos hn]; exact ⟨[], rfl, rfl⟩
  rw [if_neg hn, if_neg hn]
  have step : ∀ i ∈ List.range im.overRegions.length, (do
      let a ← if i < im.overNames.length then do
          let f ← rd im.overNames i
          let s ← rd im.overScales i
          .ok [[iOverPsf ++ "         ".toList ++ f ++ ['\n']], [iOverScale ++ "        ".toList ++ d s ++ ['\n']]]
        else .ok []
      let r ← rd im.overRegions i
      .ok (a ++ [[iOverRegion ++ "      ".toList ++ r ++ ['\n']]]) : Res (List Line)) = .ok ((overRow d im i).map fun r => [r.text ++ ['\n']]) := by
    intro i hi
    have hi := List.mem_range.1 hi
    have hr : rd im.overRegions i = .ok (im.overRegions.getD i []) := rd_getD [] hi
    unfold overRow
    by_cases hm : i < im.overNames.length
    · rw [if_pos hm, if_pos hm, rd_getD [] hm, rd_getD 0 (by omega), hr]
      simp only [ok_bind]
      congr 1
      simp [IRow.text, RKey.word, errTail, tailText]
    · rw [if_neg hm, if_neg hm, hr]
      simp only [ok_bind]
      congr 1
      simp [IRow.text, RKey.word, errTail, tailText]
  rw [mapM_ok _ _ _ step, ok_bind]
  refine ⟨_, rfl, ?_⟩
  simp [List.flatMap_def, List.map_flatten, Function.comp_def]

/-- Values and errors of image number `i`. -/
def partOf (desc : List α) (errs : Option (List α)) : ℕ → Option ((Spec.ImgPar → α) × Option (Spec.ImgPar → α))
  | 0 => none
  | k + 1 => some (descOf desc k, errs.map fun es => descOf es k)

theorem info_ok (pr : NumFmt α) (g : α → Str) (d : Int → Str) (im : ImgInfo α) (desc : List α) (errs : Option (List α)) (i : ℕ)
    (hc : im.nCombined = 1) (h : min im.overNames.length im.overRegions.length ≤ im.overScales.length) (hd : 5 * i ≤ desc.length)
    (he : ∀ es, errs = some es → 5 * i ≤ es.length) :
    ∃ ls, imageInfoLines pr g d im (i == 0) desc errs (((i : ℤ) - 1) * 5) = .ok ls ∧
      ls.map List.flatten = (imageStart :: ((imageRows pr g d im (partOf desc errs i)).map IRow.text ++ [[]])).map (· ++ ['\n']) := by
  obtain ⟨o, ho, hfo⟩ := over_ok d im h
  have hp : ∃ p, descPart pr (i == 0) desc errs (((i : ℤ) - 1) * 5) = .ok p ∧
      p.map List.flatten = (partRows pr (partOf desc errs i)).map fun r => r.text ++ ['\n'] := by
    cases i with
    | zero => exact ⟨[], rfl, rfl⟩
    | succ k =>
      obtain ⟨p, hp, hfp⟩ := descInfo_ok pr desc errs k (by omega) fun es h => by have := he es h; omega
      refine ⟨p, ?_, hfp⟩
      unfold descPart
      rw [if_neg (by simp), show ((k + 1 : ℕ) : ℤ) - 1 = (k : ℤ) by omega]
      exact hp
  obtain ⟨p, hp, hfp⟩ := hp
  have hN : ∀ k o, (nameLine k.word o).map List.flatten = (nameRow k o).map fun r => r.text ++ ['\n'] := by
    intro k o
    cases o with
    | none => rfl
    | some f => simp [nameLine, nameRow, IRow.text, errTail, tailText]
  have hQ : ∀ (k : RKey) (v z : α), (numLine g k.word v z).map List.flatten = (numRow g k v z).map fun r => r.text ++ ['\n'] := by
    intro k v z
    unfold numLine numRow
    by_cases hq : fne v z = true
    · rw [if_pos hq, if_pos hq]
      simp [IRow.text, errTail, tailText]
    · rw [if_neg hq, if_neg hq]; rfl
  unfold imageInfoLines combinedLine
  rw [if_neg (by simp [hc]), ok_bind, ho, ok_bind, hp, ok_bind]
  refine ⟨_, rfl, ?_⟩
  have h1 := hN .data im.data
  have h2 := hN .mask im.mask
  have h3 := hN .err im.err
  have h4 := hN .psf im.psf
  have h5 := hQ .sky im.originalSky 0
  have h6 := hQ .gain im.gain 1
  have h7 := hQ .readNoise im.readNoise 0
  simp only [RKey.word] at h1 h2 h3 h4 h5 h6 h7
  simp only [List.map_append, h1, h2, h3, h4, h5, h6, h7, hfo, hfp, imageRows, List.map_cons, List.map_nil, List.map_map, List.append_nil,
    List.flatten_cons, List.flatten_nil, List.nil_append, List.cons_append, List.append_assoc]
  rfl

/-! ## The file -/

/-- A file name (or section) without blanks, comment sign or markers of blocks, and of reasonable length. -/
def FileName (f : Str) : Prop := Word f ∧ Unmarked f ∧ f.length ≤ 900

/-- What is assumed of the printing of numbers. -/
structure Printing (nl : NumLib α) (pr : NumFmt α) (g : α → Str) (d : Int → Str) : Prop where
  ok : pr.OK nl.d
  gnum : ∀ v, NumWord nl.d (g v)
  dnum : ∀ k, Word (d k) ∧ Unmarked (d k)
  short : ∀ v, (pr.f4 v).length ≤ 400 ∧ (pr.g7 v).length ≤ 400 ∧ (pr.g5 v).length ≤ 400 ∧ (g v).length ≤ 400
  dshort : ∀ k, (d k).length ≤ 400

/-- An image that can be written. -/
structure Writable (im : ImgInfo α) : Prop where
  one : im.nCombined = 1
  names : ∀ f ∈ im.data.toList ++ im.mask.toList ++ im.err.toList ++ im.psf.toList ++ im.overNames ++ im.overRegions, FileName f
  scales : min im.overNames.length im.overRegions.length ≤ im.overScales.length

/-- A row in order and not too long. -/
def Good (nl : Strtod α) (r : IRow) : Prop := r.OK nl ∧ r.text.length ≤ 1000

omit [FP α] in
theorem key_length (k : RKey) : k.word.length ≤ 18 := by cases k <;> decide

omit [FP α] in
theorem name_good {nl : Strtod α} (k : RKey) (sep f : Str) (hs : sep ≠ []) (hb : ∀ x ∈ sep, x = ' ') (hl : sep.length ≤ 9) (hf : FileName f) :
    Good nl ⟨k, sep, f, none⟩ := by
  refine ⟨⟨hs, fun x hx => by rw [hb x hx]; decide, hf.1, hf.2.1, by simp⟩, ?_⟩
  have := key_length k
  have := hf.2.2
  simp only [IRow.text, errTail, Option.map_none, tailText, List.length_append, List.length_nil]
  omega

omit [FP α] in
theorem num_good {nl : Strtod α} (k : RKey) (sep v : Str) (e : Option Str) (hs : sep ≠ []) (hb : ∀ x ∈ sep, x = ' ' ∨ x = '\t') (hl : sep.length + v.length ≤ 420)
    (hv : Word v ∧ Unmarked v) (he : ∀ t, e = some t → NumWord nl t ∧ t.length ≤ 400) : Good nl ⟨k, sep, v, e⟩ := by
  refine ⟨⟨hs, fun x hx => by rcases hb x hx with rfl | rfl <;> decide, hv.1, hv.2, fun t ht => (he t ht).1⟩, ?_⟩
  have := key_length k
  cases e with
  | none =>
    simp only [IRow.text, errTail, Option.map_none, tailText, List.length_append, List.length_nil]
    omega
  | some t =>
    have := (he t rfl).2
    simp only [IRow.text, errTail, Option.map_some, tailText, List.length_append, List.length_cons, List.length_nil]
    omega

omit [FP α] in
theorem num_good' {nl : Strtod α} {v : Str} (h : NumWord nl v) : Word v ∧ Unmarked v := ⟨h.word, num_unmarked h⟩

omit [FP α] in
theorem padded_good {nl : NumLib α} {pr : NumFmt α} {g : α → Str} {d : Int → Str} (hp : Printing nl pr g d) (k : RKey) (v : α) (e : Option α) :
    Good nl.d (padded pr k v e) := by
  obtain ⟨h1, h2⟩ := takeWhile_g7 hp.ok v
  refine num_good k _ _ _ (by simp) ?_ ?_ (num_good' h2) ?_
  · intro x hx
    rcases List.mem_cons.1 hx with rfl | hx
    · exact Or.inr rfl
    rcases List.mem_cons.1 hx with rfl | hx
    · exact Or.inr rfl
    · exact Or.inl (h1 x hx)
  · have e : ((pr.g7 v).takeWhile (· == ' ')).length + (bare pr v).length = (pr.g7 v).length := by
      unfold bare
      rw [← List.length_append, List.takeWhile_append_dropWhile]
    have := (hp.short v).2.1
    simp only [List.length_cons]
    omega
  · intro t ht
    cases e with
    | none => cases ht
    | some e =>
      cases ht
      exact ⟨hp.ok.g5 e, (hp.short e).2.2.1⟩

theorem rows_good {nl : NumLib α} {pr : NumFmt α} {g : α → Str} {d : Int → Str} (hp : Printing nl pr g d) (im : ImgInfo α) (hw : Writable im)
    (p : Option ((Spec.ImgPar → α) × Option (Spec.ImgPar → α))) : ∀ r ∈ imageRows pr g d im p, Good nl.d r := by
  have hN : ∀ k o, (∀ f ∈ (o : Option Str).toList, FileName f) → ∀ r ∈ nameRow k o, Good nl.d r := by
    intro k o ho r hr
    cases o with
    | none => cases hr
    | some f =>
      simp only [nameRow, List.mem_singleton] at hr
      subst hr
      exact name_good k _ f (by decide) (by decide) (by decide) (ho f (by simp))
  have hQ : ∀ (k : RKey) (v z : α), ∀ r ∈ numRow g k v z, Good nl.d r := by
    intro k v z r hr
    unfold numRow at hr
    split at hr
    · simp only [List.mem_singleton] at hr
      subst hr
      exact num_good k _ _ _ (by simp) (by simp) (by have := (hp.short v).2.2.2; simp; omega) (num_good' (hp.gnum v)) (by simp)
    · cases hr
  have hO : ∀ r ∈ overRows d im, Good nl.d r := by
    intro r hr
    unfold overRows at hr
    split at hr
    · cases hr
    obtain ⟨i, hi, hr⟩ := List.mem_flatMap.1 hr
    have hi := List.mem_range.1 hi
    unfold overRow at hr
    rcases List.mem_append.1 hr with hr | hr
    · split at hr
      · rename_i hm
        simp only [List.mem_cons, List.not_mem_nil, or_false] at hr
        rcases hr with rfl | rfl
        · refine name_good _ _ _ (by decide) (by decide) (by decide) (hw.names _ ?_)
          have : im.overNames.getD i [] ∈ im.overNames := by simp [List.getD_eq_getElem?_getD, hm]
          simp only [List.mem_append]; tauto
        · exact num_good _ _ _ _ (by decide) (by decide) (by have := hp.dshort (im.overScales.getD i 0); exact Nat.le_trans (Nat.add_le_add_left this _) (by decide)) (hp.dnum _) (by simp)
      · cases hr
    · simp only [List.mem_singleton] at hr
      subst hr
      refine name_good _ _ _ (by decide) (by decide) (by decide) (hw.names _ ?_)
      have : im.overRegions.getD i [] ∈ im.overRegions := by simp [List.getD_eq_getElem?_getD, hi]
      simp only [List.mem_append]; tauto
  have hXY : ∀ (k : RKey) (v : α) (e : Option α), Good nl.d ⟨k, ['\t', '\t'], pr.f4 v, e.map pr.f4⟩ := by
    intro k v e
    refine num_good k _ _ _ (by simp) (by simp) (by have := (hp.short v).1; simp; omega) (num_good' (hp.ok.f4 v)) ?_
    intro t ht
    cases e with
    | none => cases ht
    | some e => cases ht; exact ⟨hp.ok.f4 e, (hp.short e).1⟩
  have hD : ∀ r ∈ partRows pr p, Good nl.d r := by
    intro r hr
    cases p with
    | none => cases hr
    | some p =>
      obtain ⟨v, e⟩ := p
      simp only [partRows, descRows, List.mem_cons, List.not_mem_nil, or_false] at hr
      rcases hr with rfl | rfl | rfl | rfl | rfl
      · exact padded_good hp _ _ _
      · exact padded_good hp _ _ _
      · exact padded_good hp _ _ _
      · have := hXY .x0 (v .x0) (e.map (· .x0))
        rwa [Option.map_map] at this
      · have := hXY .y0 (v .y0) (e.map (· .y0))
        rwa [Option.map_map] at this
  have hn := hw.names
  intro r hr
  unfold imageRows at hr
  simp only [List.mem_append] at hr hn
  rcases hr with (((((((hr | hr) | hr) | hr) | hr) | hr) | hr) | hr) | hr
  · exact hN _ _ (fun f hf => hn f (by tauto)) r hr
  · exact hQ _ _ _ r hr
  · exact hQ _ _ _ r hr
  · exact hQ _ _ _ r hr
  · exact hN _ _ (fun f hf => hn f (by tauto)) r hr
  · exact hN _ _ (fun f hf => hn f (by tauto)) r hr
  · exact hN _ _ (fun f hf => hn f (by tauto)) r hr
  · exact hO r hr
  · exact hD r hr

/-- Comment lines. -/
def commentLine : ℕ → List Str
  | 0 => ["# Reference image".toList]
  | 1 => ["# Additional images".toList]
  | _ => []

section
variable (pr : NumFmt α) (g : α → Str) (d : Int → Str) (desc : List α) (errs : Option (List α))

/-- The rows of the images. -/
def blocksOf : List (ImgInfo α) → ℕ → List (List IRow)
  | [], _ => []
  | im :: ims, i => imageRows pr g d im (partOf desc errs i) :: blocksOf ims (i + 1)

/-- The lines of the images. -/
def linesOf : List (ImgInfo α) → ℕ → List Str
  | [], _ => []
  | im :: ims, i => commentLine i ++ (imageStart :: ((imageRows pr g d im (partOf desc errs i)).map IRow.text ++ [[]])) ++ linesOf ims (i + 1)

end

theorem loop_ok (pr : NumFmt α) (g : α → Str) (d : Int → Str) (desc : List α) (errs : Option (List α)) (ims : List (ImgInfo α)) (i : ℕ)
    (hw : ∀ im ∈ ims, Writable im) (hd : 5 * (i + ims.length - 1) ≤ desc.length) (he : ∀ es, errs = some es → 5 * (i + ims.length - 1) ≤ es.length) :
    ∃ ls, imageInfoLoop pr g d desc errs ims i = .ok ls ∧ ls.map List.flatten = (linesOf pr g d desc errs ims i).map (· ++ ['\n']) := by
  induction ims generalizing i with
  | nil => exact ⟨[], rfl, rfl⟩
  | cons im ims ih =>
    simp only [List.length_cons] at hd he
    obtain ⟨a, ha, hfa⟩ := info_ok pr g d im desc errs i (hw im (by simp)).one (hw im (by simp)).scales (by omega)
      fun es h => by have := he es h; omega
    obtain ⟨b, hb, hfb⟩ := ih (i + 1) (fun x hx => hw x (by simp [hx])) (by omega) fun es h => by have := he es h; omega
    unfold imageInfoLoop
    rw [ha, ok_bind, hb, ok_bind]
    refine ⟨_, rfl, ?_⟩
    have hc : (imageComment i).map List.flatten = (commentLine i).map (· ++ ['\n']) := by
      rcases i with _ | _ | i <;> rfl
    rw [List.map_append, List.map_append, hc, hfa, hfb]
    conv_rhs => unfold linesOf
    simp only [List.map_append, List.map_cons]

theorem survivors_eq {nl : NumLib α} {pr : NumFmt α} {g : α → Str} {d : Int → Str} (desc : List α) (errs : Option (List α)) (ims : List (ImgInfo α))
    (hw : ∀ im ∈ ims, Writable im) (k : ℕ) :
    (blocksOf pr g d desc errs ims (k + 1)).map (putAll nl ImgInfo.init) = ims.mapIdx fun j im => survives nl pr g d im (some (descOf desc (k + j))) := by
  induction ims generalizing k with
  | nil => rfl
  | cons im ims ih =>
    unfold blocksOf
    rw [List.map_cons, rows_say nl pr g d im _ (hw im (by simp)).scales, ih (fun x hx => hw x (by simp [hx])) (k + 1), List.mapIdx_cons]
    congr 1
    congr 1
    funext j im
    rw [show k + 1 + j = k + (j + 1) by omega]

theorem usable_lines {nl : Strtod α} (pr : NumFmt α) (g : α → Str) (d : Int → Str) (desc : List α) (errs : Option (List α)) (ims : List (ImgInfo α)) (i : ℕ)
    (h : ∀ b ∈ blocksOf pr g d desc errs ims i, ∀ r ∈ b, Good nl r) :
    ((linesOf pr g d desc errs ims i).map stripped).filter meaningful =
      ((blocksOf pr g d desc errs ims i).map fun rs => imageStart :: rs.map IRow.text).flatten ∧
    ∀ l ∈ linesOf pr g d desc errs ims i, '\n' ∉ l ∧ l.length ≤ 1000 := by
  induction ims generalizing i with
  | nil => exact ⟨rfl, by intro l hl; cases hl⟩
  | cons im ims ih =>
    obtain ⟨h1, h2⟩ := ih (i + 1) fun b hb => h b (by unfold blocksOf; simp [hb])
    have hr := h (imageRows pr g d im (partOf desc errs i)) (by unfold blocksOf; simp)
    generalize hR : imageRows pr g d im (partOf desc errs i) = R at hr
    have hrows : ((R.map IRow.text).map stripped).filter meaningful = R.map IRow.text := by
      clear hR
      induction R with
      | nil => rfl
      | cons r R ih =>
        have e := irow_line (hr r (by simp)).1
        rw [List.map_cons, List.map_cons, e.1, List.filter_cons_of_pos e.2.1, ih fun x hx => hr x (by simp [hx])]
    have hc : ((commentLine i).map stripped).filter meaningful = [] ∧ ∀ l ∈ commentLine i, '\n' ∉ l ∧ l.length ≤ 1000 := by
      rcases i with _ | _ | i
      · decide +kernel
      · decide +kernel
      · exact ⟨rfl, by intro l hl; cases hl⟩
    constructor
    · unfold linesOf blocksOf
      simp only [hR, List.map_append, List.map_cons, List.filter_append, List.map_nil, start_line.1, hc.1, h1, List.nil_append, List.cons_append,
        List.flatten_cons]
      rw [List.filter_cons_of_pos start_line.2.1, List.filter_append, hrows]
      have : [stripped []].filter meaningful = [] := rfl
      rw [this]
      simp
    · intro l hl
      unfold linesOf at hl
      simp only [hR, List.mem_append, List.mem_cons, List.mem_map, List.not_mem_nil, or_false] at hl
      rcases hl with (hl | rfl | ⟨r, hr', rfl⟩ | rfl) | hl
      · exact hc.2 l hl
      · exact ⟨start_line.2.2, by decide⟩
      · exact ⟨(irow_line (hr r hr').1).2.2, (hr r hr').2⟩
      · exact ⟨by simp, by simp⟩
      · exact h2 l hl

theorem copy_ok (src : List α) (m N : ℕ) (h1 : m ≤ src.length) (h2 : m ≤ N) : (forN m (List.replicate N (0 : α)) fun i out => do
      let v ← rd src i
      wr out i v) = .ok (src.take m ++ List.replicate (N - m) 0) := by
  rw [forN_ok m _ _ (fun k => src.take k ++ List.replicate (N - k) 0) (by simp)]
  intro z hz
  rw [rd_ok (by omega), ok_bind, wr_ok (by simp; omega)]
  congr 1
  rw [List.set_append_right _ _ (by simp), show N - z = (N - (z + 1)) + 1 by omega, List.replicate_succ]
  simp [show z - min z src.length = 0 by omega]
  rw [List.take_succ_eq_append_getElem (show z < src.length by omega), List.append_assoc]
  rfl

theorem descOf_take (l r : List α) (m k : ℕ) (h : 5 * k + 5 ≤ m) (hm : m ≤ l.length) : descOf (l.take m ++ r) k = descOf l k := by
  have key : ∀ j, j < m → (l.take m ++ r).getD j 0 = l.getD j 0 := by
    intro j hj
    rw [List.getD_eq_getElem?_getD, List.getD_eq_getElem?_getD, List.getElem?_append_left (by simp; omega), List.getElem?_take_of_lt hj]
  funext q
  cases q <;> exact key _ (by omega)

/-- **C90.** A saved image-information file is read, and the images are those that were written, with what such a file keeps. -/
theorem C90_read_back_partial (nl : NumLib α) (pr : NumFmt α) (g : α → Str) (d : Int → Str) (hp : Printing nl pr g d) (header : List Str)
    (hh : ∀ l ∈ header, Ignorable l ∧ '\n' ∉ l) (params : List α) (errs : Option (List α)) (total : ℕ) (ims : List (ImgInfo α)) (hne : ims ≠ [])
    (hw : ∀ im ∈ ims, Writable im) (hpar : 5 * (ims.length - 1) ≤ params.length) (htot : 5 * (ims.length - 1) ≤ total)
    (herr : ∀ es, errs = some es → es.length ≤ total) :
    ∃ file, saveImageInfo pr g d header params errs total ims = .ok file ∧
      ∀ k0, readImageParams nl k0 file = .ok (.good (survivors nl pr g d params ims)) := by
  have hlen : 0 < ims.length := List.length_pos_iff.2 hne
  have hdesc : ∀ src : List α, 5 * (ims.length - 1) ≤ src.length → allDescParams ims.length src =
      .ok (src.take ((ims.length - 1) * 5) ++ List.replicate (ims.length * 5 - (ims.length - 1) * 5) 0) := by
    intro src hs
    exact copy_ok src _ _ (by omega) (by omega)
  generalize hD : params.take ((ims.length - 1) * 5) ++ List.replicate (ims.length * 5 - (ims.length - 1) * 5) (0 : α) = desc
  have hDl : 5 * (ims.length - 1) ≤ desc.length := by rw [← hD]; simp; omega
  have hE : ∃ es : Option (List α), descErrors ims.length total errs = .ok es ∧ ∀ e, es = some e → 5 * (ims.length - 1) ≤ e.length := by
    cases errs with
    | none => exact ⟨none, rfl, by simp⟩
    | some es =>
      have hl := herr es rfl
      unfold descErrors errorsFor
      simp only
      rw [copy_ok es _ total le_rfl hl, ok_bind, hdesc _ (by simp; omega), ok_bind]
      refine ⟨_, rfl, ?_⟩
      rintro e he
      cases he
      simp; omega
  obtain ⟨es, hes, hesl⟩ := hE
  obtain ⟨ls, hls, hfl⟩ := loop_ok pr g d desc es ims 0 hw (by simpa using hDl) (by simpa using hesl)
  have hgood : ∀ b ∈ blocksOf pr g d desc es ims 0, ∀ r ∈ b, Good nl.d r := by
    have key : ∀ (l : List (ImgInfo α)) (i : ℕ), (∀ im ∈ l, Writable im) → ∀ b ∈ blocksOf pr g d desc es l i, ∀ r ∈ b, Good nl.d r := by
      intro l
      induction l with
      | nil => intro i _ b hb; cases hb
      | cons im l ih =>
        intro i hl b hb
        unfold blocksOf at hb
        rcases List.mem_cons.1 hb with rfl | hb
        · exact rows_good hp im (hl im (by simp)) _
        · exact ih (i + 1) (fun x hx => hl x (by simp [hx])) b hb
    exact key ims 0 hw
  obtain ⟨hu, hlines⟩ := usable_lines (nl := nl.d) pr g d desc es ims 0 hgood
  have hshort : ∀ l ∈ ls, ∀ t ∈ l, t.length < 1024 := by
    intro l hl t ht
    have h1 : l.flatten ∈ (linesOf pr g d desc es ims 0).map (· ++ ['\n']) := by rw [← hfl]; exact List.mem_map_of_mem hl
    obtain ⟨x, hx, hx2⟩ := List.mem_map.1 h1
    have h2 := (hlines x hx).2
    have h3 : t.length ≤ l.flatten.length := (List.sublist_flatten_of_mem ht).length_le
    rw [← hx2] at h3
    simp at h3
    omega
  have hfile : saveImageInfo pr g d header params errs total ims = .ok (unlines ((header ++ [[], "# IMAGE PARAMETERS".toList, []]) ++
      linesOf pr g d desc es ims 0)) := by
    unfold saveImageInfo
    rw [hdesc params hpar, ok_bind, hD, hes, ok_bind, hls, ok_bind, mapM_ok ls formatLine List.flatten fun l hl => formatLine_ok (hshort l hl), ok_bind, hfl]
    simp [unlines]
  refine ⟨_, hfile, fun k0 => ?_⟩
  have hus : usable (unlines ((header ++ [[], "# IMAGE PARAMETERS".toList, []]) ++ linesOf pr g d desc es ims 0)) =
      ((blocksOf pr g d desc es ims 0).map fun rs => imageStart :: rs.map IRow.text).flatten := by
    have hhead : ∀ l ∈ header ++ [[], "# IMAGE PARAMETERS".toList, []], Ignorable l ∧ '\n' ∉ l := by
      intro l hl
      rcases List.mem_append.1 hl with hl | hl
      · exact hh l hl
      · simp only [List.mem_cons, List.not_mem_nil, or_false] at hl
        rcases hl with rfl | rfl | rfl
        · exact ⟨Or.inl rfl, by simp⟩
        · exact ⟨Or.inr ⟨" IMAGE PARAMETERS".toList, by decide +kernel⟩, by decide⟩
        · exact ⟨Or.inl rfl, by simp⟩
    rw [usable_unlines _ (by
      intro l hl
      rcases List.mem_append.1 hl with hl | hl
      · exact (hhead l hl).2
      · exact (hlines l hl).1), List.map_append, List.filter_append, hu]
    have h1 : ((header ++ [[], "# IMAGE PARAMETERS".toList, []]).map stripped).filter meaningful = [] := by
      rw [List.filter_eq_nil_iff]
      intro l hl
      obtain ⟨x, hx, rfl⟩ := List.mem_map.1 hl
      rw [ignorable_dropped (hhead x hx).1]; simp
    rw [h1, List.nil_append]
  rw [read_file k0 _ (blocksOf pr g d desc es ims 0) (by
    obtain ⟨im, ims', rfl⟩ := List.exists_cons_of_ne_nil hne
    unfold blocksOf; simp) (fun b hb r hr => (hgood b hb r hr).1) hus]
  congr 2
  obtain ⟨im, ims', rfl⟩ := List.exists_cons_of_ne_nil hne
  unfold blocksOf survivors
  rw [List.map_cons]
  congr 1
  · exact rows_say nl pr g d im _ (hw im (by simp)).scales
  · have := survivors_eq (nl := nl) (pr := pr) (g := g) (d := d) desc es ims' (fun x hx => hw x (by simp [hx])) 0
    rw [show (0 : ℕ) + 1 = 0 + 1 from rfl]
    refine this.trans ?_
    apply List.ext_getElem
    · simp
    · intro j h1 h2
      have hj : j < ims'.length := by simpa using h1
      simp only [List.getElem_mapIdx, Nat.zero_add]
      have hdj : descOf desc j = descOf params j := by
        rw [← hD]
        exact descOf_take params _ _ j (by simp; omega) (by simp at hpar ⊢; omega)
      rw [hdj]

end Imfit
