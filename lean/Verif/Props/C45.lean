import Verif.Lemmas.ImageInfo
import Mathlib.Tactic.IntervalCases
import Verif.Props.C29
import Verif.Props.C31

/-!
# C45: image-information files

What the parameters and limits are, for every file that is accepted. The claim fails in several ways, each shown below: pixel scale and rotation are free
when their line is left out; the flux scale and the position are given limits that make no sense; comments are read as limits; a comma in the wrong
place reads outside a vector; the flags that stand alone on a line are refused; and the line numbers reported are not line numbers.
-/

namespace Imfit

open Spec

variable {α : Type} [FP α]

/-- `GetParameterAndLimits` in terms of what the line says. -/
theorem getParameterAndLimits_eq (nl : NumLib α) (l : Str) (hk : Kept l) (p : α × ParInfo α × Int) (h : getParameterAndLimits nl l = .ok p) :
    (∃ t, (words l)[1]? = some t ∧ p.1 = nl.d.val t) ∧
    match given nl.d.val l with
    | .nothing => p.2 = (ParInfo.zero, 0)
    | .fixed => p.2 = ({ ParInfo.zero with fixed := true }, 1)
    | .limits lo hi => p.2.1 = ⟨false, true, true, lo, hi⟩ ∧ (p.2.2 = 2 ↔ Proper p.1 lo hi)
    | .malformed => False := by
  unfold getParameterAndLimits at h
  rw [split_kept hk, ok_bind] at h
  cases h1 : (words l)[1]? with
  | none => simp [rd, h1] at h
  | some t =>
    have hr : rd (words l) 1 = .ok t := by simp [rd, h1]
    rw [hr, ok_bind] at h
    unfold given
    cases h2 : (words l)[2]? with
    | none =>
      have hl : ¬ (words l).length > 2 := by simpa using h2
      rw [if_neg hl] at h
      cases h
      exact ⟨⟨t, rfl, rfl⟩, rfl⟩
    | some e =>
      have hl : (words l).length > 2 := (List.getElem?_eq_some_iff.1 h2).1
      have hr : rd (words l) 2 = .ok e := by simp [rd, h2]
      rw [if_pos hl, hr, ok_bind] at h
      unfold imgExtra at h
      by_cases hf : e = kFixed
      · rw [if_pos hf, ok_bind] at h
        cases h
        refine ⟨⟨t, rfl, rfl⟩, ?_⟩
        subst hf
        rfl
      · rw [if_neg hf] at h
        have hf' : ¬ e = ['f', 'i', 'x', 'e', 'd'] := hf
        simp only [if_neg hf']
        by_cases hc : ',' ∈ e
        · rw [if_pos hc] at h
          simp only [if_pos hc]
          unfold imgLimits at h
          rw [splitString_eq] at h
          by_cases ha : (e.dropWhile (· == ',')).any (· == ',') = true
          · rw [if_pos ha, ok_bind] at h
            cases ht : tokens (· == ',') e with
            | nil => rw [ht] at h; cases h
            | cons a r =>
              cases r with
              | nil => rw [ht] at h; cases h
              | cons b r =>
                rw [ht] at h
                have e0 : rd (a :: b :: r) 0 = .ok a := rfl
                have e1 : rd (a :: b :: r) 1 = .ok b := rfl
                rw [e0, ok_bind, e1, ok_bind, ok_bind] at h
                cases h
                refine ⟨⟨t, rfl, rfl⟩, rfl, ?_⟩
                unfold Proper
                generalize FP.fle (nl.d.val b) (nl.d.val a) = x
                generalize FP.flt (nl.d.val t) (nl.d.val a) = y
                generalize FP.flt (nl.d.val b) (nl.d.val t) = z
                cases x <;> cases y <;> cases z <;> simp
          · rw [if_neg ha, ok_bind] at h
            cases h
        · rw [if_neg hc, ok_bind] at h
          simp only [if_neg hc]
          cases h
          exact ⟨⟨t, rfl, rfl⟩, rfl⟩

/-- What is stored about a parameter, given the lines of the image. -/
def DescribedBy (nl : NumLib α) (b : List Str) (i : ImgInfo α) (q : ImgPar) : Prop :=
  match lineFor q.word b with
  | none => q.val i = q.default ∧ q.lim i = ParInfo.zero
  | some l => (∃ t, (words l)[1]? = some t ∧ q.val i = nl.d.val t) ∧
    match given nl.d.val l with
    | .nothing => if q.strict then (q.lim i).fixed = true else q.lim i = ParInfo.zero
    | .fixed => (q.lim i).fixed = true
    | .limits lo hi => if q.strict then (Proper (q.val i) lo hi → q.lim i = ⟨false, true, true, lo, hi⟩) ∧
        (¬ Proper (q.val i) lo hi → (q.lim i).fixed = true) else q.lim i = ⟨false, true, true, lo, hi⟩
    | .malformed => False

/-- For every accepted file: as many images as `IMAGE_START` lines, and each parameter of each image has the value and limits of the last line about it
between that `IMAGE_START` and the next one (or the functions of the image), or its default. -/
theorem C45_described (nl : NumLib α) (k0 : Int) (file : Str) (pre : List Str) (bs : List (List Str)) (hpre : ∀ l ∈ pre, ¬ Has imageStart l)
    (hbs : IsBlocks bs) (hf : usable file = pre ++ bs.flatten) (is : List (ImgInfo α)) (h : readImageParams nl k0 file = .ok (.good is)) :
    is.length = bs.length ∧ ∀ p ∈ bs.zip is, ∀ q : ImgPar, DescribedBy nl p.1 p.2 q := by
  unfold readImageParams at h
  have hu := usable_kept file
  rw [keepLines_usable, ok_bind, hf] at h
  rw [hf] at hu
  cases hv : vetInputLines nl k0 (pre ++ bs.flatten) with
  | error e => rw [hv] at h; cases h
  | ok errs =>
    rw [hv, ok_bind] at h
    by_cases he : errs ≠ []
    · rw [if_pos he] at h; cases h
    · rw [if_neg he, imageStarts_none pre hpre, Nat.zero_add, imageBlocks_eq bs hbs] at h
      cases hr : readImageBlocks nl bs with
      | error e => rw [hr] at h; cases h
      | ok r =>
        rw [hr, ok_bind] at h
        cases r with
        | none => cases h
        | some is' =>
          cases h
          obtain ⟨hl, hz⟩ := readImageBlocks_ok nl bs is hr
          refine ⟨hl, fun p hp q => ?_⟩
          have hb : p.1 ∈ bs := (List.of_mem_zip hp).1
          have hk : ∀ l ∈ p.1, Kept l := fun l hl => hu l (by
            rw [List.mem_append]; right; rw [List.mem_flatten]; exact ⟨p.1, hb, hl⟩)
          have hd := readImageBlock_desc nl q p.1 hk p.2 (hz p hp)
          unfold DescribedBy
          cases hln : lineFor q.word p.1 with
          | none => rw [hln] at hd; exact hd
          | some l =>
            rw [hln] at hd
            obtain ⟨v, old, hg, e1, e2⟩ := hd
            have hlm : l ∈ p.1 := by
              have := List.mem_of_find?_eq_some hln
              rw [List.mem_reverse] at this
              exact (List.takeWhile_prefix _).subset this
            obtain ⟨⟨t, ht, hvt⟩, hm⟩ := getParameterAndLimits_eq nl l (hk l hlm) v hg
            refine ⟨⟨t, ht, e1.trans hvt⟩, ?_⟩
            rw [e1, e2]
            unfold updPar fixedUnless
            cases hgv : given nl.d.val l with
            | nothing =>
              rw [hgv] at hm
              simp only at hm ⊢
              rw [hm]
              cases q.strict <;> simp
            | fixed =>
              rw [hgv] at hm
              simp only at hm ⊢
              rw [hm]
              cases q.strict <;> simp
            | limits lo hi =>
              rw [hgv] at hm
              simp only at hm ⊢
              cases q.strict with
              | false => simpa using hm.1
              | true =>
                simp only [if_true]
                refine ⟨fun hp => ?_, fun hp => ?_⟩
                · rw [if_pos (hm.2.2 hp)]; exact hm.1
                · rw [if_neg (fun hh => hp (hm.2.1 hh))]
            | malformed => rw [hgv] at hm; exact hm

/-- Pixel scale and rotation are fixed, or have limits that make sense and contain the starting value. Missing: images without a line about the
parameter. -/
theorem C45_fixed_unless_limits_partial (nl : NumLib α) (k0 : Int) (file : Str) (pre : List Str) (bs : List (List Str))
    (hpre : ∀ l ∈ pre, ¬ Has imageStart l) (hbs : IsBlocks bs) (hf : usable file = pre ++ bs.flatten) (is : List (ImgInfo α))
    (h : readImageParams nl k0 file = .ok (.good is)) (p : List Str × ImgInfo α) (hp : p ∈ bs.zip is) (q : ImgPar)
    (hq : q = .pixelScale ∨ q = .rotation) (hline : ∃ l ∈ descLines p.1, (words l).head? = some q.word) :
    (q.lim p.2).fixed = true ∨
      ((q.lim p.2).lim0 = true ∧ (q.lim p.2).lim1 = true ∧ Proper (q.val p.2) (q.lim p.2).lo (q.lim p.2).hi) := by
  have hd := (C45_described nl k0 file pre bs hpre hbs hf is h).2 p hp q
  have hs : q.strict = true := by rcases hq with rfl | rfl <;> rfl
  unfold DescribedBy at hd
  cases hln : lineFor q.word p.1 with
  | none =>
    obtain ⟨l, hl, hw⟩ := hline
    have := List.find?_eq_none.1 hln l (by simpa using hl)
    simp [hw] at this
  | some l =>
    rw [hln] at hd
    simp only [hs, if_true] at hd
    have hd2 := hd.2
    cases hg : given nl.d.val l with
    | nothing => rw [hg] at hd2; exact Or.inl hd2
    | fixed => rw [hg] at hd2; exact Or.inl hd2
    | malformed => rw [hg] at hd2; exact hd2.elim
    | limits lo hi =>
      rw [hg] at hd2
      simp only at hd2
      by_cases hpr : Proper (q.val p.2) lo hi
      · right
        rw [hd2.1 hpr]
        exact ⟨rfl, rfl, hpr⟩
      · exact Or.inl (hd2.2 hpr)

/-- In exact arithmetic: sensible limits without NaN are in order and contain the value. -/
theorem C45_proper (v lo hi : ℝ) : Proper (XR.fin v) (XR.fin lo) (XR.fin hi) ↔ lo < hi ∧ lo ≤ v ∧ v ≤ hi := by
  simp [Proper]

/-! ## The vector of parameters -/

/-- For `n + 1` images: `5 n` values in the documented order image by image from the second on, one limit record each, appended to what the vector of
limits held, and the flag says whether any is fixed or limited. -/
theorem C45_layout (im : ImgInfo α) (is : List (ImgInfo α)) (lims : List (ParInfo α)) :
    ∃ vals recs flag, imageDescParams (im :: is) lims = .ok ((vals, lims ++ recs, flag), 5 * (is.length : Int)) ∧
      vals.length = 5 * is.length ∧ recs.length = 5 * is.length ∧
      (∀ k (hk : k < is.length) j (hj : j < 5), vals[k * 5 + j]? = some ((ImgPar.all[j]'hj).val is[k]) ∧
        recs[k * 5 + j]? = some ((ImgPar.all[j]'hj).lim is[k])) ∧
      (flag = true ↔ ∃ i ∈ is, ∃ q : ImgPar, (q.lim i).fixed = true ∨ (q.lim i).lim0 = true ∨ (q.lim i).lim1 = true) := by
  set V : ImgInfo α → List α := fun i => ImgPar.all.map fun q => q.val i with hV
  set R : ImgInfo α → List (ParInfo α) := fun i => ImgPar.all.map fun q => q.lim i with hR
  set F : ImgInfo α → Bool := fun i => limitsExist i.pixelScaleLim || limitsExist i.rotationLim || limitsExist i.intensityScaleLim ||
    limitsExist i.x0Lim || limitsExist i.y0Lim with hF
  have hlen : ∀ (l : List (ImgInfo α)), (l.flatMap V).length = 5 * l.length := by
    intro l
    induction l with
    | nil => rfl
    | cons a l ih => rw [List.flatMap_cons, List.length_append, ih]; simp [hV, ImgPar.all]; omega
  have hlenR : ∀ (l : List (ImgInfo α)), (l.flatMap R).length = 5 * l.length := by
    intro l
    induction l with
    | nil => rfl
    | cons a l ih => rw [List.flatMap_cons, List.length_append, ih]; simp [hR, ImgPar.all]; omega
  have hloop : forN is.length (List.replicate (5 * is.length) 0, lims, false) (fun i st => descStep (im :: is) i st) =
      .ok ((is.take is.length).flatMap V ++ List.replicate (5 * (is.length - is.length)) 0, lims ++ (is.take is.length).flatMap R,
        (is.take is.length).any F) := by
    refine forN_ok is.length _ _ (fun k => ((is.take k).flatMap V ++ List.replicate (5 * (is.length - k)) 0, lims ++ (is.take k).flatMap R,
      (is.take k).any F)) (by simp) ?_
    intro k hk
    have hrd : rd (im :: is) (k + 1) = .ok is[k] := by simp [rd, hk]
    unfold descStep
    rw [hrd, ok_bind]
    obtain ⟨m, hm⟩ : ∃ m, is.length - k = m + 1 := ⟨is.length - k - 1, by omega⟩
    have hm' : is.length - (k + 1) = m := by omega
    rw [hm, hm']
    have hA : ((is.take k).flatMap V).length = k * 5 := by rw [hlen, List.length_take, min_eq_left hk.le]; omega
    generalize hAg : (is.take k).flatMap V = A at hA
    have hrep : (List.replicate (5 * (m + 1)) (0 : α)) = 0 :: 0 :: 0 :: 0 :: 0 :: List.replicate (5 * m) 0 := by
      rw [show 5 * (m + 1) = 5 * m + 1 + 1 + 1 + 1 + 1 by omega]
      simp only [List.replicate_succ]
    rw [hrep]
    have w : ∀ (j : ℕ) (B : List α) (v : α), j < B.length → wr (A ++ B) (k * 5 + j) v = .ok (A ++ B.set j v) := by
      intro j B v hj
      rw [wr_ok (by rw [List.length_append]; omega), List.set_append_right _ _ (by omega), hA, Nat.add_sub_cancel_left]
    have w0 := w 0
    rw [Nat.add_zero] at w0
    rw [w0 _ _ (by simp), ok_bind, w 1 _ _ (by simp), ok_bind, w 2 _ _ (by simp), ok_bind, w 3 _ _ (by simp), ok_bind, w 4 _ _ (by simp), ok_bind]
    simp only [List.take_succ_eq_append_getElem hk, List.flatMap_append, List.any_append, hAg]
    simp [hV, hR, hF, ImgPar.all, ImgPar.val, ImgPar.lim]
  refine ⟨is.flatMap V, is.flatMap R, is.any F, ?_, hlen is, hlenR is, ?_, ?_⟩
  · unfold imageDescParams
    have e1 : (im :: is).length - 1 = is.length := by simp
    rw [e1, hloop, ok_bind]
    simp
  · intro k hk j hj
    have key : ∀ {β : Type} (f : ImgPar → ImgInfo α → β) (l : List (ImgInfo α)) (k : ℕ) (hk : k < l.length),
        (l.flatMap fun i => ImgPar.all.map fun q => f q i)[k * 5 + j]? = some (f (ImgPar.all[j]'hj) l[k]) := by
      intro β f l
      induction l with
      | nil => intro k hk; simp at hk
      | cons a l ih =>
        intro k hk
        rw [List.flatMap_cons]
        cases k with
        | zero =>
          rw [List.getElem?_append_left (by simp [ImgPar.all]; omega)]
          interval_cases j <;> simp [ImgPar.all]
        | succ k =>
          rw [List.getElem?_append_right (by simp [ImgPar.all]; omega)]
          have : (k + 1) * 5 + j - (ImgPar.all.map fun q => f q a).length = k * 5 + j := by simp [ImgPar.all]; omega
          rw [this, ih k (by simpa using hk)]
          simp
    exact ⟨key (fun q i => q.val i) is k hk, key (fun q i => q.lim i) is k hk⟩
  · rw [List.any_eq_true]
    constructor
    · rintro ⟨i, hi, hf⟩
      refine ⟨i, hi, ?_⟩
      simp only [hF, Bool.or_eq_true, limitsExist] at hf
      rcases hf with (((hf | hf) | hf) | hf) | hf
      · exact ⟨.pixelScale, by tauto⟩
      · exact ⟨.rotation, by tauto⟩
      · exact ⟨.intensityScale, by tauto⟩
      · exact ⟨.x0, by tauto⟩
      · exact ⟨.y0, by tauto⟩
    · rintro ⟨i, hi, q, hq⟩
      refine ⟨i, hi, ?_⟩
      simp only [hF, Bool.or_eq_true, limitsExist]
      cases q <;> (simp only [ImgPar.lim] at hq; tauto)

/-- Two images: five values and records, those of the second. -/
example (a b : ImgInfo XR) : ∃ recs flag, imageDescParams [a, b] [] = .ok (([b.pixelScale, b.rotation, b.intensityScale, b.x0, b.y0], recs, flag), 5) := by
  obtain ⟨vals, recs, flag, h, hl, -, hv, -⟩ := C45_layout a [b] []
  refine ⟨recs, flag, ?_⟩
  rw [h]
  have e : vals = [b.pixelScale, b.rotation, b.intensityScale, b.x0, b.y0] := by
    apply List.ext_getElem?
    intro j
    by_cases hj : j < 5
    · have := (hv 0 (by simp) j hj).1
      rw [Nat.zero_mul, Nat.zero_add] at this
      rw [this]
      interval_cases j <;> rfl
    · rw [List.getElem?_eq_none (by rw [hl]; simp; omega), List.getElem?_eq_none (by simp; omega)]
  rw [e]; rfl

/-! ## Which files are refused -/

theorem tokens_length_cons (d : Char → Bool) (c : Char) (s : Str) : (tokens d (c :: s)).length =
    if d c then (tokens d s).length else if s.head?.any (fun x => !d x) then (tokens d s).length else (tokens d s).length + 1 := by
  by_cases hc : d c = true
  · rw [if_pos hc, tokens_delim d hc]
  · rw [if_neg hc]
    have hc' : d c = false := by simpa using hc
    unfold tokens
    rw [List.splitOnP_cons_eq_if_modifyHead, if_neg hc]
    cases s with
    | nil => simp
    | cons x s =>
      rw [List.splitOnP_cons_eq_if_modifyHead]
      by_cases hx : d x = true
      · rw [if_pos hx]; simp [hx]
      · rw [if_neg hx]
        have hx' : d x = false := by simpa using hx
        cases hs : s.splitOnP d with
        | nil => exact absurd hs (List.splitOnP_ne_nil d s)
        | cons a as => simp [hx']

theorem tokens_length_prefix (d : Char → Bool) (a b : Str) : (tokens d a).length ≤ (tokens d (a ++ b)).length := by
  induction a with
  | nil => simp [tokens]
  | cons c a ih =>
    rw [List.cons_append, tokens_length_cons, tokens_length_cons]
    by_cases hc : d c = true
    · simp only [hc, if_true]; exact ih
    · simp only [hc]
      cases a with
      | nil =>
        simp only [List.nil_append, List.head?_nil, Option.any_none, Bool.false_eq_true, if_false, tokens_nil, List.length_nil]
        split_ifs with h
        · cases b with
          | nil => simp at h
          | cons x b =>
            have hx : d x = false := by simpa using h
            rw [tokens_length_cons]
            simp only [hx, Bool.false_eq_true, if_false]
            split_ifs with h2
            · cases b with
              | nil => simp at h2
              | cons y b =>
                obtain ⟨w, hw⟩ : ∃ w, w ∈ tokens d (y :: b) := by
                  have hy : d y = false := by simpa using h2
                  have hf := (C29_pieces d (y :: b)).2
                  cases ht : tokens d (y :: b) with
                  | nil => rw [ht] at hf; simp [hy] at hf
                  | cons w ws => exact ⟨w, by simp⟩
                have := List.length_pos_of_mem hw
                omega
            · omega
        · omega
      | cons x a =>
        simp only [List.cons_append, List.head?_cons, Option.any_some] at ih ⊢
        by_cases hx : d x = true <;> simp [hx] <;> omega

/-- A usable line that may only be a key word with something after it. -/
def PlainLine (l : Str) : Prop := ¬ Has imageStart l ∧ ¬ Has functionsStart l

omit [FP α] in
theorem vetImageLoop_eq (nl : NumLib α) (k0 : Int) (ls : List Str) (hk : ∀ l ∈ ls, Kept l) : ∃ r, vetImageLoop nl k0 ls = .ok r ∧
    (∀ e ∈ r, e = (-4, k0)) ∧ (r = [] ↔ ∀ l ∈ ls, PlainLine l → 2 ≤ (words (before '#' l)).length) := by
  induction ls with
  | nil => exact ⟨[], rfl, by simp, by simp⟩
  | cons l ls ih =>
    obtain ⟨r, hr, h1, h2⟩ := ih fun x hx => hk x (by simp [hx])
    unfold vetImageLoop
    by_cases ha : hasSub iImageStart l = true
    · rw [if_pos ha]
      refine ⟨r, hr, h1, h2.trans ?_⟩
      have : ¬ PlainLine l := fun h => h.1 ((has_iff _ _).1 ha)
      simp [this]
    · rw [if_neg ha]
      by_cases hb : hasSub iFunctionsStart l = true
      · rw [if_pos hb]
        refine ⟨r, hr, h1, h2.trans ?_⟩
        have : ¬ PlainLine l := fun h => h.2 ((has_iff _ _).1 hb)
        simp [this]
      · rw [if_neg hb]
        have hp : PlainLine l := ⟨fun h => ha ((has_iff _ _).2 h), fun h => hb ((has_iff _ _).2 h)⟩
        have hw : pieces l = words (before '#' l) := pieces_kept (hk l (by simp))
        have hsp : splitString (before '#' l) isBlank = .ok (words (before '#' l)) := by
          rw [← hw]; unfold pieces; exact splitString_eq _ _
        unfold validParameterLine
        rw [chopAt_eq, ok_bind, hsp, ok_bind, hr]
        by_cases hn : (words (before '#' l)).length ≥ 2
        · rw [if_pos hn]
          refine ⟨r, rfl, h1, h2.trans ?_⟩
          simp only [List.mem_cons, forall_eq_or_imp]
          exact ⟨fun h => ⟨fun _ => hn, h⟩, fun h => h.2⟩
        · rw [if_neg hn]
          refine ⟨(-4, k0) :: r, rfl, ?_, ?_⟩
          · intro e he
            rcases List.mem_cons.1 he with rfl | he
            · rfl
            · exact h1 e he
          · simp only [List.mem_cons, forall_eq_or_imp]
            exact ⟨fun h => by simp at h, fun h => absurd (h.1 hp) hn⟩

/-- A file is refused for its lines exactly when it has no lines, no `IMAGE_START`, or a line (not an `IMAGE_START` or `FUNCTIONS_START` line) with
fewer than two words before its comment. -/
theorem C45_refused (nl : NumLib α) (k0 : Int) (file : Str) : (∃ errs, readImageParams nl k0 file = .ok (.badLines errs)) ↔
    usable file = [] ∨ (∀ l ∈ usable file, ¬ Has imageStart l) ∨
      ∃ l ∈ usable file, PlainLine l ∧ (words (before '#' l)).length < 2 := by
  unfold readImageParams
  rw [keepLines_usable, ok_bind]
  have hu := usable_kept file
  unfold vetInputLines
  by_cases hn : usable file = []
  · rw [if_pos hn, ok_bind, if_pos (by simp)]
    exact ⟨fun _ => Or.inl hn, fun _ => ⟨_, rfl⟩⟩
  · rw [if_neg hn]
    obtain ⟨r, hr, -, h2⟩ := vetImageLoop_eq nl k0 (usable file) hu
    rw [hr, ok_bind]
    by_cases hs : (usable file).any (hasSub iImageStart) = true
    · rw [if_pos hs, ok_bind]
      obtain ⟨l0, hl0, hh0⟩ := List.any_eq_true.1 hs
      by_cases hr0 : r = []
      · rw [if_neg (by simpa using hr0)]
        constructor
        · rintro ⟨errs, h⟩
          cases hb : readImageBlocks nl (imageBlocks (usable file) (imageStarts 0 (usable file))) with
          | error e => rw [hb] at h; cases h
          | ok x => rw [hb, ok_bind] at h; cases x <;> cases h
        · rintro (h | h | ⟨l, hl, hp, hlt⟩)
          · exact absurd h hn
          · exact absurd ((has_iff _ _).1 hh0) (h l0 hl0)
          · exact absurd (h2.1 hr0 l hl hp) (by omega)
      · rw [if_pos hr0]
        refine ⟨fun _ => Or.inr (Or.inr ?_), fun _ => ⟨_, rfl⟩⟩
        by_contra hc
        push Not at hc
        exact hr0 (h2.2 fun l hl hp => hc l hl hp)
    · rw [if_neg hs, ok_bind, if_pos (by simp)]
      refine ⟨fun _ => Or.inr (Or.inl fun l hl h => hs ?_), fun _ => ⟨_, rfl⟩⟩
      exact List.any_eq_true.2 ⟨l, hl, (has_iff _ _).2 h⟩

/-! ## Safety -/

/-- Lines whose commas are where they should be. -/
def CommasRight (l : Str) : Prop :=
  ((∃ q : ImgPar, (words l).head? = some q.word) → ∀ t, (words l)[2]? = some t → t = kFixed ∨ ',' ∉ t ∨ 2 ≤ (tokens (· == ',') t).length) ∧
  ((words l).head? = some iNcolsNrows ∨ (words l).head? = some iNrowsNcols → ∀ t, (words l)[1]? = some t → 2 ≤ (tokens (· == ',') t).length)

theorem comma_any {t : Str} (h : 2 ≤ (tokens (· == ',') t).length) : (t.dropWhile (· == ',')).any (· == ',') = true := by
  by_contra hc
  have hd : tokens (· == ',') t = tokens (· == ',') (t.dropWhile (· == ',')) := by
    conv_lhs => rw [← List.takeWhile_append_dropWhile (p := (· == ',')) (l := t)]
    exact tokens_delims _ _ _ fun c hc => by simpa using List.mem_takeWhile_imp hc
  rw [hd] at h
  by_cases he : t.dropWhile (· == ',') = []
  · rw [he] at h; simp [tokens] at h
  · rw [tokens_self _ _ he (Bool.eq_false_iff.2 hc)] at h
    simp at h

theorem imgExtra_safe (nl : NumLib α) (v : α) (t : Str) (h : t = kFixed ∨ ',' ∉ t ∨ 2 ≤ (tokens (· == ',') t).length) :
    ∃ r, imgExtra nl v t = .ok r := by
  unfold imgExtra
  by_cases h1 : t = kFixed
  · rw [if_pos h1]; exact ⟨_, rfl⟩
  · rw [if_neg h1]
    by_cases h2 : ',' ∈ t
    · rw [if_pos h2]
      have h3 : 2 ≤ (tokens (· == ',') t).length := by tauto
      unfold imgLimits
      rw [splitString_eq, if_pos (comma_any h3), ok_bind]
      match tokens (· == ',') t, h3 with
      | a :: b :: r, _ => exact ⟨_, rfl⟩
    · rw [if_neg h2]; exact ⟨_, rfl⟩

theorem getParameterAndLimits_safe (nl : NumLib α) (l : Str) (hk : Kept l) (h2 : 2 ≤ (words l).length)
    (h : ∀ t, (words l)[2]? = some t → t = kFixed ∨ ',' ∉ t ∨ 2 ≤ (tokens (· == ',') t).length) :
    ∃ p, getParameterAndLimits nl l = .ok p := by
  unfold getParameterAndLimits
  rw [split_kept hk, ok_bind, rd_ok (show 1 < (words l).length by omega), ok_bind]
  by_cases h3 : (words l).length > 2
  · rw [if_pos h3, rd_ok h3, ok_bind]
    obtain ⟨r, hr⟩ := imgExtra_safe nl (nl.d.val (words l)[1]) (words l)[2] (h _ (List.getElem?_eq_getElem h3))
    rw [hr]; exact ⟨_, rfl⟩
  · rw [if_neg h3]; exact ⟨_, rfl⟩

omit [FP α] in
theorem twoInts_safe (nl : NumLib α) (t : Str) (h : 2 ≤ (tokens (· == ',') t).length) : ∃ p, twoInts nl t = .ok p := by
  unfold twoInts
  rw [splitString_eq, if_pos (comma_any h), ok_bind]
  match tokens (· == ',') t, h with
  | a :: b :: r, _ => exact ⟨_, rfl⟩

omit [FP α] in
theorem second_safe {ps : List Str} (h : 2 ≤ ps.length) (f : Str → ImgInfo α) : ∃ i, second ps f = .ok i := by
  unfold second
  rw [rd_ok (show 1 < ps.length by omega)]
  exact ⟨_, rfl⟩

/-- The key words. -/
def imgKeys : List Str := [iGain, iReadNoise, iSky, iExpTime, iWeight, iPixelScale, iImagePA, iFluxScale, iX0, iY0, iNcols, iNrows, iNrowsNcols,
  iNcolsNrows, iNcombined, iData, iMask, iError, iPsf, iOverScale, iOverPsf, iOverRegion]

theorem storeInfo_safe (nl : NumLib α) (l : Str) (i : ImgInfo α) (hk : Kept l) (h2 : ∀ w, (words l).head? = some w → w ∈ imgKeys → 2 ≤ (words l).length)
    (hc : CommasRight l) : ∃ i', storeInfo nl l i = .ok i' := by
  obtain ⟨w, ws, hw⟩ := words_kept hk
  have hh : (words l).head? = some w := by rw [hw]; rfl
  have h2' := h2 w hh
  have hlim : ∀ q : ImgPar, w = q.word → ∀ f, w ∈ imgKeys → ∃ i', withLimits nl l f = .ok i' := by
    intro q hq f hm
    obtain ⟨p, hp⟩ := getParameterAndLimits_safe nl l hk (h2' hm) (hc.1 ⟨q, by rw [hh, hq]⟩)
    unfold withLimits
    rw [hp]; exact ⟨_, rfl⟩
  have hint : (w = iNcolsNrows ∨ w = iNrowsNcols) → ∀ f, w ∈ imgKeys → ∃ i', secondInts nl (words l) f = .ok i' := by
    intro hq f hm
    have hl := h2' hm
    unfold secondInts
    rw [rd_ok (show 1 < (words l).length by omega), ok_bind]
    obtain ⟨p, hp⟩ := twoInts_safe nl (words l)[1] (hc.2 (by rw [hh]; simpa using hq) _ (List.getElem?_eq_getElem _))
    rw [hp]; exact ⟨_, rfl⟩
  unfold storeInfo
  rw [split_kept hk, ok_bind]
  have hr : rd (words l) 0 = .ok w := by rw [hw]; rfl
  rw [hr, ok_bind]
  by_cases h0 : w = iGain
  · rw [if_pos h0]
    exact second_safe (h2' (by rw [h0]; decide)) _
  rw [if_neg h0]
  by_cases h1 : w = iReadNoise
  · rw [if_pos h1]
    exact second_safe (h2' (by rw [h1]; decide)) _
  rw [if_neg h1]
  by_cases h2 : w = iSky
  · rw [if_pos h2]
    exact second_safe (h2' (by rw [h2]; decide)) _
  rw [if_neg h2]
  by_cases h3 : w = iExpTime
  · rw [if_pos h3]
    exact second_safe (h2' (by rw [h3]; decide)) _
  rw [if_neg h3]
  by_cases h4 : w = iWeight
  · rw [if_pos h4]
    exact second_safe (h2' (by rw [h4]; decide)) _
  rw [if_neg h4]
  by_cases h5 : w = iPixelScale
  · rw [if_pos h5]
    exact hlim .pixelScale h5 _ (by rw [h5]; decide)
  rw [if_neg h5]
  by_cases h6 : w = iImagePA
  · rw [if_pos h6]
    exact hlim .rotation h6 _ (by rw [h6]; decide)
  rw [if_neg h6]
  by_cases h7 : w = iFluxScale
  · rw [if_pos h7]
    exact hlim .intensityScale h7 _ (by rw [h7]; decide)
  rw [if_neg h7]
  by_cases h8 : w = iX0
  · rw [if_pos h8]
    exact hlim .x0 h8 _ (by rw [h8]; decide)
  rw [if_neg h8]
  by_cases h9 : w = iY0
  · rw [if_pos h9]
    exact hlim .y0 h9 _ (by rw [h9]; decide)
  rw [if_neg h9]
  by_cases h10 : w = iNcols
  · rw [if_pos h10]
    exact second_safe (h2' (by rw [h10]; decide)) _
  rw [if_neg h10]
  by_cases h11 : w = iNrows
  · rw [if_pos h11]
    exact second_safe (h2' (by rw [h11]; decide)) _
  rw [if_neg h11]
  by_cases h12 : w = iNrowsNcols
  · rw [if_pos h12]
    exact hint (by tauto) _ (by rw [h12]; decide)
  rw [if_neg h12]
  by_cases h13 : w = iNcolsNrows
  · rw [if_pos h13]
    exact hint (by tauto) _ (by rw [h13]; decide)
  rw [if_neg h13]
  by_cases h14 : w = iNcombined
  · rw [if_pos h14]
    exact second_safe (h2' (by rw [h14]; decide)) _
  rw [if_neg h14]
  by_cases h15 : w = iData
  · rw [if_pos h15]
    exact second_safe (h2' (by rw [h15]; decide)) _
  rw [if_neg h15]
  by_cases h16 : w = iMask
  · rw [if_pos h16]
    exact second_safe (h2' (by rw [h16]; decide)) _
  rw [if_neg h16]
  by_cases h17 : w = iError
  · rw [if_pos h17]
    exact second_safe (h2' (by rw [h17]; decide)) _
  rw [if_neg h17]
  by_cases h18 : w = iPsf
  · rw [if_pos h18]
    exact second_safe (h2' (by rw [h18]; decide)) _
  rw [if_neg h18]
  by_cases h19 : w = iOverScale
  · rw [if_pos h19]
    exact second_safe (h2' (by rw [h19]; decide)) _
  rw [if_neg h19]
  by_cases h20 : w = iOverPsf
  · rw [if_pos h20]
    exact second_safe (h2' (by rw [h20]; decide)) _
  rw [if_neg h20]
  by_cases h21 : w = iOverRegion
  · rw [if_pos h21]
    exact second_safe (h2' (by rw [h21]; decide)) _
  rw [if_neg h21]
  by_cases h22 : w = iMaskGood
  · rw [if_pos h22]
    exact ⟨_, rfl⟩
  rw [if_neg h22]
  by_cases h23 : w = iMaskBad
  · rw [if_pos h23]
    exact ⟨_, rfl⟩
  rw [if_neg h23]
  by_cases h24 : w = iSigmas
  · rw [if_pos h24]
    exact ⟨_, rfl⟩
  rw [if_neg h24]
  by_cases h25 : w = iVariances
  · rw [if_pos h25]
    exact ⟨_, rfl⟩
  rw [if_neg h25]
  by_cases h26 : w = iWeights
  · rw [if_pos h26]
    exact ⟨_, rfl⟩
  rw [if_neg h26]
  exact ⟨_, rfl⟩

theorem has_word {k l : Str} (hk : ∀ c ∈ k, isBlank c = false) (h : Has k l) {w : Str} (hw : words l = [w]) : Has k w := by
  obtain ⟨a, b, rfl⟩ := h
  have hf := (C29_pieces isBlank (a ++ k ++ b)).2
  unfold words at hw
  rw [hw] at hf
  simp only [List.flatten_cons, List.flatten_nil, List.append_nil, List.filter_append] at hf
  have hkk : k.filter (fun c => !isBlank c) = k := List.filter_eq_self.2 fun c hc => by simp [hk c hc]
  rw [hf, hkk]
  exact ⟨_, _, rfl⟩

theorem addInfoLoop_safe (nl : NumLib α) (ls : List Str) (hk : ∀ l ∈ ls, Kept l)
    (h2 : ∀ l ∈ ls, ¬ Has functionsStart l → ∀ w, (words l).head? = some w → w ∈ imgKeys → 2 ≤ (words l).length)
    (hc : ∀ l ∈ ls, CommasRight l) (k : ℕ) (i : ImgInfo α) : ∃ r, addInfoLoop nl k i ls = .ok r ∧
      ((∀ l ∈ ls, ¬ Has functionsStart l) → r.2 = 0) := by
  induction ls generalizing k i with
  | nil => exact ⟨_, rfl, fun _ => rfl⟩
  | cons l ls ih =>
    unfold addInfoLoop
    by_cases hf : hasSub iFunctionsStart l = true
    · rw [if_pos hf]; exact ⟨_, rfl, fun h => absurd ((has_iff _ _).1 hf) (h l (by simp))⟩
    · rw [if_neg hf]
      obtain ⟨i1, hi⟩ := storeInfo_safe nl l i (hk l (by simp)) (h2 l (by simp) fun h => hf ((has_iff _ _).2 h)) (hc l (by simp))
      rw [hi, ok_bind]
      obtain ⟨r, hr, h0⟩ := ih (fun x hx => hk x (by simp [hx])) (fun x hx => h2 x (by simp [hx])) (fun x hx => hc x (by simp [hx])) (k + 1) i1
      exact ⟨r, hr, fun h => h0 fun x hx => h x (by simp [hx])⟩

theorem exists_blocks (ls : List Str) : ∃ pre bs, (∀ l ∈ pre, ¬ Has imageStart l) ∧ IsBlocks bs ∧ ls = pre ++ bs.flatten := by
  induction ls with
  | nil => exact ⟨[], [], by simp, by intro b hb; simp at hb, rfl⟩
  | cons l ls ih =>
    obtain ⟨pre, bs, h1, h2, rfl⟩ := ih
    by_cases hl : Has imageStart l
    · refine ⟨[], (l :: pre) :: bs, by simp, ?_, by simp⟩
      intro b hb
      rcases List.mem_cons.1 hb with rfl | hb
      · exact ⟨l, pre, rfl, hl, h1⟩
      · exact h2 b hb
    · refine ⟨l :: pre, bs, ?_, h2, by simp⟩
      intro x hx
      rcases List.mem_cons.1 hx with rfl | hx
      · exact hl
      · exact h1 x hx

/-- Reading is safe: a file without functions of single images whose commas are where they should be is read or refused, without going outside a vector.
Missing: misplaced commas, and function sections (see C32). -/
theorem C45_safe_partial (nl : NumLib α) (k0 : Int) (file : Str) (hfun : ∀ l ∈ usable file, ¬ Has functionsStart l)
    (hc : ∀ l ∈ usable file, CommasRight l) :
    (∃ errs, readImageParams nl k0 file = .ok (.badLines errs)) ∨ ∃ is, readImageParams nl k0 file = .ok (.good is) := by
  by_cases hb : ∃ errs, readImageParams nl k0 file = .ok (.badLines errs)
  · exact Or.inl hb
  right
  have hn := (not_congr (C45_refused nl k0 file)).1 hb
  push Not at hn
  obtain ⟨hn1, hn2, hn3⟩ := hn
  have hu := usable_kept file
  have h2 : ∀ l ∈ usable file, ∀ w, (words l).head? = some w → w ∈ imgKeys → 2 ≤ (words l).length := by
    intro l hl w hw hm
    by_cases hp : PlainLine l
    · have h3 := hn3 l hl hp
      refine h3.trans ?_
      have := tokens_length_prefix isBlank (before '#' l) (l.dropWhile (· != '#'))
      unfold before at this ⊢
      rwa [List.takeWhile_append_dropWhile] at this
    · have hi : Has imageStart l := by
        by_contra hi
        exact hp ⟨hi, hfun l hl⟩
      by_contra hlt
      obtain ⟨w', ws, hws⟩ := words_kept (hu l hl)
      have e : ws = [] := by
        cases ws with
        | nil => rfl
        | cons x ws => rw [hws] at hlt; simp at hlt
      subst e
      have hww : w' = w := by rw [hws] at hw; simpa using hw
      subst hww
      have hno : ∀ w ∈ imgKeys, ¬ Has imageStart w := by decide
      exact hno _ hm (has_word (by decide) hi hws)
  obtain ⟨pre, bs, hpre, hbs, he⟩ := exists_blocks (usable file)
  have hmem : ∀ b ∈ bs, ∀ l ∈ b, l ∈ usable file := fun b hb l hl => by
    rw [he, List.mem_append, List.mem_flatten]; exact Or.inr ⟨b, hb, hl⟩
  have hblocks : ∀ cs : List (List Str), (∀ b ∈ cs, b ∈ bs) → ∃ is, readImageBlocks nl cs = .ok (some is) := by
    intro cs hcs
    induction cs with
    | nil => exact ⟨[], rfl⟩
    | cons b cs ih =>
      obtain ⟨is, his⟩ := ih fun x hx => hcs x (by simp [hx])
      have hbm := hmem b (hcs b (by simp))
      obtain ⟨r, hr, h0⟩ := addInfoLoop_safe nl b (fun l hl => hu l (hbm l hl)) (fun l hl _ => h2 l (hbm l hl)) (fun l hl => hc l (hbm l hl)) 0
        ImgInfo.init
      unfold readImageBlocks readImageBlock addInfoFromLines
      rw [hr, ok_bind, h0 fun l hl => hfun l (hbm l hl), if_neg (by omega), ok_bind]
      simp only [his, ok_bind]
      exact ⟨_, rfl⟩
  obtain ⟨is, his⟩ := hblocks bs fun b hb => hb
  refine ⟨is, ?_⟩
  unfold readImageParams
  rw [keepLines_usable, ok_bind]
  have hv : vetInputLines nl k0 (usable file) = .ok [] := by
    unfold vetInputLines
    rw [if_neg hn1]
    obtain ⟨r, hr, -, hr0⟩ := vetImageLoop_eq nl k0 (usable file) hu
    rw [hr0.2 fun l hl hp => hn3 l hl hp] at hr
    obtain ⟨l, hl, hhl⟩ := hn2
    have ha : (usable file).any (hasSub iImageStart) = true := List.any_eq_true.2 ⟨l, hl, (has_iff _ _).2 hhl⟩
    rw [hr, ok_bind, if_pos ha]
  rw [hv, ok_bind, if_neg (by simp), he, imageStarts_none pre hpre, Nat.zero_add, imageBlocks_eq bs hbs, his]
  rfl

end Imfit
