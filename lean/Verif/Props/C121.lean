import Verif.Props.C04
import Verif.Props.C05
import Verif.Props.C06
import Verif.Props.C120Image

/-!
# C121 — Fitting a section is fitting the whole with the rest masked
-/

namespace Imfit

open Spec XR

namespace Spec

/-- `i` is the section (beginning at column `dx` and row `dy`) of the input `I`, in which everything outside the section is masked. -/
structure SectionInput (dx dy : Nat) (i I : FitInput XR) : Prop where
  stat : i.stat = I.stat
  gain : i.gain = I.gain
  readNoise : i.readNoise = I.readNoise
  expTime : i.expTime = I.expTime
  nCombined : i.nCombined = I.nCombined
  sky : i.sky = I.sky
  right : dx + i.nCols ≤ I.nCols
  top : dy + i.nRows ≤ I.nRows
  data : ∀ r c, r < i.nRows → c < i.nCols → pix i.data (r * i.nCols + c) = pix I.data ((dy + r) * I.nCols + (dx + c))
  errors : ∀ r c, r < i.nRows → c < i.nCols → pix i.errors (r * i.nCols + c) = pix I.errors ((dy + r) * I.nCols + (dx + c))
  mask : ∀ r c, r < i.nRows → c < i.nCols → (Good i (r * i.nCols + c) ↔ Good I ((dy + r) * I.nCols + (dx + c)))
  rest : ∀ r c, r < I.nRows → c < I.nCols → ¬ (dy ≤ r ∧ r < dy + i.nRows ∧ dx ≤ c ∧ c < dx + i.nCols) → ¬ Good I (r * I.nCols + c)

/-- The model has the same values in the section and in that part of the whole. -/
def SameModel (dx dy : Nat) (i I : FitInput XR) (img IMG : List ℝ) : Prop :=
  ∀ r c, r < i.nRows → c < i.nCols → modelAt i img (r * i.nCols + c) = modelAt I IMG ((dy + r) * I.nCols + (dx + c))

end Spec

/-- The place of pixel `z` of the section in the whole. -/
def pixIn (dx dy : Nat) (i I : FitInput XR) (z : Nat) : Nat := (dy + z / i.nCols) * I.nCols + (dx + z % i.nCols)

variable {dx dy : Nat} {i I : FitInput XR}

/-- The characteristics are the same. -/
def Spec.SectionInput.chars (h : SectionInput dx dy i I) (c : Chars i) : Chars I :=
  ⟨c.gain, c.readNoise, c.expTime, c.sky, h.gain ▸ c.hgain, h.readNoise ▸ c.hrn, h.expTime ▸ c.hexp, h.sky ▸ c.hsky, c.pgain, c.prn, c.pexp, c.psky, h.nCombined ▸ c.pn⟩

theorem pix_parts (sh : Shapes i) {z : Nat} (hz : z < i.n) : z / i.nCols < i.nRows ∧ z % i.nCols < i.nCols ∧ z / i.nCols * i.nCols + z % i.nCols = z :=
  ⟨Nat.div_lt_of_lt_mul hz, Nat.mod_lt _ sh.cols, Nat.div_add_mod' z i.nCols⟩

theorem pixIn_lt (h : SectionInput dx dy i I) (sh : Shapes i) {z : Nat} (hz : z < i.n) : pixIn dx dy i I z < I.n := by
  obtain ⟨h1, h2, -⟩ := pix_parts sh hz
  have := h.right
  have := h.top
  exact ix_lt (by omega) (by omega)

theorem pixIn_inj (h : SectionInput dx dy i I) (sh : Shapes i) {z y : Nat} (hz : z < i.n) (hy : y < i.n) (e : pixIn dx dy i I z = pixIn dx dy i I y) : z = y := by
  obtain ⟨h1, h2, h3⟩ := pix_parts sh hz
  obtain ⟨g1, g2, g3⟩ := pix_parts sh hy
  have := h.right
  obtain ⟨a, b⟩ := ix_inj (by omega) (by omega) e
  rw [← h3, ← g3, show z / i.nCols = y / i.nCols by omega, show z % i.nCols = y % i.nCols by omega]

theorem data_in (h : SectionInput dx dy i I) (sh : Shapes i) {z : Nat} (hz : z < i.n) : pix I.data (pixIn dx dy i I z) = pix i.data z := by
  obtain ⟨h1, h2, h3⟩ := pix_parts sh hz
  have := h.data _ _ h1 h2
  rw [h3] at this
  exact this.symm

theorem errors_in (h : SectionInput dx dy i I) (sh : Shapes i) {z : Nat} (hz : z < i.n) : pix I.errors (pixIn dx dy i I z) = pix i.errors z := by
  obtain ⟨h1, h2, h3⟩ := pix_parts sh hz
  have := h.errors _ _ h1 h2
  rw [h3] at this
  exact this.symm

theorem used_in (h : SectionInput dx dy i I) (sh : Shapes i) {z : Nat} (hz : z < i.n) : Used I (pixIn dx dy i I z) ↔ Used i z := by
  obtain ⟨h1, h2, h3⟩ := pix_parts sh hz
  have hg := h.mask _ _ h1 h2
  rw [h3] at hg
  unfold Used
  rw [data_in h sh hz, errors_in h sh hz, ← h.stat]
  exact and_congr_left' hg.symm

theorem used_from (h : SectionInput dx dy i I) (SH : Shapes I) {Z : Nat} (hZ : Z < I.n) (hu : Used I Z) : ∃ z, z < i.n ∧ pixIn dx dy i I z = Z := by
  obtain ⟨h1, h2, h3⟩ := pix_parts SH hZ
  by_contra hn
  refine h.rest _ _ h1 h2 (fun hin => hn ?_) (by rw [h3]; exact hu.1)
  obtain ⟨a, b, c, d⟩ := hin
  refine ⟨(Z / I.nCols - dy) * i.nCols + (Z % I.nCols - dx), ix_lt (by omega) (by omega), ?_⟩
  unfold pixIn
  rw [div_ix _ (by omega), mod_ix _ (by omega), show dy + (Z / I.nCols - dy) = Z / I.nCols by omega, show dx + (Z % I.nCols - dx) = Z % I.nCols by omega, h3]

theorem weight_in (h : SectionInput dx dy i I) (sh : Shapes i) (c : Chars i) {z : Nat} (hz : z < i.n) (w : ℝ) : WeightIs (h.chars c) (pixIn dx dy i I z) w ↔ WeightIs c z w := by
  unfold WeightIs
  rw [data_in h sh hz, errors_in h sh hz, ← h.stat]
  have hv : ∀ d, (h.chars c).variance d = c.variance d := by
    intro d
    unfold Chars.variance Chars.effGain
    rw [← h.nCombined]
    rfl
  simp only [hv]

theorem weight_unique (c : Chars i) {z : Nat} {w w' : ℝ} (h : WeightIs c z w) (h' : WeightIs c z w') : w = w' := by
  unfold WeightIs at h h'
  cases hs : i.stat with
  | cash => rw [hs] at h h'; exact h.trans h'.symm
  | poissonMLR => rw [hs] at h h'; exact h.trans h'.symm
  | chi2Model => rw [hs] at h h'; exact h.trans h'.symm
  | chi2Data =>
    rw [hs] at h h'
    obtain ⟨d, d1, -, d3⟩ := h
    obtain ⟨e, e1, -, e3⟩ := h'
    have : d = e := XR.fin.inj (d1.symm.trans e1)
    rw [d3, e3, this]
  | chi2User code =>
    rw [hs] at h h'
    simp only at h h'
    by_cases h1 : code = 100
    · rw [if_pos h1] at h h'
      rcases h with ⟨r, r1, -, r3⟩ | ⟨r1, r2⟩ <;> rcases h' with ⟨q, q1, -, q3⟩ | ⟨q1, q2⟩
      · rw [r3, q3, XR.fin.inj (r1.symm.trans q1)]
      · rw [r1] at q1; rcases q1 with q1 | q1 <;> cases q1
      · rw [q1] at r1; rcases r1 with r1 | r1 <;> cases r1
      · rw [r2, q2]
    · rw [if_neg h1] at h h'
      by_cases h2 : code = 110
      · rw [if_pos h2] at h h'
        rcases h with ⟨r, r1, -, r3⟩ | ⟨r1, r2⟩ <;> rcases h' with ⟨q, q1, -, q3⟩ | ⟨q1, q2⟩
        · rw [r3, q3, XR.fin.inj (r1.symm.trans q1)]
        · rw [r1] at q1; cases q1
        · rw [q1] at r1; cases r1
        · rw [r2, q2]
      · rw [if_neg h2] at h h'
        obtain ⟨r, r1, -, r3⟩ := h
        obtain ⟨q, q1, -, q3⟩ := h'
        rw [r3, q3, XR.fin.inj (r1.symm.trans q1)]

theorem count_in (h : SectionInput dx dy i I) (sh : Shapes i) (SH : Shapes I) : count i.n (Used i) = count I.n (Used I) := by
  classical
  unfold count
  refine Finset.card_bij (fun z _ => pixIn dx dy i I z) ?_ ?_ ?_
  · intro z hz
    simp only [Finset.mem_filter, Finset.mem_range] at hz ⊢
    exact ⟨pixIn_lt h sh hz.1, (used_in h sh hz.1).2 hz.2⟩
  · intro a ha b hb e
    simp only [Finset.mem_filter, Finset.mem_range] at ha hb
    exact pixIn_inj h sh ha.1 hb.1 e
  · intro Z hZ
    simp only [Finset.mem_filter, Finset.mem_range] at hZ
    obtain ⟨z, h1, h2⟩ := used_from h SH hZ.1 hZ.2
    exact ⟨z, by simp only [Finset.mem_filter, Finset.mem_range]; exact ⟨h1, (used_in h sh h1).1 (h2 ▸ hZ.2)⟩, h2⟩

/-- The same number of pixels is used, and the one setup succeeds when the other does. -/
theorem C121_setup (h : SectionInput dx dy i I) (c : Chars i) (sh : Shapes i) (SH : Shapes I) :
    ∃ s st S St, runSetup i = .ok (s, st) ∧ runSetup I = .ok (S, St) ∧ s.nValid = S.nValid ∧ (st = 0 ↔ St = 0) := by
  refine ⟨_, _, _, _, runSetup_eq (c := c) sh, runSetup_eq (c := h.chars c) SH, ?_, ?_⟩
  · rw [run_nValid sh, run_nValid SH, count_in h sh SH]
  · rw [run_status sh, run_status SH]
    refine and_congr ⟨?_, ?_⟩ ⟨?_, ?_⟩
    · rintro ⟨z, h1, h2⟩
      exact ⟨_, pixIn_lt h sh h1, (used_in h sh h1).2 h2⟩
    · rintro ⟨Z, h1, h2⟩
      obtain ⟨z, g1, g2⟩ := used_from h SH h1 h2
      exact ⟨z, g1, (used_in h sh g1).1 (g2 ▸ h2)⟩
    · intro H Z h1 h2
      obtain ⟨z, g1, rfl⟩ := used_from h SH h1 h2
      obtain ⟨w, w1, w2⟩ := H z g1 ((used_in h sh g1).1 h2)
      exact ⟨w, w1, (weight_in h sh c g1 w).2 w2⟩
    · intro H z h1 h2
      obtain ⟨w, w1, w2⟩ := H _ (pixIn_lt h sh h1) ((used_in h sh h1).2 h2)
      exact ⟨w, w1, (weight_in h sh c h1 w).1 w2⟩

theorem sum_range_list (n : Nat) (f : Nat → ℝ) : ((List.range n).map f).sum = ∑ z ∈ Finset.range n, f z := by
  induction n with
  | zero => rfl
  | succ n ih => rw [List.range_succ, List.map_append, List.sum_append, Finset.sum_range_succ, ih]; simp

/-- Sums over the used pixels. -/
theorem sum_in (h : SectionInput dx dy i I) (sh : Shapes i) (SH : Shapes I) (f F : Nat → ℝ) (h1 : ∀ z, z < i.n → f z = F (pixIn dx dy i I z)) (h2 : ∀ Z, Z < I.n → ¬ Used I Z → F Z = 0) :
    ((List.range i.n).map f).sum = ((List.range I.n).map F).sum := by
  rw [sum_range_list, sum_range_list]
  refine Finset.sum_of_injOn (pixIn dx dy i I) ?_ ?_ ?_ ?_
  · intro a ha b hb e
    simp only [Finset.coe_range, Set.mem_Iio] at ha hb
    exact pixIn_inj h sh ha hb e
  · intro a ha
    simp only [Finset.coe_range, Set.mem_Iio] at ha ⊢
    exact pixIn_lt h sh ha
  · intro Z hZ hn
    refine h2 Z (Finset.mem_range.1 hZ) fun hu => hn ?_
    obtain ⟨z, g1, g2⟩ := used_from h SH (Finset.mem_range.1 hZ) hu
    exact ⟨z, by simpa using g1, g2⟩
  · intro z hz
    exact h1 z (Finset.mem_range.1 hz)

theorem model_in (sh : Shapes i) {img IMG : List ℝ} (hm : SameModel dx dy i I img IMG) {z : Nat} (hz : z < i.n) : modelAt I IMG (pixIn dx dy i I z) = modelAt i img z := by
  obtain ⟨h1, h2, h3⟩ := pix_parts sh hz
  have := hm _ _ h1 h2
  rw [h3] at this
  exact this.symm

/-- Chi-squared of the section and of the whole: both are the same sum of squares, except for what is lost at residuals that are not zero but at most 3.834e-20 (see C05). -/
theorem C121_chi2 (h : SectionInput dx dy i I) (c : Chars i) (sh : Shapes i) (SH : Shapes I) (s S : MO XR) (hrun : runSetup i = .ok (s, 0)) (hRun : runSetup I = .ok (S, 0))
    (hstat : i.stat ≠ .cash ∧ i.stat ≠ .poissonMLR) (img IMG : List ℝ) (hl : img.length = padLen i) (hL : IMG.length = padLen I) (hm : SameModel dx dy i I img IMG)
    (hpos : i.stat = .chi2Model → ∀ z, z < i.n → Used i z → 0 < c.modelVariance (modelAt i img z)) :
    ∃ t T v V, ∃ y : List ℝ, getFitStatistic (withModel s (img.map fin)) = .ok (t, fin v) ∧ getFitStatistic (withModel S (IMG.map fin)) = .ok (T, fin V) ∧
      (∃ t', computeDeviates (withModel s (img.map fin)) = .ok (t', y.map fin)) ∧ |v - V| ≤ I.n * smallSize ^ 2 ∧ ((∀ x ∈ y, x = 0 ∨ smallSize < |x|) → v = V) := by
  have hd : ∀ z, ∃ d : ℝ, Used I z → pix I.data z = fin d := by
    intro z
    by_cases hu : Used I z
    · obtain ⟨d, hd⟩ := hu.2.1
      exact ⟨d, fun _ => hd⟩
    · exact ⟨0, fun h => absurd h hu⟩
  choose D hD using hd
  have hvar : ∀ m, (h.chars c).modelVariance m = c.modelVariance m := by
    intro m
    unfold Chars.modelVariance Chars.effGain
    rw [← h.nCombined]
    rfl
  obtain ⟨w, w1, w2⟩ := C05_chi2_partial i c sh s hrun hstat img hl hpos (fun z => D (pixIn dx dy i I z)) (fun z hz hu => by
    rw [← data_in h sh hz]
    exact hD _ ((used_in h sh hz).2 hu))
  obtain ⟨W, W1, W2⟩ := C05_chi2_partial I (h.chars c) SH S hRun (h.stat ▸ hstat) IMG hL (fun hs Z hZ hu => by
    obtain ⟨z, g1, rfl⟩ := used_from h SH hZ hu
    rw [hvar, model_in sh hm g1]
    exact hpos (h.stat.trans hs) z g1 ((used_in h sh g1).1 hu)) D (fun Z _ hu => hD Z hu)
  have hw : ∀ z, z < i.n → Used i z → w z = W (pixIn dx dy i I z) := by
    intro z hz hu
    have a := (w1 z hz hu).2
    have b := (W1 _ (pixIn_lt h sh hz) ((used_in h sh hz).2 hu)).2
    unfold PixWeight at a b
    rw [← h.stat] at b
    by_cases hs : i.stat = .chi2Model
    · rw [if_pos hs] at a b
      rw [a.2, b.2, hvar, model_in sh hm hz]
    · rw [if_neg hs] at a b
      exact weight_unique c a ((weight_in h sh c hz _).1 b)
  have hr : ∀ z, z < i.n → resid i w (fun z => D (pixIn dx dy i I z)) img z = resid I W D IMG (pixIn dx dy i I z) := by
    intro z hz
    unfold resid
    by_cases hu : Used i z
    · rw [if_pos hu, if_pos ((used_in h sh hz).2 hu), hw z hz hu, model_in sh hm hz]
    · rw [if_neg hu, if_neg (fun h' => hu ((used_in h sh hz).1 h'))]
  have hsum : sumSq ((List.range i.n).map (resid i w (fun z => D (pixIn dx dy i I z)) img)) = sumSq ((List.range I.n).map (resid I W D IMG)) := by
    unfold sumSq
    rw [List.map_map, List.map_map]
    refine sum_in h sh SH _ _ (fun z hz => ?_) (fun Z _ hn => ?_)
    · simp only [Function.comp_apply, hr z hz]
    · simp only [Function.comp_apply, resid, if_neg hn]
      norm_num
  obtain ⟨⟨t', y1⟩, t, v, v1, v2, -, v4, v5, v6⟩ := w2 _ _ .plain
  obtain ⟨-, T, V, V1, V2, -, V4, V5, V6⟩ := W2 _ _ .plain
  refine ⟨t, T, v, V, _, v1, V1, ⟨t', y1⟩, ?_, fun hx => ?_⟩
  · simp only [List.length_map, List.length_range] at v6 V6
    have hn : (i.n : ℝ) ≤ I.n := by
      have a : i.n ≤ I.n := Nat.mul_le_mul (by have := h.right; omega) (by have := h.top; omega)
      exact_mod_cast a
    have hs := mul_le_mul_of_nonneg_right hn (sq_nonneg smallSize)
    rw [abs_le]
    constructor <;> linarith
  · rw [v4 (.inl hx), V4 (.inl fun x hX => ?_), hsum]
    obtain ⟨Z, hZ, rfl⟩ := List.mem_map.1 hX
    by_cases hu : Used I Z
    · obtain ⟨z, g1, rfl⟩ := used_from h SH (List.mem_range.1 hZ) hu
      rw [← hr z g1]
      exact hx _ (List.mem_map.2 ⟨z, List.mem_range.2 g1, rfl⟩)
    · left
      simp only [resid, if_neg hu]

/-- A left-to-right sum of finite terms. -/
theorem cashFold_fin (s : MO XR) (w d f e : Nat → XR) (q : Nat → ℝ) (T : List Nat) (h : ∀ b ∈ T, w b * cashTerm s.effGain s.sky (d b) (f b) (e b) = fin (q b)) :
    cashFold s w d f e T = fin ((T.map q).sum) := by
  have : ∀ (T : List Nat) (a : ℝ), (∀ b ∈ T, w b * cashTerm s.effGain s.sky (d b) (f b) (e b) = fin (q b)) →
      T.foldl (fun acc b => acc + w b * cashTerm s.effGain s.sky (d b) (f b) (e b)) (fin a) = fin (a + (T.map q).sum) := by
    intro T
    induction T with
    | nil => intro a _; simp
    | cons b T ih =>
      intro a h
      rw [List.foldl_cons, h b (by simp), fin_add, ih _ (fun b hb => h b (by simp [hb])), List.map_cons, List.sum_cons, add_assoc]
  unfold cashFold
  rw [show (0 : XR) = fin 0 from rfl, this T 0 h, zero_add]

/-- What the Cash statistic or Poisson-MLR is, for any finite model: twice the sum of the terms of the used pixels. -/
theorem cash_sum (c : Chars i) (sh : Shapes i) (hstat : i.stat = .cash ∨ i.stat = .poissonMLR) (img : List ℝ) (hl : img.length = padLen i)
    (hx : i.stat = .poissonMLR → ∀ z, z < i.n → ¬ Used i z → pix i.data z ≠ nan ∧ pix i.data z ≠ pinf) :
    ∃ q : Nat → ℝ, (∀ z, z < i.n → Used i z → cashTerm (fin c.effGain) (fin c.sky) (pix i.data z) (fin (modelAt i img z)) (fExtra i c z) = fin (q z)) ∧
      (∀ z, ¬ Used i z → q z = 0) ∧ ∃ t, getFitStatistic (withModel (runState i c) (img.map fin)) = .ok (t, fin (2 * ((List.range i.n).map q).sum)) := by
  have hg := effGain_pos c
  have hm : Mode i.n (count i.n (Used i)) (runState i c) (runState i c) (List.range i.n) := .plain
  obtain ⟨T0, IT⟩ := run_tabs0 (c := c) sh hm (img.map fin) (by simpa using hl)
  obtain ⟨-, heg, hsk, -, -, -, hcash, hex⟩ := mode_fields sh hm
  have hu : (withModel (runState i c) (img.map fin)).useCash = true := by
    show (runState i c).useCash = true
    rw [hcash]
    rcases hstat with h | h <;> rw [h]
  have he : (withModel (runState i c) (img.map fin)).extraVec = some (tab i.n (fExtra i c)) := run_extra sh hstat
  have heg' : (withModel (runState i c) (img.map fin)).effGain = fin c.effGain := heg
  have hsk' : (withModel (runState i c) (img.map fin)).sky = fin c.sky := hsk
  have hone : ∀ z, ∃ q : ℝ, (¬ Used i z → q = 0) ∧ (z < i.n →
      (Used i z → cashTerm (fin c.effGain) (fin c.sky) (pix i.data z) (fin (modelAt i img z)) (fExtra i c z) = fin q) ∧
      fWeight i c z * cashTerm (fin c.effGain) (fin c.sky) (fData i z) (imgAt (runState i c) (img.map fin) z) (fExtra i c z) = fin q) := by
    intro z
    by_cases hz : z < i.n
    · obtain ⟨a, ha⟩ := fData_fin i z
      obtain ⟨e, hee⟩ : ∃ e, fExtra i c z = fin e := by
        unfold fExtra
        by_cases hp : i.stat = .poissonMLR
        · rw [if_pos hp]
          refine extra_fin hg _ ?_ ?_ <;> by_cases hu : Used i z
          · obtain ⟨r, hr⟩ := hu.2.1; rw [hr]; intro h; cases h
          · exact (hx hp z hz hu).1
          · obtain ⟨r, hr⟩ := hu.2.1; rw [hr]; intro h; cases h
          · exact (hx hp z hz hu).2
        · rw [if_neg hp]; exact ⟨0, rfl⟩
      obtain ⟨q, hq⟩ := (isfin_iff _).1 (isfin_cashTerm hg c.sky a e (fin (modelAt i img z)))
      by_cases hu : Used i z
      · refine ⟨q, fun h => absurd hu h, fun _ => ⟨fun _ => ?_, ?_⟩⟩
        · obtain ⟨r, hr⟩ := hu.2.1
          have := fData_pix hr
          rw [hr, hee]
          rw [ha] at this
          rw [← this, hq]
        · have hw1 : fWeight i c z = fin 1 := fWeight_pix sh hu zero_le_one (by unfold WeightIs; rcases hstat with h | h <;> rw [h])
          rw [hw1, modelIndex_spec sh, ha, hee, hq, fin_mul, one_mul]
      · refine ⟨0, fun _ => rfl, fun _ => ⟨fun h => absurd h hu, ?_⟩⟩
        have hw0 : fWeight i c z = fin 0 := by unfold fWeight; simp [hu]
        rw [hw0, modelIndex_spec sh, ha, hee, hq, fin_mul, zero_mul]
    · exact ⟨0, fun _ => rfl, fun h => absurd h hz⟩
  choose q q0 hq using hone
  refine ⟨q, fun z hz hu => (hq z hz).1 hu, q0, ?_⟩
  unfold getFitStatistic
  rw [hu, if_pos rfl, cashStatistic_terms T0 IT he, cashFold_fin _ _ _ _ _ q _ fun b hb => ?_]
  · refine ⟨withModel (runState i c) (img.map fin), ?_⟩
    have e : ∀ x : ℝ, (lit 2 : XR) * fin x = fin (2 * x) := by
      intro x
      rw [lit_def, fin_mul]
      norm_num
    rw [e]
    rfl
  · rw [heg', hsk']
    exact (hq b (List.mem_range.1 hb)).2

/-- The Cash statistic of the section and of the whole is the same number for every finite model. So is Poisson-MLR, unless data outside the mask are NaN or `+inf` (missing: those, see C03). -/
theorem C121_cash_partial (h : SectionInput dx dy i I) (c : Chars i) (sh : Shapes i) (SH : Shapes I) (s S : MO XR) (st St : Int) (hrun : runSetup i = .ok (s, st)) (hRun : runSetup I = .ok (S, St))
    (hstat : i.stat = .cash ∨ i.stat = .poissonMLR) (img IMG : List ℝ) (hl : img.length = padLen i) (hL : IMG.length = padLen I) (hm : SameModel dx dy i I img IMG)
    (hx : i.stat = .poissonMLR → ∀ Z, Z < I.n → ¬ Used I Z → pix I.data Z ≠ nan ∧ pix I.data Z ≠ pinf) :
    ∃ t T v, getFitStatistic (withModel s (img.map fin)) = .ok (t, fin v) ∧ getFitStatistic (withModel S (IMG.map fin)) = .ok (T, fin v) := by
  rw [runSetup_eq (c := c) sh] at hrun
  rw [runSetup_eq (c := h.chars c) SH] at hRun
  obtain ⟨rfl, -⟩ := Prod.mk.inj (Except.ok.inj hrun)
  obtain ⟨rfl, -⟩ := Prod.mk.inj (Except.ok.inj hRun)
  obtain ⟨q, q1, q2, t, q3⟩ := cash_sum c sh hstat img hl (fun hp z hz hu => by
    rw [← data_in h sh hz]
    exact hx hp _ (pixIn_lt h sh hz) fun h' => hu ((used_in h sh hz).1 h'))
  obtain ⟨Q, Q1, Q2, T, Q3⟩ := cash_sum (h.chars c) SH (h.stat ▸ hstat) IMG hL (fun hp => hx (h.stat.trans hp))
  refine ⟨t, T, _, q3, ?_⟩
  rw [Q3, sum_in h sh SH q Q (fun z hz => ?_) fun Z _ hn => Q2 Z hn]
  by_cases hu : Used i z
  · have a := q1 z hz hu
    have b := Q1 _ (pixIn_lt h sh hz) ((used_in h sh hz).2 hu)
    have e1 : (h.chars c).effGain = c.effGain := by unfold Chars.effGain; rw [← h.nCombined]; rfl
    have e2 : fExtra I (h.chars c) (pixIn dx dy i I z) = fExtra i c z := by
      unfold fExtra
      rw [e1, data_in h sh hz, ← h.stat]
      rfl
    rw [e1, data_in h sh hz, e2, model_in sh hm hz] at b
    exact XR.fin.inj (a.symm.trans b)
  · rw [q2 z hu, Q2 _ fun h' => hu ((used_in h sh hz).1 h')]

theorem create_keeps {m m' : Img XR} {ps : List XR} (h : createModelImage m ps = .ok m') : m'.geom = m.geom ∧ m'.conv = m.conv := by
  unfold createModelImage at h
  cases h1 : setupFns ps (m.fns.zip m.starts) ⟨0, 0, 0⟩ with
  | error e => rw [h1] at h; cases h
  | ok r =>
    rw [h1, ok_bind] at h
    cases h2 : fillImage m.geom.n (mainX m.geom) (mainY m.geom) r.1 with
    | error e => rw [h2] at h; cases h
    | ok v =>
      rw [h2, ok_bind] at h
      simp only at h
      cases h3 : pointStep m r.1 (applyConv m.conv v) with
      | error e => rw [h3] at h; cases h
      | ok p =>
        rw [h3, ok_bind] at h
        cases h4 : computeRegions m.regions p.1 p.2 with
        | error e => rw [h4] at h; cases h
        | ok q =>
          rw [h4, ok_bind] at h
          injection h with h
          rw [← h]
          exact ⟨rfl, rfl⟩

/-- The PSF of the input is that of the model. -/
def Spec.PsfOf (i : FitInput XR) (m : Img XR) : Prop := i.psf = if m.conv.isSome then some (m.geom.psfCols, m.geom.psfRows) else none

theorem cut_model {i : FitInput XR} {m m' : Img XR} (hf : Fits m i.nCols i.nRows) (hp : PsfOf i m) (h1 : m'.geom = m.geom) (h2 : m'.conv = m.conv) {img : List ℝ} (hl : img.length = m.geom.n)
    (hv : m'.modelVec = img.map fin) {l : List XR} (hc : cutOut m' i.nCols i.nRows = .ok l) {r k : Nat} (hr : r < i.nRows) (hk : k < i.nCols) :
    l[r * i.nCols + k]? = some (fin (modelAt i img (r * i.nCols + k))) := by
  have hv' : m'.modelVec = tab m.geom.n fun z => fin (img.getD z 0) := by
    rw [hv]
    refine List.ext_getElem? fun z => ?_
    by_cases hz : z < m.geom.n
    · rw [tab_at _ hz, List.getElem?_map, List.getD_eq_getElem?_getD, List.getElem?_eq_getElem (by omega)]
      rfl
    · rw [List.getElem?_eq_none (by rw [List.length_map]; omega), List.getElem?_eq_none (by rw [tab_length]; omega)]
  rw [cutOut_eq m m' i.nCols i.nRows hf h1 h2 _ hv'] at hc
  injection hc with hc
  rw [← hc, tab_at _ (ix_lt hr hk)]
  congr 2
  unfold modelAt
  congr 1
  rw [div_ix _ hk, mod_ix _ hk]
  unfold padIndex
  rw [hp]
  cases hcv : m.conv with
  | none =>
    obtain ⟨e1, e2, e3, e4⟩ := hf.bare hcv
    simp only [Option.isSome_none, Bool.false_eq_true, if_false, insideAt, e1, e3, e4]
    ring
  | some g =>
    obtain ⟨e1, e2⟩ := hf.pad (by rw [hcv]; rfl)
    simp only [Option.isSome_some, if_true, insideAt, e1, div_ix _ hk, mod_ix _ hk]
    ring

/-- The models that the program computes for the section and for the whole have the same values in the section, so that C121_chi2 and C121_cash_partial apply to them.
Missing: regions that stick out, as in C120. -/
theorem C121_model_partial {m M M' : Img XR} (h : SectionModel m M dx dy i.nCols i.nRows I.nCols I.nRows) (hp : PsfOf i m) (hP : PsfOf I M) (sets : List (SetVals XR)) (hw : WellFormed sets)
    (hm : Matches M.fns sets) (hst : M.starts = (flagged (sizesOf sets)).map Prod.snd) (hs : ∀ s ∈ sets, Movable M.conv.isSome s)
    (hok : createModelImage M (paramVector sets) = .ok M') :
    ∃ m', createModelImage m (paramVector (sets.map (SetVals.seenFrom dx dy))) = .ok m' ∧
      ∀ img IMG : List ℝ, img.length = m.geom.n → IMG.length = M.geom.n → m'.modelVec = img.map fin → M'.modelVec = IMG.map fin → SameModel dx dy i I img IMG := by
  obtain ⟨m', a, b, h1, h2, h3, -, h4⟩ := C120_section_partial h sets hw hm hst hs hok
  refine ⟨m', h1, fun img IMG l1 l2 v1 v2 r k hr hk => ?_⟩
  obtain ⟨v, e1, e2⟩ := h4 r k hr hk
  have r1 := h.right
  have r2 := h.top
  rw [cut_model h.part hp (create_keeps h1).1 (create_keeps h1).2 l1 v1 h2 hr hk] at e1
  rw [cut_model h.whole hP (create_keeps hok).1 (create_keeps hok).2 l2 v2 h3 (show dy + r < I.nRows by omega) (show dx + k < I.nCols by omega)] at e2
  exact XR.fin.inj (Option.some.inj (e1.trans e2.symm))

/-! ## A case -/

/-- A row of three pixels 4, 9, 25 with the first masked. -/
noncomputable def exRow : FitInput XR :=
  { nCols := 3, nRows := 1, data := [fin 4, fin 9, fin 25], psf := none, mask := some ([fin 1, fin 0, fin 0], 10), errors := [],
    stat := .chi2Data, gain := fin 1, readNoise := fin 0, expTime := fin 1, nCombined := 1, sky := fin 0 }

/-- The last two pixels of it, without a mask. -/
noncomputable def exRowEnd : FitInput XR :=
  { nCols := 2, nRows := 1, data := [fin 9, fin 25], psf := none, mask := none, errors := [],
    stat := .chi2Data, gain := fin 1, readNoise := fin 0, expTime := fin 1, nCombined := 1, sky := fin 0 }

example : SectionInput 1 0 exRowEnd exRow ∧ SameModel 1 0 exRowEnd exRow [10, 20] [7, 10, 20] := by
  refine ⟨⟨rfl, rfl, rfl, rfl, rfl, rfl, by decide, by decide, ?_, ?_, ?_, ?_⟩, ?_⟩
  · intro r c hr hc
    have hr : r = 0 := Nat.lt_one_iff.1 hr
    subst hr
    have : c < 2 := hc
    interval_cases c <;> simp [exRowEnd, exRow, pix]
  · intro r c hr hc
    simp [exRowEnd, exRow, pix]
  · intro r c hr hc
    have hr : r = 0 := Nat.lt_one_iff.1 hr
    subst hr
    have : c < 2 := hc
    interval_cases c <;> simp [exRowEnd, exRow, Good, MaskGood, pix]
  · intro r c hr hc hn
    have hr : r = 0 := Nat.lt_one_iff.1 hr
    subst hr
    have : c < 3 := hc
    interval_cases c
    · simp [exRow, Good, MaskGood, pix]
    · exact absurd (by decide) hn
    · exact absurd (by decide) hn
  · intro r c hr hc
    have hr : r = 0 := Nat.lt_one_iff.1 hr
    subst hr
    have : c < 2 := hc
    interval_cases c <;> simp [exRowEnd, exRow, modelAt, padIndex]

end Imfit
