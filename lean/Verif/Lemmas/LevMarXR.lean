import Verif.Lemmas.LevMar
import Verif.Spec.Box
import Verif.Props.C39

/-!
# Levenberg-Marquardt in exact arithmetic
-/

namespace Imfit

open XR

/-! ### The step -/

theorem loopAcc_inv {β σ : Type} {n : Nat} {s : σ} {f : Nat → σ → Res (β × σ)} {r : List β × σ} (I : σ → Prop) (R : Nat → β → Prop) (h0 : I s)
    (hstep : ∀ z t q, z < n → I t → f z t = .ok q → I q.2 ∧ R z q.1) (h : loopAcc n s f = .ok r) :
    I r.2 ∧ ∀ z (hz : z < r.1.length), R z r.1[z] := by
  induction n generalizing r with
  | zero => simp only [loopAcc] at h; cases h; exact ⟨h0, fun z hz => absurd hz (by simp)⟩
  | succ n ih =>
    simp only [loopAcc] at h
    obtain ⟨p, hp, h⟩ := bind_ok h
    obtain ⟨q, hq, h⟩ := bind_ok h
    cases h
    obtain ⟨a, b⟩ := ih (fun z t q hz => hstep z t q (by omega)) hp
    obtain ⟨c, d⟩ := hstep n p.2 q (by omega) a hq
    refine ⟨c, ?_⟩
    intro z hz
    have hl := (loopAcc_get hp).1
    simp only [List.length_append, List.length_cons, List.length_nil] at hz
    by_cases e : z < p.1.length
    · rw [List.getElem_append_left e]; exact b z e
    · have : z = n := by omega
      subst this
      rw [List.getElem_append_right (by omega)]
      simpa using d

/-- The limits of a free parameter as the program stores them. -/
structure Describes (l : Spec.Limit) (q : FreeLim XR) : Prop where
  ql : q.ql = l.lower.isSome
  qu : q.qu = l.upper.isSome
  ll : ∀ a, l.lower = some a → q.ll = fin a
  ul : ∀ b, l.upper = some b → q.ul = fin b

theorem machep_pos : (0 : ℝ) < ((MACHEP0 : ℚ) : ℝ) := by unfold MACHEP0; norm_num

theorem upperEdge_fin (u : ℝ) : ∃ e, upperEdge (fin u) = fin e ∧ e ≤ u := by
  have hm := machep_pos
  unfold upperEdge feq
  simp only [zero_def, one_def, lit_def, fle_fin]
  rcases lt_trichotomy u 0 with h | h | h
  · refine ⟨u * (1 - -1 * ((MACHEP0 : ℚ) : ℝ)) - 0, ?_, by nlinarith⟩
    simp [not_le.2 h]
  · subst h
    refine ⟨0 * (1 - 1 * ((MACHEP0 : ℚ) : ℝ)) - ((MACHEP0 : ℚ) : ℝ), ?_, by linarith⟩
    simp
  · refine ⟨u * (1 - 1 * ((MACHEP0 : ℚ) : ℝ)) - 0, ?_, by nlinarith⟩
    simp [not_le.2 h, h.le]

theorem lowerEdge_fin (u : ℝ) : ∃ e, lowerEdge (fin u) = fin e ∧ u ≤ e := by
  have hm := machep_pos
  unfold lowerEdge feq
  simp only [zero_def, one_def, lit_def, fle_fin]
  rcases lt_trichotomy u 0 with h | h | h
  · refine ⟨u * (1 + -1 * ((MACHEP0 : ℚ) : ℝ)) + 0, ?_, by nlinarith⟩
    simp [not_le.2 h]
  · subst h
    refine ⟨0 * (1 + 1 * ((MACHEP0 : ℚ) : ℝ)) + ((MACHEP0 : ℚ) : ℝ), ?_, by linarith⟩
    simp
  · refine ⟨u * (1 + 1 * ((MACHEP0 : ℚ) : ℝ)) + 0, ?_, by nlinarith⟩
    simp [not_le.2 h, h.le]

/-- After snapping, a finite value is within the limits. -/
theorem snap_within {l : Spec.Limit} {q : FreeLim XR} (hd : Describes l q) {r0 : ℝ} (h0 : l.Within r0) (v : ℝ) :
    ∃ r, snap q (fin v) = fin r ∧ l.Within r := by
  obtain ⟨fx, lo, up⟩ := l
  obtain ⟨q1, q2, q3, q4⟩ := hd
  unfold snap
  simp only [q1, q2]
  cases lo with
  | none =>
    cases up with
    | none => exact ⟨v, by simp, by simp, by simp⟩
    | some b =>
      obtain ⟨e, he, hle⟩ := upperEdge_fin b
      rw [q4 b rfl]
      simp only [Option.isSome_some, Option.isSome_none, Bool.true_and, Bool.false_and, he, fle_fin, decide_eq_true_eq]
      by_cases hv : e ≤ v
      · exact ⟨b, by simp [hv], by simp, by simp⟩
      · exact ⟨v, by simp [hv], by simp, by simp; linarith [not_le.1 hv]⟩
  | some a =>
    obtain ⟨d, hd, hge⟩ := lowerEdge_fin a
    rw [q3 a rfl]
    cases up with
    | none =>
      simp only [Option.isSome_some, Option.isSome_none, Bool.true_and, Bool.false_and, hd, Bool.false_eq_true, if_false, fle_fin, decide_eq_true_eq]
      by_cases hv : v ≤ d
      · exact ⟨a, by simp [hv], by simp, by simp⟩
      · exact ⟨v, by simp [hv], by simp; linarith [not_le.1 hv], by simp⟩
    | some b =>
      have hab : a ≤ b := (h0.1 a rfl).trans (h0.2 b rfl)
      obtain ⟨e, he, hle⟩ := upperEdge_fin b
      rw [q4 b rfl]
      simp only [Option.isSome_some, Bool.true_and, he, hd, fle_fin, decide_eq_true_eq]
      by_cases hv : e ≤ v
      · simp only [hv, if_true, fle_fin, decide_eq_true_eq]
        by_cases hb : b ≤ d
        · exact ⟨a, by simp [hb], by simp, by simpa⟩
        · exact ⟨b, by simp [hb], by simpa, by simp⟩
      · simp only [hv, if_false, fle_fin, decide_eq_true_eq]
        by_cases hb : v ≤ d
        · exact ⟨a, by simp [hb], by simp, by simpa⟩
        · exact ⟨v, by simp [hb], by simp; linarith [not_le.1 hb], by simp; linarith [not_le.1 hv]⟩

theorem pegged_or (l : FreeLim XR) (x w : XR) : pegged l x w = w ∨ pegged l x w = fin 0 := by
  unfold pegged
  simp only [zero_def]
  split <;> split <;> simp

theorem dmin_fin (a b : ℝ) : ∃ c, dmin (fin a) (fin b) = fin c := by
  unfold dmin
  split
  · exact ⟨a, rfl⟩
  · exact ⟨b, rfl⟩

/-- The fraction of the step stays finite. -/
theorem shorten_fin {l : Spec.Limit} {q : FreeLim XR} (hd : Describes l q) {x : ℝ} (hx : l.Within x) (w w1 a : ℝ) :
    ∃ b, shorten q (fin x) (fin w) (fin w1) (fin a) = fin b := by
  obtain ⟨q1, q2, q3, q4⟩ := hd
  unfold shorten
  simp only [q1, q2]
  have first : ∃ a1, (if flt (lit MACHEP0) (fabs (fin w)) && l.lower.isSome && flt (fin x + fin w1) q.ll then dmin (fin a) ((q.ll - fin x) / fin w1) else fin a) = fin a1 := by
    split
    · rename_i hc
      simp only [Bool.and_eq_true] at hc
      obtain ⟨⟨_, hs⟩, hlt⟩ := hc
      obtain ⟨c, hc⟩ := Option.isSome_iff_exists.1 hs
      rw [q3 c hc] at hlt ⊢
      simp only [fin_add, flt_fin, decide_eq_true_eq] at hlt
      have := hx.1 c hc
      rw [fin_sub, fin_div_of_ne (by intro h0; rw [h0] at hlt; linarith)]
      exact dmin_fin _ _
    · exact ⟨a, rfl⟩
  obtain ⟨a1, h1⟩ := first
  rw [h1]
  split
  · rename_i hc
    simp only [Bool.and_eq_true] at hc
    obtain ⟨⟨_, hs⟩, hlt⟩ := hc
    obtain ⟨c, hc⟩ := Option.isSome_iff_exists.1 hs
    rw [q4 c hc] at hlt ⊢
    simp only [fin_add, flt_fin, decide_eq_true_eq] at hlt
    have := hx.2 c hc
    rw [fin_sub, fin_div_of_ne (by intro h0; rw [h0] at hlt; linarith)]
    exact dmin_fin _ _
  · exact ⟨a1, rfl⟩

/-- The new point is finite and within the limits if the direction is finite. -/
theorem newPoint_within {ls : Nat → Spec.Limit} {lims : List (FreeLim XR)} {x dir : List XR} (hl : ∀ j (h : j < lims.length), Describes (ls j) lims[j])
    (hx : ∀ j (h : j < x.length), ∃ r, x[j] = fin r ∧ (ls j).Within r) (hlen : (∀ j r, (ls j).Within r) ∨ lims.length = x.length) (hdir : AllFin dir)
    {p : List XR × XR} (h : newPoint lims x dir = .ok p) : ∀ j (h : j < p.1.length), ∃ r, p.1[j] = fin r ∧ (ls j).Within r := by
  have hrd : ∀ {j : Nat} {a : XR}, rd x j = .ok a → ∃ r, a = fin r ∧ (ls j).Within r := by
    intro j a ha
    obtain ⟨hj, rfl⟩ := rd_eq_ok_iff.1 ha
    exact hx j hj
  unfold newPoint at h
  split at h
  · obtain ⟨q, hq, h⟩ := bind_ok h
    obtain ⟨w, hw, h⟩ := bind_ok h
    cases h
    have hfin := loopAcc_inv (fun a : XR => ∃ r, a = fin r) (fun _ (b : XR) => ∃ r, b = fin r) ⟨1, rfl⟩ (by
      intro z t u hz ht hu
      obtain ⟨l, hl', hu⟩ := bind_ok hu
      obtain ⟨xj, hxj, hu⟩ := bind_ok hu
      obtain ⟨d, hd, hu⟩ := bind_ok hu
      cases hu
      obtain ⟨r, rfl, hr⟩ := hrd hxj
      obtain ⟨d, rfl⟩ := rd_fin hdir hd
      obtain ⟨a, rfl⟩ := ht
      obtain ⟨hzl, rfl⟩ := rd_eq_ok_iff.1 hl'
      obtain ⟨w1, hw1⟩ : ∃ w1, pegged lims[z] (fin r) (-fin d) = fin w1 := by
        rcases pegged_or lims[z] (fin r) (-fin d) with e | e
        · exact ⟨_, e⟩
        · exact ⟨_, e⟩
      simp only [hw1]
      refine ⟨?_, w1, rfl⟩
      exact shorten_fin (hl z hzl) hr (-d) w1 a) hq
    obtain ⟨⟨al, hal⟩, hw1⟩ := hfin
    obtain ⟨_, hw2⟩ := loopMap_elems hw
    intro j hj
    have := hw2 j hj
    obtain ⟨l, hl', this⟩ := bind_ok this
    obtain ⟨xj, hxj, this⟩ := bind_ok this
    obtain ⟨wj, hwj, this⟩ := bind_ok this
    obtain ⟨r, rfl, hr⟩ := hrd hxj
    obtain ⟨hjl, rfl⟩ := rd_eq_ok_iff.1 hl'
    obtain ⟨hjw, rfl⟩ := rd_eq_ok_iff.1 hwj
    obtain ⟨c, hc⟩ := hw1 j hjw
    rw [hc, hal, fin_mul, fin_add] at this
    obtain ⟨e, he, hin⟩ := snap_within (hl j hjl) hr (r + c * al)
    rw [he] at this
    exact ⟨e, (Except.ok.inj this).symm, hin⟩
  · rename_i hany
    obtain ⟨w, hw, h⟩ := bind_ok h
    cases h
    obtain ⟨hwl, hw2⟩ := loopMap_elems hw
    intro j hj
    have := hw2 j hj
    obtain ⟨xj, hxj, this⟩ := bind_ok this
    obtain ⟨d, hd, this⟩ := bind_ok this
    obtain ⟨r, rfl, hr⟩ := hrd hxj
    obtain ⟨d, rfl⟩ := rd_fin hdir hd
    refine ⟨r + -d, (Except.ok.inj this).symm, ?_⟩
    rcases hlen with he | hlen
    · exact he j _
    · have hjl : j < lims.length := by simp only at hj; omega
      have hD := hl j hjl
      have : (lims[j].ql || lims[j].qu) = false := by
        have h1 : ¬ (anyLim lims = true) := hany
        unfold anyLim at h1
        rw [List.any_eq_true] at h1
        have h2 := fun (e : (lims[j].ql || lims[j].qu) = true) => h1 ⟨lims[j], List.getElem_mem hjl, e⟩
        simpa using h2
      rw [hD.ql, hD.qu] at this
      simp only [Bool.or_eq_false_iff, Option.isSome_eq_false_iff, Option.isNone_iff_eq_none] at this
      exact ⟨by simp [this.1], by simp [this.2]⟩

/-! ### The derivative points -/

/-- The size of the finite difference at the value `r`. -/
noncomputable def fdSize (r : ℝ) : ℝ := if r = 0 then Real.sqrt ((MACHEP0 : ℚ) : ℝ) else Real.sqrt ((MACHEP0 : ℚ) : ℝ) * |r|

theorem fdSize_pos (r : ℝ) : 0 < fdSize r := by
  have := Real.sqrt_pos.2 machep_pos
  unfold fdSize
  split
  · exact this
  · rename_i h; exact mul_pos this (abs_pos.2 h)

theorem fdEps_eq : (fdEps : XR) = fin (Real.sqrt ((MACHEP0 : ℚ) : ℝ)) := by
  unfold fdEps dmax
  simp [machep_pos.le]

theorem fdH_fin (r : ℝ) : fdH (fin r) = fin (fdSize r) := by
  have hp := Real.sqrt_pos.2 machep_pos
  unfold fdH fdSize feq
  simp only [fdEps_eq, fabs_fin, fin_mul, zero_def, fle_fin]
  by_cases h : r = 0
  · simp [h]
  · have := mul_pos hp (abs_pos.2 h)
    simp [h, not_le.2 this]

/-- The limits are far enough apart for a finite difference. -/
def WideEnough (l : Spec.Limit) : Prop :=
  ∀ a b r, l.lower = some a → l.upper = some b → a ≤ r → r ≤ b → 2 * fdSize r ≤ b - a

theorem fdStep_within {l : Spec.Limit} {q : Option (FreeLim XR)} (hd : ∀ q', q = some q' → Describes l q') (hnone : q = none → l.upper = none)
    (hw : WideEnough l) {r : ℝ} (hr : l.Within r) : ∃ e, fin r + fdStep q (fin r) = fin e ∧ l.Within e := by
  have hp := fdSize_pos r
  unfold fdStep
  simp only [fdH_fin]
  cases q with
  | none =>
    refine ⟨r + fdSize r, rfl, ?_, ?_⟩
    · intro a ha; linarith [hr.1 a ha]
    · intro b hb; rw [hnone rfl] at hb; cases hb
  | some q =>
    obtain ⟨q1, q2, q3, q4⟩ := hd q rfl
    simp only [q2]
    split
    · rename_i hc
      simp only [Bool.and_eq_true] at hc
      obtain ⟨hs, hlt⟩ := hc
      obtain ⟨b, hb⟩ := Option.isSome_iff_exists.1 hs
      rw [q4 b hb] at hlt
      simp only [fin_sub, flt_fin, decide_eq_true_eq] at hlt
      refine ⟨r + -fdSize r, rfl, ?_, ?_⟩
      · intro a ha
        have := hw a b r ha hb (hr.1 a ha) (hr.2 b hb)
        linarith
      · intro b' hb'; linarith [hr.2 b' hb']
    · rename_i hc
      refine ⟨r + fdSize r, rfl, ?_, ?_⟩
      · intro a ha; linarith [hr.1 a ha]
      · intro b hb
        simp only [hb, q4 b hb, Option.isSome_some, Bool.true_and, fin_sub, flt_fin, decide_eq_true_eq, not_lt] at hc
        linarith

/-! ### Norms -/

/-- Not negative, if it is a number. -/
def NonNeg (x : XR) : Prop := x = nan ∨ x = pinf ∨ ∃ r, 0 ≤ r ∧ x = fin r

theorem NonNeg.add {x y : XR} (hx : NonNeg x) (hy : NonNeg y) : NonNeg (x + y) := by
  rcases hx with rfl | rfl | ⟨r, hr, rfl⟩ <;> rcases hy with rfl | rfl | ⟨s, hs, rfl⟩
  all_goals first
    | exact Or.inl rfl
    | exact Or.inr (Or.inl rfl)
    | exact Or.inr (Or.inr ⟨_, add_nonneg hr hs, rfl⟩)

theorem nonNeg_infSign {r : ℝ} (h : 0 ≤ r) : NonNeg (infSign r) := by
  unfold infSign
  split
  · exact Or.inr (Or.inl rfl)
  · rw [if_neg (not_lt.2 h)]; exact Or.inl rfl

theorem NonNeg.mul {x y : XR} (hx : NonNeg x) (hy : NonNeg y) : NonNeg (x * y) := by
  rcases hx with rfl | rfl | ⟨r, hr, rfl⟩ <;> rcases hy with rfl | rfl | ⟨s, hs, rfl⟩
  all_goals first
    | exact Or.inl rfl
    | exact Or.inr (Or.inl rfl)
    | exact nonNeg_infSign ‹_›
    | exact Or.inr (Or.inr ⟨_, mul_nonneg hr hs, rfl⟩)

theorem nonNeg_sq (x : XR) : NonNeg (x * x) := by
  cases x with
  | fin r => exact Or.inr (Or.inr ⟨_, mul_self_nonneg r, rfl⟩)
  | pinf => exact Or.inr (Or.inl rfl)
  | ninf => exact Or.inr (Or.inl rfl)
  | nan => exact Or.inl rfl

theorem NonNeg.div {x y : XR} (hx : NonNeg x) (hy : NonNeg y) : NonNeg (x / y) := by
  rcases hx with rfl | rfl | ⟨r, hr, rfl⟩ <;> rcases hy with rfl | rfl | ⟨s, hs, rfl⟩
  · exact Or.inl rfl
  · exact Or.inl rfl
  · exact Or.inl rfl
  · exact Or.inl rfl
  · exact Or.inl rfl
  · right; left
    show (if s < 0 then ninf else pinf) = pinf
    rw [if_neg (not_lt.2 hs)]
  · exact Or.inl rfl
  · exact Or.inr (Or.inr ⟨0, le_refl _, rfl⟩)
  · rw [fin_div]
    split
    · exact nonNeg_infSign hr
    · exact Or.inr (Or.inr ⟨_, div_nonneg hr hs, rfl⟩)

theorem NonNeg.sqrt {x : XR} (hx : NonNeg x) : NonNeg (fsqrt x) := by
  rcases hx with rfl | rfl | ⟨r, hr, rfl⟩
  · exact Or.inl rfl
  · exact Or.inr (Or.inl rfl)
  · rw [fsqrt_fin_of_nonneg hr]; exact Or.inr (Or.inr ⟨_, Real.sqrt_nonneg r, rfl⟩)

theorem nonNeg_fabs (x : XR) : NonNeg (fabs x) := by
  cases x with
  | fin r => exact Or.inr (Or.inr ⟨_, abs_nonneg r, rfl⟩)
  | pinf => exact Or.inr (Or.inl rfl)
  | ninf => exact Or.inr (Or.inl rfl)
  | nan => exact Or.inl rfl

theorem nonNeg_one : NonNeg (1 : XR) := Or.inr (Or.inr ⟨1, by norm_num, rfl⟩)

theorem nonNeg_zero : NonNeg (0 : XR) := Or.inr (Or.inr ⟨0, le_refl _, rfl⟩)

/-- All members of the state of `mp_enorm` are nonnegative. -/
structure ENonNeg (st : EnormState XR) : Prop where
  s1 : NonNeg st.s1
  s2 : NonNeg st.s2
  s3 : NonNeg st.s3
  x1 : NonNeg st.x1max
  x3 : NonNeg st.x3max

theorem enormStep_nonNeg {a : XR} {st : EnormState XR} (h : ENonNeg st) (x : XR) : ENonNeg (enormStep a st x) := by
  have hx := nonNeg_fabs x
  unfold enormStep
  simp only
  split
  · exact ⟨h.s1, h.s2.add (hx.mul hx), h.s3, h.x1, h.x3⟩
  · split
    · split
      · exact ⟨nonNeg_one.add ((h.s1.mul (h.x1.div hx)).mul (h.x1.div hx)), h.s2, h.s3, hx, h.x3⟩
      · exact ⟨h.s1.add ((hx.div h.x1).mul (hx.div h.x1)), h.s2, h.s3, h.x1, h.x3⟩
    · split
      · exact ⟨h.s1, h.s2, nonNeg_one.add ((h.s3.mul (h.x3.div hx)).mul (h.x3.div hx)), h.x1, hx⟩
      · split
        · exact ⟨h.s1, h.s2, h.s3.add ((hx.div h.x3).mul (hx.div h.x3)), h.x1, h.x3⟩
        · exact h

/-- A norm is not negative. -/
theorem mpEnorm_nonNeg (x : List XR) : NonNeg (mpEnorm x) := by
  unfold mpEnorm
  simp only
  have H : ∀ (l : List XR) (a : XR) (st : EnormState XR), ENonNeg st → ENonNeg (l.foldl (enormStep a) st) := by
    intro l a
    induction l with
    | nil => intro st h; exact h
    | cons y t ih => intro st h; exact ih _ (enormStep_nonNeg h y)
  have h := H x (lit RGIANT / lit (x.length : ℚ)) ⟨0, 0, 0, 0, 0⟩ ⟨nonNeg_zero, nonNeg_zero, nonNeg_zero, nonNeg_zero, nonNeg_zero⟩
  unfold enormFinish
  split
  · exact h.x1.mul (h.s1.add ((h.s2.div h.x1).div h.x1)).sqrt
  · split
    · split
      · exact (h.s2.mul (nonNeg_one.add ((h.x3.div h.s2).mul (h.x3.mul h.s3)))).sqrt
      · exact (h.x3.mul ((h.s2.div h.x3).add (h.x3.mul h.s3))).sqrt
    · exact h.x3.mul h.s3.sqrt

/-- The predicted reduction is not negative; if the norm is infinite it is zero or not a number. -/
theorem preRed_nonNeg (la : InnerLA XR) (alpha fnorm : XR) : NonNeg (preRed la alpha fnorm).1 := by
  unfold preRed
  simp only
  refine (nonNeg_sq _).add ((nonNeg_sq _).div ?_)
  exact Or.inr (Or.inr ⟨_, by norm_num, rfl⟩)

theorem div_pinf (x : XR) : x / pinf = nan ∨ x / pinf = fin 0 := by
  cases x
  · exact Or.inr rfl
  · exact Or.inl rfl
  · exact Or.inl rfl
  · exact Or.inl rfl

theorem preRed_pinf (la : InnerLA XR) (alpha : XR) : (preRed la alpha pinf).1 = nan ∨ (preRed la alpha pinf).1 = fin 0 := by
  unfold preRed
  simp only
  rcases div_pinf (la.jnorm * alpha) with h1 | h1 <;> rcases div_pinf (fsqrt (alpha * la.par) * la.pnorm) with h2 | h2
  · left; rw [h1]; simp
  · left; rw [h1]; simp
  · left; rw [h2]
    simp only [nan_mul]
    show _ + nan = nan
    simp
  · right
    rw [h1, h2]
    simp only [fin_mul, lit_def]
    rw [fin_div_of_ne (by norm_num), fin_add]
    norm_num

/-- A step is accepted only if the norm decreases. -/
theorem accept_lt {la : InnerLA XR} {alpha f f1 : XR} (hf : NonNeg f) (hf1 : NonNeg f1)
    (h : fle (lit (1 / 10000)) (gainRatio (actRed f f1) (preRed la alpha f).1) = true) : ∃ a b, f = fin a ∧ f1 = fin b ∧ 0 ≤ b ∧ b < a := by
  have hpre := preRed_nonNeg la alpha f
  have hinf := preRed_pinf la alpha
  -- the predicted reduction is a positive number
  have hp : ∃ p, 0 < p ∧ (preRed la alpha f).1 = fin p := by
    rcases hpre with hp | hp | ⟨p, hp0, hp⟩
    · rw [hp] at h
      exfalso
      unfold gainRatio at h
      cases hA : actRed f f1 <;> rw [hA] at h <;> simp [feq, FP.fle, XR.le'] at h <;> revert h <;> simp [HDiv.hDiv, Div.div, XR.div]
    · rw [hp] at h
      exfalso
      unfold gainRatio at h
      have : feq (pinf : XR) 0 = false := rfl
      rw [this] at h
      simp only [Bool.false_eq_true, if_false] at h
      rcases div_pinf (actRed f f1) with e | e <;> rw [e] at h
      · cases h
      · simp only [lit_def, fle_fin, decide_eq_true_eq] at h; norm_num at h
    · rcases hp0.eq_or_lt with rfl | hp0
      · exfalso
        rw [hp] at h
        unfold gainRatio at h
        simp only [feq, zero_def, fle_fin, le_refl, decide_true, Bool.and_self, if_true, lit_def, decide_eq_true_eq] at h
        norm_num at h
      · exact ⟨p, hp0, hp⟩
  obtain ⟨p, hp0, hp⟩ := hp
  rw [hp] at h
  have hne : feq (fin p) (0 : XR) = false := by simp [feq, not_le.2 hp0]
  unfold gainRatio at h
  rw [hne] at h
  simp only [Bool.false_eq_true, if_false] at h
  -- so the actual reduction is positive
  unfold actRed at h
  split at h
  swap
  · exfalso
    simp only [one_def, fin_neg] at h
    rw [fin_div_of_ne hp0.ne'] at h
    simp only [lit_def, fle_fin, decide_eq_true_eq] at h
    have : (-1 : ℝ) / p < 0 := div_neg_of_neg_of_pos (by norm_num) hp0
    have h2 : (0 : ℝ) < ((1 / 10000 : ℚ) : ℝ) := by norm_num
    linarith
  rename_i hlt
  rcases hf with rfl | rfl | ⟨a, ha, rfl⟩
  · exfalso; revert hlt; cases (lit (1 / 10) * f1 : XR) <;> simp [FP.flt, XR.lt']
  · exfalso
    rcases hinf with e | e <;> rw [e] at hp
    · cases hp
    · rw [XR.fin.injEq] at hp; linarith
  · rcases ha.eq_or_lt with rfl | ha
    · exfalso
      rcases hf1 with rfl | rfl | ⟨b, hb, rfl⟩
      · cases hlt
      · revert hlt
        simp only [lit_def]
        have : fin (((1 / 10 : ℚ)) : ℝ) * pinf = pinf := by
          show infSign _ = pinf
          exact infSign_pos (by norm_num)
        rw [this]
        intro hlt; cases hlt
      · simp only [lit_def, fin_mul, flt_fin, decide_eq_true_eq] at hlt
        have : 0 ≤ (((1 / 10 : ℚ)) : ℝ) * b := mul_nonneg (by norm_num) hb
        linarith
    · rcases hf1 with rfl | rfl | ⟨b, hb, rfl⟩
      · exfalso; cases hlt
      · exfalso
        revert hlt
        simp only [lit_def]
        have : fin (((1 / 10 : ℚ)) : ℝ) * pinf = pinf := by
          show infSign _ = pinf
          exact infSign_pos (by norm_num)
        rw [this]
        intro hlt; cases hlt
      · refine ⟨a, b, rfl, rfl, hb, ?_⟩
        rw [fin_div_of_ne ha.ne', fin_mul, one_def, fin_sub, fin_div_of_ne hp0.ne'] at h
        simp only [lit_def, fle_fin, decide_eq_true_eq] at h
        have h2 : (0 : ℝ) < ((1 / 10000 : ℚ) : ℝ) := by norm_num
        have h3 : 0 < (1 - b / a * (b / a)) / p := lt_of_lt_of_le h2 h
        have h4 : 0 < 1 - b / a * (b / a) := by
          by_contra hc
          have := div_nonpos_of_nonpos_of_nonneg (not_lt.1 hc) hp0.le
          linarith
        by_contra hc
        have h5 : 1 ≤ b / a := (one_le_div ha).2 (not_lt.1 hc)
        nlinarith

end Imfit
