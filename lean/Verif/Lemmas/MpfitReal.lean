import Verif.Lemmas.MpfitFull
import Verif.Props.C73
import Verif.Props.C95

/-!
# The turns of `mpfit` in exact arithmetic
-/

namespace Imfit
open XR Finset Spec Matrix

/-! ### Lists of real numbers -/

theorem loopAcc_run {β σ : Type} {f : ℕ → σ → Res (β × σ)} (I : σ → Prop) (R : ℕ → β → Prop) {s : σ} (h0 : I s) (n : ℕ)
    (hstep : ∀ z t, z < n → I t → ∃ q, f z t = .ok q ∧ I q.2 ∧ R z q.1) :
    ∃ r, loopAcc n s f = .ok r ∧ I r.2 ∧ r.1.length = n ∧ ∀ z (hz : z < r.1.length), R z r.1[z] := by
  induction n with
  | zero => exact ⟨_, rfl, h0, rfl, fun z hz => absurd hz (by simp)⟩
  | succ n ih =>
    obtain ⟨r, h1, h2, h3, h4⟩ := ih fun z t hz => hstep z t (by omega)
    obtain ⟨q, h5, h6, h7⟩ := hstep n r.2 (by omega) h2
    refine ⟨(r.1 ++ [q.1], q.2), by simp only [loopAcc, h1, ok_bind, h5]; rfl, h6, by simp [h3], fun z hz => ?_⟩
    simp only [List.length_append, List.length_cons, List.length_nil] at hz
    by_cases e : z < r.1.length
    · rw [List.getElem_append_left e]; exact h4 z e
    · have : z = n := by omega
      subst this
      rw [List.getElem_append_right (by omega)]
      simpa using h7

theorem loopMap_run {β : Type} {f : ℕ → Res β} (R : ℕ → β → Prop) (n : ℕ) (hstep : ∀ z, z < n → ∃ q, f z = .ok q ∧ R z q) :
    ∃ r, loopMap n f = .ok r ∧ r.length = n ∧ ∀ z (hz : z < r.length), R z r[z] := by
  induction n with
  | zero => exact ⟨_, rfl, rfl, fun z hz => absurd hz (by simp)⟩
  | succ n ih =>
    obtain ⟨r, h1, h3, h4⟩ := ih fun z hz => hstep z (by omega)
    obtain ⟨q, h5, h7⟩ := hstep n (by omega)
    refine ⟨r ++ [q], by simp only [loopMap, h1, ok_bind, h5]; rfl, by simp [h3], fun z hz => ?_⟩
    simp only [List.length_append, List.length_cons, List.length_nil] at hz
    by_cases e : z < r.length
    · rw [List.getElem_append_left e]; exact h4 z e
    · have : z = n := by omega
      subst this
      rw [List.getElem_append_right (by omega)]
      simpa using h7

theorem exists_reals {n : ℕ} {l : List XR} (hl : l.length = n) {P : Fin n → ℝ → Prop} (h : ∀ (j : Fin n) (hj : (j : ℕ) < l.length), ∃ r, l[(j : ℕ)] = fin r ∧ P j r) :
    ∃ v : Fin n → ℝ, l = reals v ∧ ∀ j, P j (v j) := by
  choose v hv using fun j : Fin n => h j (by rw [hl]; exact j.2)
  refine ⟨v, List.ext_getElem (by rw [reals_length, hl]) fun k h1 h2 => ?_, fun j => (hv j).2⟩
  have := (hv ⟨k, by omega⟩).1
  simp only at this
  rw [this]
  simp [reals]

theorem ofEntries_reals {n : ℕ} (v : Fin n → ℝ) {j : ℕ} (h : j < n) : ofEntries (reals v) j = fin (v ⟨j, h⟩) := by
  simp [ofEntries, reals, h]

theorem reals_inj {n : ℕ} {v w : Fin n → ℝ} (h : reals v = reals w) : v = w := by
  funext j
  have e1 := ofEntries_reals v j.2
  have e2 := ofEntries_reals w j.2
  rw [h, e2] at e1
  exact (XR.fin.inj e1).symm

/-! ### The free parameters among all of them -/

/-- `ifree` -/
abbrev freeList {p n : ℕ} (fr : Fin n → Fin p) : List ℕ := List.ofFn fun j => (fr j : ℕ)

theorem freeList_rd {p n : ℕ} (fr : Fin n → Fin p) (j : Fin n) : rd (freeList fr) j = .ok (fr j : ℕ) := by
  rw [rd_ok (by simp)]
  simp

open Classical in
/-- Writing the free parameters into the vector of all parameters. -/
theorem scatter_reals {p n : ℕ} {fr : Fin n → Fin p} (hfr : Function.Injective fr) (u : Fin n → ℝ) (z : Fin p → ℝ) :
    scatter (freeList fr) (reals u) (reals z) = .ok (reals (Function.extend fr u z)) := by
  unfold scatter
  rw [forN_ok (freeList fr).length _ _ (fun i => reals fun k => if ∃ j : Fin n, (j : ℕ) < i ∧ fr j = k then Function.extend fr u z k else z k)]
  · congr 2
    funext k
    by_cases h : ∃ j, fr j = k
    · rw [if_pos]
      obtain ⟨j, hj⟩ := h
      exact ⟨j, by simp, hj⟩
    · rw [if_neg fun ⟨j, _, hj⟩ => h ⟨j, hj⟩, Function.extend_apply' _ _ _ h]
  · simp
  · intro i hi
    have hn : i < n := by simpa using hi
    have e1 := freeList_rd fr ⟨i, hn⟩
    have e2 := reals_rd u ⟨i, hn⟩
    simp only at e1 e2
    rw [e1, e2]
    simp only [ok_bind]
    rw [reals_wr]
    congr 2
    funext k
    by_cases hk : k = fr ⟨i, hn⟩
    · subst hk
      rw [Function.update_self, if_pos ⟨_, Nat.lt_succ_self i, rfl⟩, hfr.extend_apply]
    · rw [Function.update_of_ne hk]
      congr 1
      refine propext ⟨fun ⟨j, h1, h2⟩ => ⟨j, by omega, h2⟩, fun ⟨j, h1, h2⟩ => ⟨j, ?_, h2⟩⟩
      rcases Nat.lt_succ_iff_lt_or_eq.1 h1 with h | h
      · exact h
      · exfalso
        apply hk
        rw [← h2]
        congr 1
        exact Fin.ext h

/-! ### The new point -/

/-- The part of the step that is taken is a number that is not negative. -/
theorem shorten_real {l : Spec.Limit} {q : FreeLim XR} (hd : Describes l q) {x : ℝ} (hx : l.Within x) (w w1 : ℝ) {a : ℝ} (ha : 0 ≤ a) :
    ∃ b, shorten q (fin x) (fin w) (fin w1) (fin a) = fin b ∧ 0 ≤ b := by
  obtain ⟨q1, q2, q3, q4⟩ := hd
  unfold shorten
  simp only [q1, q2]
  have first : ∃ a1, (if flt (lit MACHEP0) (fabs (fin w)) && l.lower.isSome && flt (fin x + fin w1) q.ll then dmin (fin a) ((q.ll - fin x) / fin w1) else fin a) = fin a1 ∧ 0 ≤ a1 := by
    split
    · rename_i hc
      simp only [Bool.and_eq_true] at hc
      obtain ⟨⟨_, hs⟩, hlt⟩ := hc
      obtain ⟨c, hc⟩ := Option.isSome_iff_exists.1 hs
      rw [q3 c hc] at hlt ⊢
      simp only [fin_add, flt_fin, decide_eq_true_eq] at hlt
      have := hx.1 c hc
      rw [fin_sub, fin_div_of_ne (by intro h0; rw [h0] at hlt; linarith), mp_dmin_fin]
      exact ⟨_, rfl, le_min ha (div_nonneg_of_nonpos (by linarith) (by linarith))⟩
    · exact ⟨a, rfl, ha⟩
  obtain ⟨a1, h1, h2⟩ := first
  rw [h1]
  split
  · rename_i hc
    simp only [Bool.and_eq_true] at hc
    obtain ⟨⟨_, hs⟩, hlt⟩ := hc
    obtain ⟨c, hc⟩ := Option.isSome_iff_exists.1 hs
    rw [q4 c hc] at hlt ⊢
    simp only [fin_add, flt_fin, decide_eq_true_eq] at hlt
    have := hx.2 c hc
    rw [fin_sub, fin_div_of_ne (by intro h0; rw [h0] at hlt; linarith), mp_dmin_fin]
    exact ⟨_, rfl, le_min h2 (div_nonneg (by linarith) (by linarith))⟩
  · exact ⟨a1, rfl, h2⟩

theorem pegged_real (l : FreeLim XR) (x : XR) (w : ℝ) : ∃ r, pegged l x (fin w) = fin r := by
  rcases pegged_or l x (fin w) with h | h <;> exact ⟨_, h⟩

theorem LimitArrays.describes {n : ℕ} {lims : List (FreeLim XR)} {ls : Fin n → Limit} (h : LimitArrays lims ls) (ha : anyLim lims = true) (j : Fin n) :
    ∃ hj : (j : ℕ) < lims.length, Describes (ls j) lims[(j : ℕ)] := by
  rcases h with ⟨rfl, _⟩ | ⟨hlen, hd⟩
  · simp [anyLim] at ha
  · have hjl : (j : ℕ) < lims.length := by rw [hlen]; exact j.2
    exact ⟨hjl, hd j _ (List.getElem?_eq_getElem hjl)⟩

theorem LimitArrays.free {n : ℕ} {lims : List (FreeLim XR)} {ls : Fin n → Limit} (h : LimitArrays lims ls) (ha : anyLim lims ≠ true) (j : Fin n) :
    (ls j).Free := by
  rcases h with ⟨rfl, h⟩ | ⟨hlen, hd⟩
  · exact h j
  have hjl : (j : ℕ) < lims.length := by rw [hlen]; exact j.2
  have hq := hd j _ (List.getElem?_eq_getElem hjl)
  unfold anyLim at ha
  rw [ne_eq, List.any_eq_true] at ha
  have h2 : ¬(lims[(j : ℕ)].ql || lims[(j : ℕ)].qu) = true := fun e => ha ⟨_, List.getElem_mem hjl, e⟩
  rw [hq.ql, hq.qu] at h2
  simpa [Limit.Free] using h2

theorem free_within {l : Limit} (h : l.Free) (r : ℝ) : l.Within r := ⟨by simp [h.1], by simp [h.2]⟩

/-- For a finite direction the step taken and the new point are finite; the new point is within the limits. -/
theorem newPoint_reals {n : ℕ} {lims : List (FreeLim XR)} {ls : Fin n → Limit} (hl : LimitArrays lims ls) (x : Fin n → ℝ) (hx : ∀ j, (ls j).Within (x j))
    (w : Fin n → ℝ) :
    ∃ (v s : Fin n → ℝ) (alpha : ℝ), newPoint lims (reals x) (reals w) = .ok (reals v, fin alpha) ∧ takenStep lims (reals x) (reals w) = .ok (reals s) ∧
      0 ≤ alpha ∧ (∀ j, (ls j).Within (v j)) ∧ (anyLim lims ≠ true → v = x - w ∧ s = -w ∧ alpha = 1) := by
  unfold newPoint takenStep
  rw [reals_length]
  by_cases ha : anyLim lims = true
  · rw [if_pos ha, if_pos ha]
    obtain ⟨r, h1, ⟨alpha, h2, h2'⟩, h3, h4⟩ := loopAcc_run (f := fun j alpha => do
      let l ← rd lims j
      let xj ← rd (reals x) j
      let d ← rd (reals w) j
      let w : XR := -d
      let w1 := pegged l xj w
      pure (w1, shorten l xj w w1 alpha)) (fun a => ∃ r, a = fin r ∧ 0 ≤ r) (fun _ b => ∃ r, b = fin r) (s := 1) ⟨1, rfl, zero_le_one⟩ n (by
        rintro z t hz ⟨a, rfl, ha0⟩
        obtain ⟨hj, hd⟩ := hl.describes ha ⟨z, hz⟩
        have e1 := reals_rd x ⟨z, hz⟩
        have e2 := reals_rd w ⟨z, hz⟩
        simp only at e1 e2 hj hd
        rw [rd_ok hj, e1, e2]
        simp only [ok_bind, fin_neg]
        obtain ⟨r, hr⟩ := pegged_real lims[z] (fin (x ⟨z, hz⟩)) (-w ⟨z, hz⟩)
        obtain ⟨b, hb, hb0⟩ := shorten_real hd (hx ⟨z, hz⟩) (-w ⟨z, hz⟩) r ha0
        rw [hr, hb]
        exact ⟨_, rfl, ⟨b, rfl, hb0⟩, r, rfl⟩)
    obtain ⟨q, h5, -⟩ := exists_reals (P := fun _ _ => True) h3 fun j hj => ⟨_, (h4 j hj).choose_spec, trivial⟩
    rw [h1]
    simp only [ok_bind]
    obtain ⟨v1, g1, g2, g3⟩ := loopMap_run (f := fun j => do
      let l ← rd lims j
      let xj ← rd (reals x) j
      let w ← rd r.1 j
      pure (snap l (xj + w * r.2))) (fun j b => ∃ (hj : j < n) (r : ℝ), b = fin r ∧ (ls ⟨j, hj⟩).Within r) n (by
        intro z hz
        obtain ⟨hj, hd⟩ := hl.describes ha ⟨z, hz⟩
        have e1 := reals_rd x ⟨z, hz⟩
        have e2 := reals_rd q ⟨z, hz⟩
        simp only at e1 e2 hj hd
        rw [rd_ok hj, h5, e1, e2, h2]
        simp only [ok_bind, fin_mul, fin_add]
        obtain ⟨b, hb, hb0⟩ := snap_within hd (hx ⟨z, hz⟩) (x ⟨z, hz⟩ + q ⟨z, hz⟩ * alpha)
        rw [hb]
        exact ⟨_, rfl, hz, b, rfl, hb0⟩)
    obtain ⟨v, h6, h7⟩ := exists_reals (P := fun j r => (ls j).Within r) g2 fun j hj => by
      obtain ⟨_, r, h1, h2⟩ := g3 j hj
      exact ⟨r, h1, h2⟩
    rw [g1]
    have g4 : (loopMap n fun j => do
      let w ← rd r.1 j
      pure (w * r.2)) = .ok (reals fun j => q j * alpha) := by
      refine loopMap_of_forall _ _ _ (reals_length _) fun j hj => ?_
      have hn : j < n := by simpa [reals] using hj
      have e2 := reals_rd q ⟨j, hn⟩
      simp only at e2
      rw [h5, e2, h2]
      simp [reals, fin_mul]
    rw [g4]
    refine ⟨v, _, alpha, ?_, rfl, h2', h7, fun h => absurd ha h⟩
    simp only [ok_bind]
    rw [h6, h2]
    rfl
  · rw [if_neg ha, if_neg ha]
    have g1 : (loopMap n fun j => do
      let xj ← rd (reals x) j
      let d ← rd (reals w) j
      pure (xj + -d)) = .ok (reals (x - w)) := by
      refine loopMap_of_forall _ _ _ (reals_length _) fun j hj => ?_
      have hn : j < n := by simpa [reals] using hj
      have e1 := reals_rd x ⟨j, hn⟩
      have e2 := reals_rd w ⟨j, hn⟩
      simp only at e1 e2
      rw [e1, e2]
      simp [reals, fin_add, fin_neg, sub_eq_add_neg]
    have g2 : (loopMap n fun j => do
      let d ← rd (reals w) j
      pure (-d)) = .ok (reals (-w)) := by
      refine loopMap_of_forall _ _ _ (reals_length _) fun j hj => ?_
      have hn : j < n := by simpa [reals] using hj
      have e2 := reals_rd w ⟨j, hn⟩
      simp only at e2
      rw [e2]
      simp [reals, fin_neg]
    rw [g1, g2]
    exact ⟨_, _, 1, rfl, rfl, zero_le_one, fun j => free_within (hl.free ha j) _, fun _ => ⟨rfl, rfl, rfl⟩⟩

end Imfit
