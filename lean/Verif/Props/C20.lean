import Verif.Model.Bootstrap
import Verif.Lemmas.FitTerms
import Verif.Props.C04

/-!
# C20 — bootstrap samples use only valid pixels
-/

namespace Imfit

open Spec XR

variable {α : Type} [FP α]

/-- The draws at stream positions `p, …, p+len-1`, as pixel indices. -/
def bootDraws (n : Nat) (rng : Nat → Nat) (p len : Nat) : List Nat :=
  (List.range len).map fun j => drawIndex n (rng (p + j))

/-- A weight image `w` together with the number of valid pixels `nv`, as held by an object ready for bootstrap. -/
structure BootReady (s : MO α) (w : List α) (nv : Nat) : Prop where
  hw : s.weightVec = some w
  hlen : w.length = s.nDataVals
  hnv : s.nValid = some (nv : Int)
  hidx : ∀ l, s.bootIdx = some l → l.length = nv

/-- Positive weight. -/
def PosW (w : List α) (b : Nat) : Bool :=
  match w[b]? with
  | some x => flt 0 x
  | none => false

theorem drawIndex_lt {n k : Nat} (hn : 0 < n) (hk : k < 2 ^ 32) : drawIndex n k < n := by
  unfold drawIndex
  have h := (Nat.mul_lt_mul_left hn).2 hk
  rw [Nat.div_lt_iff_lt_mul (by positivity)]
  linarith

theorem draws_append (n : Nat) (rng : Nat → Nat) (p a b : Nat) :
    bootDraws n rng p (a + b) = bootDraws n rng p a ++ bootDraws n rng (p + a) b := by
  unfold bootDraws
  rw [List.range_add, List.map_append, List.map_map]
  congr 1
  apply List.map_congr_left
  intro j _
  simp [Nat.add_assoc]

/-- One pick: the skipped draws have no positive weight, the last one has. -/
theorem pickIndex_ok {s : MO α} {w : List α} (hw : s.weightVec = some w) {rng : Nat → Nat} {fuel p : Nat} {q : Nat × Nat}
    (h : pickIndex s rng fuel p = .ok q) :
    PosW w q.1 = true ∧ p < q.2 ∧ (bootDraws s.nDataVals rng p (q.2 - p)).filter (PosW w) = [q.1] := by
  induction fuel generalizing p with
  | zero => cases h
  | succ f ih =>
    unfold pickIndex at h
    rw [hw] at h
    cases hr : rdp (some w) (drawIndex s.nDataVals (rng p)) with
    | error e => rw [hr] at h; cases h
    | ok x =>
      rw [hr] at h
      simp only at h
      have hx : w[drawIndex s.nDataVals (rng p)]? = some x := by
        have : rd w (drawIndex s.nDataVals (rng p)) = .ok x := hr
        rw [rd_eq_ok_iff] at this
        obtain ⟨h1, h2⟩ := this
        rw [List.getElem?_eq_getElem h1, h2]
      have hP : PosW w (drawIndex s.nDataVals (rng p)) = flt 0 x := by unfold PosW; rw [hx]
      cases hf : flt 0 x with
      | true =>
        rw [hf] at h hP
        simp only [if_true, Except.ok.injEq] at h
        subst h
        refine ⟨hP, Nat.lt_succ_self p, ?_⟩
        simp [bootDraws, hP]
      | false =>
        rw [hf] at h hP
        simp only [Bool.false_eq_true, if_false] at h
        obtain ⟨h1, h2, h3⟩ := ih h
        refine ⟨h1, by omega, ?_⟩
        have : q.2 - p = 1 + (q.2 - (p + 1)) := by omega
        rw [this, draws_append, List.filter_append, h3]
        simp [bootDraws, hP]

/-- The only way one pick fails is to run for ever. -/
theorem pickIndex_err {s : MO α} {w : List α} {nv : Nat} (hb : BootReady s w nv) (hn : 0 < s.nDataVals) {rng : Nat → Nat}
    (hr : ∀ k, rng k < 2 ^ 32) {fuel p : Nat} {e : Fault} (h : pickIndex s rng fuel p = .error e) : e = .diverge := by
  induction fuel generalizing p with
  | zero => cases h; rfl
  | succ f ih =>
    unfold pickIndex at h
    have hlt : drawIndex s.nDataVals (rng p) < w.length := by rw [hb.hlen]; exact drawIndex_lt hn (hr p)
    have : rdp s.weightVec (drawIndex s.nDataVals (rng p)) = .ok w[drawIndex s.nDataVals (rng p)] := by
      rw [hb.hw]; exact rd_ok hlt
    rw [this] at h
    simp only at h
    split at h
    · cases h
    · exact ih h

/-- A pick ends once the stream hits a pixel of positive weight within the fuel. -/
theorem pickIndex_term {s : MO α} {w : List α} {nv : Nat} (hb : BootReady s w nv) (hn : 0 < s.nDataVals) {rng : Nat → Nat}
    (hr : ∀ k, rng k < 2 ^ 32) (d p fuel : Nat) (hd : PosW w (drawIndex s.nDataVals (rng (p + d))) = true) (hf : d < fuel) :
    ∃ q, pickIndex s rng fuel p = .ok q ∧ q.2 ≤ p + d + 1 := by
  induction fuel generalizing p d with
  | zero => omega
  | succ f ih =>
    unfold pickIndex
    have hlt : drawIndex s.nDataVals (rng p) < w.length := by rw [hb.hlen]; exact drawIndex_lt hn (hr p)
    have : rdp s.weightVec (drawIndex s.nDataVals (rng p)) = .ok w[drawIndex s.nDataVals (rng p)] := by
      rw [hb.hw]; exact rd_ok hlt
    rw [this]
    simp only
    cases hh : flt 0 w[drawIndex s.nDataVals (rng p)] with
    | true => exact ⟨_, rfl, by simp only; omega⟩
    | false =>
      have hd0 : d ≠ 0 := by
        rintro rfl
        unfold PosW at hd
        simp only [Nat.add_zero, List.getElem?_eq_getElem hlt, hh] at hd
        cases hd
      obtain ⟨q, h1, h2⟩ := ih (d - 1) (p + 1) (by rw [show p + 1 + (d - 1) = p + d by omega]; exact hd) (by omega)
      exact ⟨q, by simpa using h1, by omega⟩

/-- **Soundness.** Whenever sampling returns, the object changes only in its index list `T`; `T` has exactly as many entries as there are
valid pixels; every entry is inside the image and has positive weight; and `T` is exactly the sequence of those random bootDraws,
in order, that hit a pixel of positive weight. -/
theorem C20_sample (s : MO α) (w : List α) (nv : Nat) (hb : BootReady s w nv) (rng : Nat → Nat) (fuel p : Nat) (s' : MO α) (p' : Nat)
    (h : makeBootstrapSample s rng fuel p = .ok (s', p')) :
    ∃ T, s' = { s with bootIdx := some T } ∧ T.length = nv ∧ (∀ b ∈ T, ∃ x, w[b]? = some x ∧ flt 0 x = true) ∧
      p ≤ p' ∧ T = (bootDraws s.nDataVals rng p (p' - p)).filter (PosW w) := by
  unfold makeBootstrapSample at h
  have hnv : nValidNat s = nv := by unfold nValidNat; rw [hb.hnv]; simp
  rw [hnv] at h
  generalize hidx0 : bootBuffer s = idx0 at h
  have hl0 : idx0.length = nv := by
    unfold bootBuffer at hidx0
    cases hbi : s.bootIdx with
    | none => rw [hbi] at hidx0; subst hidx0; simp [hnv]
    | some l => rw [hbi] at hidx0; subst hidx0; exact hb.hidx l hbi
  cases hfor : forN nv (idx0, p) (fun k st => do
      let q ← pickIndex s rng fuel st.2
      let l ← wr st.1 k q.1
      pure (l, q.2)) with
  | error e => rw [hfor] at h; cases h
  | ok r =>
    rw [hfor] at h
    simp only [ok_bind, pure_eq_ok, Except.ok.injEq, Prod.mk.injEq] at h
    obtain ⟨rfl, rfl⟩ := h
    have inv := forN_inv nv (idx0, p) r _ (fun k st => st.1.length = nv ∧ p ≤ st.2 ∧
      st.1.take k = (bootDraws s.nDataVals rng p (st.2 - p)).filter (PosW w)) ?_ ?_ hfor
    · obtain ⟨h1, h2, h3⟩ := inv
      refine ⟨r.1, rfl, h1, ?_, h2, ?_⟩
      · intro b hbm
        rw [← h1, List.take_length] at h3
        rw [h3, List.mem_filter] at hbm
        have := hbm.2
        unfold PosW at this
        cases hwb : w[b]? with
        | none => rw [hwb] at this; cases this
        | some x => rw [hwb] at this; exact ⟨x, rfl, this⟩
      · rw [← h1, List.take_length] at h3; exact h3
    · exact ⟨hl0, le_refl p, by simp [bootDraws]⟩
    · intro z t t' hz hI ht
      obtain ⟨i1, i2, i3⟩ := hI
      cases hp : pickIndex s rng fuel t.2 with
      | error e => rw [hp] at ht; cases ht
      | ok q =>
        rw [hp] at ht
        simp only [ok_bind] at ht
        rw [wr_ok (by rw [i1]; exact hz)] at ht
        simp only [ok_bind, pure_eq_ok, Except.ok.injEq] at ht
        subst ht
        obtain ⟨k1, k2, k3⟩ := pickIndex_ok hb.hw hp
        refine ⟨by simp [i1], by simp only; omega, ?_⟩
        simp only
        have e : q.2 - p = (t.2 - p) + (q.2 - t.2) := by omega
        rw [e, draws_append, List.filter_append, ← i3, show p + (t.2 - p) = t.2 by omega, k3]
        rw [List.take_add_one, List.getElem?_set_self (by omega), List.take_set_of_le (le_refl z)]
        rfl

/-- **No other failure.** Sampling never reads or writes outside the weight image or the index list: the only way not to return is to
keep drawing. -/
theorem C20_no_fault (s : MO α) (w : List α) (nv : Nat) (hb : BootReady s w nv) (hn : 0 < s.nDataVals) (rng : Nat → Nat)
    (hr : ∀ k, rng k < 2 ^ 32) (fuel p : Nat) :
    (∃ r, makeBootstrapSample s rng fuel p = .ok r) ∨ makeBootstrapSample s rng fuel p = .error .diverge := by
  unfold makeBootstrapSample
  have hnv : nValidNat s = nv := by unfold nValidNat; rw [hb.hnv]; simp
  rw [hnv]
  generalize hidx0 : bootBuffer s = idx0
  have hl0 : idx0.length = nv := by
    unfold bootBuffer at hidx0
    cases hbi : s.bootIdx with
    | none => rw [hbi] at hidx0; subst hidx0; simp [hnv]
    | some l => rw [hbi] at hidx0; subst hidx0; exact hb.hidx l hbi
  have key : ∀ m, m ≤ nv → (∃ r : List Nat × Nat, forN m (idx0, p) (fun k st => do
      let q ← pickIndex s rng fuel st.2
      let l ← wr st.1 k q.1
      pure (l, q.2)) = .ok r ∧ r.1.length = nv) ∨ forN m (idx0, p) (fun k st => do
      let q ← pickIndex s rng fuel st.2
      let l ← wr st.1 k q.1
      pure (l, q.2)) = .error .diverge := by
    intro m
    induction m with
    | zero => intro _; exact Or.inl ⟨_, rfl, hl0⟩
    | succ m ih =>
      intro hm
      rcases ih (by omega) with ⟨r, h1, h2⟩ | h1
      · simp only [forN, h1, ok_bind]
        cases hp : pickIndex s rng fuel r.2 with
        | error e =>
          right
          rw [pickIndex_err hb hn hr hp]; rfl
        | ok q =>
          left
          simp only [ok_bind]
          rw [wr_ok (by rw [h2]; omega)]
          exact ⟨_, rfl, by simp [h2]⟩
      · right
        simp only [forN, h1]; rfl
  rcases key nv (le_refl _) with ⟨r, h1, -⟩ | h1
  · left; rw [h1]; exact ⟨_, rfl⟩
  · right; rw [h1]; rfl

/-- **Termination.** If from every position on the stream eventually hits a pixel of positive weight, sampling ends (from some number of
allowed draws on). -/
theorem C20_terminates (s : MO α) (w : List α) (nv : Nat) (hb : BootReady s w nv) (hn : 0 < s.nDataVals) (rng : Nat → Nat)
    (hr : ∀ k, rng k < 2 ^ 32) (hits : ∀ k, ∃ d, PosW w (drawIndex s.nDataVals (rng (k + d))) = true) (p : Nat) :
    ∃ fuel0, ∀ fuel, fuel0 ≤ fuel → ∃ r, makeBootstrapSample s rng fuel p = .ok r := by
  unfold makeBootstrapSample
  have hnv : nValidNat s = nv := by unfold nValidNat; rw [hb.hnv]; simp
  rw [hnv]
  generalize hidx0 : bootBuffer s = idx0
  have hl0 : idx0.length = nv := by
    unfold bootBuffer at hidx0
    cases hbi : s.bootIdx with
    | none => rw [hbi] at hidx0; subst hidx0; simp [hnv]
    | some l => rw [hbi] at hidx0; subst hidx0; exact hb.hidx l hbi
  have key : ∀ m, m ≤ nv → ∃ fuel0 B, ∀ fuel, fuel0 ≤ fuel → ∃ r : List Nat × Nat, forN m (idx0, p) (fun k st => do
      let q ← pickIndex s rng fuel st.2
      let l ← wr st.1 k q.1
      pure (l, q.2)) = .ok r ∧ r.1.length = nv ∧ r.2 ≤ B := by
    intro m
    induction m with
    | zero => intro _; exact ⟨0, p, fun _ _ => ⟨_, rfl, hl0, le_refl _⟩⟩
    | succ m ih =>
      intro hm
      obtain ⟨f0, B, H⟩ := ih (by omega)
      obtain ⟨d, hd⟩ := hits B
      refine ⟨max f0 (B + d + 1), B + d + 1, fun fuel hf => ?_⟩
      obtain ⟨r, h1, h2, h3⟩ := H fuel (by omega)
      obtain ⟨q, q1, q2⟩ := pickIndex_term hb hn hr (B + d - r.2) r.2 fuel
        (by rw [show r.2 + (B + d - r.2) = B + d by omega]; exact hd) (by omega)
      simp only [forN, h1, ok_bind, q1]
      rw [wr_ok (by rw [h2]; omega)]
      exact ⟨_, rfl, by simp [h2], by simp only; omega⟩
  obtain ⟨f0, B, H⟩ := key nv (le_refl _)
  refine ⟨f0, fun fuel hf => ?_⟩
  obtain ⟨r, h1, -⟩ := H fuel hf
  rw [h1]; exact ⟨_, rfl⟩

/-- **Non-termination.** If no pixel has positive weight (and the valid-pixel count is positive), sampling never ends, whatever the
stream. -/
theorem C20_diverges (s : MO α) (w : List α) (nv : Nat) (hb : BootReady s w nv) (hn : 0 < s.nDataVals) (hnv0 : 0 < nv)
    (rng : Nat → Nat) (hr : ∀ k, rng k < 2 ^ 32) (hno : ∀ b, PosW w b = false) (fuel p : Nat) :
    makeBootstrapSample s rng fuel p = .error .diverge := by
  rcases C20_no_fault s w nv hb hn rng hr fuel p with ⟨⟨s', p'⟩, h⟩ | h
  · obtain ⟨T, -, h2, h3, -⟩ := C20_sample s w nv hb rng fuel p s' p' h
    cases T with
    | nil => simp at h2; omega
    | cons b T =>
      obtain ⟨x, hx, hx'⟩ := h3 b (by simp)
      have := hno b
      unfold PosW at this
      rw [hx] at this
      simp only [hx'] at this
      cases this
  · exact h

/-- Every pixel of an image with at most 2^32 pixels can be drawn. -/
theorem C20_every_pixel_reachable (n b : Nat) (hn : n ≤ 2 ^ 32) (hb : b < n) : ∃ k, k < 2 ^ 32 ∧ drawIndex n k = b := by
  refine ⟨(b * 2 ^ 32 + n - 1) / n, ?_, ?_⟩
  · rw [Nat.div_lt_iff_lt_mul (by omega)]
    have : (b + 1) * 2 ^ 32 ≤ n * 2 ^ 32 := Nat.mul_le_mul_right _ hb
    rw [Nat.mul_comm (2 ^ 32) n]
    omega
  · unfold drawIndex
    have h1 : (b * 2 ^ 32 + n - 1) / n * n ≤ b * 2 ^ 32 + n - 1 := Nat.div_mul_le_self _ _
    have h2 : b * 2 ^ 32 + n - 1 < ((b * 2 ^ 32 + n - 1) / n + 1) * n := by
      rw [Nat.mul_comm _ n]; exact Nat.lt_mul_div_succ _ (Nat.zero_lt_of_lt hb)
    rw [Nat.add_mul, Nat.one_mul] at h2
    apply Nat.div_eq_of_lt_le
    · omega
    · rw [Nat.add_mul]; omega

/-- In terms of a whole setup: after a successful fit setup, a bootstrap sample that is returned selects only used pixels, as many as
there are valid pixels, and the object is then in the bootstrap mode of that sample (`Mode.boot`, the mode of the theorems on the fit
statistics). -/
theorem C20_after_setup (i : FitInput XR) (c : Chars i) (sh : Shapes i) (s : MO XR) (hrun : runSetup i = .ok (s, 0))
    (rng : Nat → Nat) (fuel p : Nat) (s' : MO XR) (p' : Nat) (h : useBootstrap s rng fuel p = .ok (s', p')) :
    ∃ T, Mode i.n (count i.n (Used i)) s s' T ∧ T.length = count i.n (Used i) ∧ ∀ b ∈ T, b < i.n ∧ Used i b := by
  have hu := C04_success_usable i c sh s hrun
  rw [runSetup_eq (c := c) sh] at hrun
  simp only [Except.ok.injEq, Prod.mk.injEq] at hrun
  obtain ⟨rfl, h0⟩ := hrun
  obtain ⟨-, d, w, -, hw, -, hlw, hz⟩ := hu
  have f := setupFacts i c sh
  have hb : BootReady { runState i c with doBootstrap := true } w (count i.n (Used i)) := by
    refine ⟨hw, ?_, run_nValid sh, ?_⟩
    · rw [hlw]; exact f.ready.hn.symm
    · intro l hl
      have hnone : (runState i c).bootIdx = none := by
        show (postSetup i c).bootIdx = none
        unfold postSetup
        cases i.stat <;> rfl
      rw [show ({ runState i c with doBootstrap := true } : MO XR).bootIdx = (runState i c).bootIdx from rfl, hnone] at hl
      cases hl
  unfold useBootstrap at h
  obtain ⟨T, hs', hT, hpos, -⟩ := C20_sample _ w _ hb rng fuel p s' p' h
  have hused : ∀ b ∈ T, b < i.n ∧ Used i b := by
    intro b hbT
    obtain ⟨x, hx, hx'⟩ := hpos b hbT
    have hlt : b < i.n := by rw [← hlw]; exact (List.getElem?_eq_some_iff.mp hx).1
    refine ⟨hlt, ?_⟩
    by_contra hnu
    have := ((hz b hlt).2 hnu).1
    unfold pix at this
    rw [List.getD_eq_getElem?_getD, hx] at this
    simp only [Option.getD_some] at this
    subst this
    simp at hx'
  refine ⟨T, ?_, hT, hused⟩
  rw [hs']
  exact Mode.boot T hT fun b hb => (hused b hb).1

/-- Example: a 3-pixel image with weights 1, 0, 2 and two valid pixels; the stream gives pixels 1 (rejected), 2, 0. -/
example : ∃ s' p', makeBootstrapSample (α := XR)
    { (moInit : MO XR) with nDataVals := 3, nValid := some 2, weightVec := some [.fin 1, .fin 0, .fin 2] }
    (fun k => [1500000000, 3000000000].getD k 0) 5 0 = .ok (s', p') ∧ s'.bootIdx = some [2, 0] := by
  have d1 : drawIndex 3 1500000000 = 1 := by norm_num [drawIndex]
  have d2 : drawIndex 3 3000000000 = 2 := by norm_num [drawIndex]
  have d0 : drawIndex 3 0 = 0 := by norm_num [drawIndex]
  have e : (moInit : MO XR).bootIdx = none := rfl
  simp [makeBootstrapSample, bootBuffer, nValidNat, forN, pickIndex, d0, d1, d2, rdp, rd, deref, wr, e]

end Imfit
