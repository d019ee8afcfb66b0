import Verif.Model.Region
import Verif.Lemmas.Fit
import Mathlib.Tactic.Ring
import Mathlib.Algebra.BigOperators.Group.List.Basic

/-!
# Image computation on finite images

`rtab n v` is the image of `n` pixels with finite values `v`. All steps of the image computation map finite images to finite
images and are additive; a step either always faults or never faults (its accesses depend on the geometry only).
-/

namespace Imfit

open XR

/-- An image with finite pixels. -/
def rtab (n : Nat) (v : Nat → ℝ) : List XR := tab n fun k => fin (v k)

/-- Pixelwise sum of a list of images. -/
def sumFn (l : List (Nat → ℝ)) (k : Nat) : ℝ := (l.map (· k)).sum

@[simp] theorem sumFn_nil (k : Nat) : sumFn [] k = 0 := rfl
@[simp] theorem sumFn_cons (v : Nat → ℝ) (l : List (Nat → ℝ)) (k : Nat) : sumFn (v :: l) k = v k + sumFn l k := by simp [sumFn]

/-- A map on images of `n` finite pixels that is additive and yields finite images. -/
def LinConv (n : Nat) (c : List XR → List XR) : Prop :=
  ∃ L : (Nat → ℝ) → (Nat → ℝ), (∀ v w, L (fun k => v k + w k) = fun k => L v k + L w k) ∧ ∀ v, c (rtab n v) = rtab n (L v)

/-- The same for an optional convolution. -/
def LinOpt (n : Nat) (c : Option (List XR → List XR)) : Prop := ∀ f, c = some f → LinConv n f

theorem applyConv_lin (n : Nat) (c : Option (List XR → List XR)) (h : LinOpt n c) :
    ∃ L : (Nat → ℝ) → (Nat → ℝ), (∀ v w, L (fun k => v k + w k) = fun k => L v k + L w k) ∧
      ∀ v, applyConv c (rtab n v) = rtab n (L v) := by
  cases c with
  | none => exact ⟨id, fun _ _ => rfl, fun _ => rfl⟩
  | some f => exact h f rfl

theorem additive_zero {L : (Nat → ℝ) → (Nat → ℝ)} (h : ∀ v w, L (fun k => v k + w k) = fun k => L v k + L w k) :
    L (fun _ => 0) = fun _ => 0 := by
  have h1 := h (fun _ => 0) (fun _ => 0)
  simp only [add_zero] at h1
  funext k
  have := congrFun h1 k
  linarith

theorem additive_sum {L : (Nat → ℝ) → (Nat → ℝ)} (h : ∀ v w, L (fun k => v k + w k) = fun k => L v k + L w k)
    (l : List (Nat → ℝ)) : L (sumFn l) = sumFn (l.map L) := by
  induction l with
  | nil => exact additive_zero h
  | cons v l ih =>
    have e : sumFn (v :: l) = fun k => v k + sumFn l k := by funext k; simp
    rw [e, h, ih]
    funext k
    simp

/-! ## Kahan summation in exact arithmetic -/

/-- The value of a function object, as a real number (0 if it is not a finite number). -/
noncomputable def valR (o : FnObj XR) (x y : XR) : ℝ :=
  match fnValue o x y with
  | .ok (fin r) => r
  | _ => 0

/-- The value of the object is a finite number. -/
def FinAt (o : FnObj XR) (x y : XR) : Prop := ∃ r : ℝ, fnValue o x y = .ok (fin r)

theorem FinAt.eq {o : FnObj XR} {x y : XR} (h : FinAt o x y) : fnValue o x y = .ok (fin (valR o x y)) := by
  obtain ⟨r, hr⟩ := h
  simp [valR, hr]

/-- Contribution of a function to the pass that sums functions with `IsPointSource() = want`. -/
noncomputable def contrib (want : Bool) (o : FnObj XR) (x y : XR) : ℝ := if o.desc.isPoint = want then valR o x y else 0

theorem pixelSum_eq (want : Bool) (x y : XR) (fns : List (FnObj XR)) (s : ℝ)
    (h : ∀ o ∈ fns, o.desc.isPoint = want → FinAt o x y) :
    pixelSum want x y fns ⟨fin s, fin 0⟩ = .ok ⟨fin (s + (fns.map fun o => contrib want o x y).sum), fin 0⟩ := by
  induction fns generalizing s with
  | nil => simp [pixelSum]
  | cons o rest ih =>
    have hr := fun o' ho' => h o' (List.mem_cons_of_mem _ ho')
    by_cases hp : o.desc.isPoint = want
    · have hv := (h o (by simp) hp).eq
      have hst : pixelStep want x y ⟨fin s, fin 0⟩ o = .ok ⟨fin (s + valR o x y), fin 0⟩ := by
        simp [pixelStep, hp, hv, kahanAdd]
      simp only [pixelSum, hst, ok_bind]
      rw [ih _ hr]
      simp [contrib, hp, add_assoc]
    · simp only [pixelSum, pixelStep, if_neg hp, ok_bind]
      rw [ih _ hr]
      simp [contrib, hp]

/-- Contribution of one function to all pixels of a pass. -/
noncomputable def part (want : Bool) (X Y : Nat → XR) (o : FnObj XR) (k : Nat) : ℝ := contrib want o (X k) (Y k)

theorem fillImage_eq (n : Nat) (X Y : Nat → XR) (fns : List (FnObj XR))
    (h : ∀ o ∈ fns, o.desc.isPoint = false → ∀ k, k < n → FinAt o (X k) (Y k)) :
    fillImage n X Y fns = .ok (rtab n (sumFn (fns.map (part false X Y)))) := by
  unfold fillImage
  rw [loopMap_ok n _ (fun k => fin (sumFn (fns.map (part false X Y)) k))]
  · rfl
  · intro k hk
    have := pixelSum_eq false (X k) (Y k) fns 0 (fun o ho hp => h o ho hp k hk)
    simp only [zero_def] at *
    rw [this]
    simp [sumFn, part, Function.comp_def]

theorem addPoints_eq (n : Nat) (X Y : Nat → XR) (fns : List (FnObj XR)) (v : Nat → ℝ)
    (h : ∀ o ∈ fns, o.desc.isPoint = true → ∀ k, k < n → FinAt o (X k) (Y k)) :
    addPoints n X Y fns (rtab n v) = .ok (rtab n (fun k => v k + sumFn (fns.map (part true X Y)) k)) := by
  unfold addPoints
  rw [loopMap_ok n _ (fun k => fin (v k + sumFn (fns.map (part true X Y)) k))]
  · rfl
  · intro k hk
    have := pixelSum_eq true (X k) (Y k) fns 0 (fun o ho hp => h o ho hp k hk)
    have hr : rd (rtab n v) k = .ok (fin (v k)) := rd_range_map _ hk
    simp only [zero_def] at *
    rw [this]
    simp [sumFn, part, Function.comp_def, hr]

/-! ## Down-sampling is additive -/

/-- A step on the main image that also reads the oversampled image `v`: if it succeeds on some finite images then it always
does, and the result is additive. -/
def AddStep (n : Nat) (T : (Nat → ℝ) → List XR → Res (List XR)) : Prop :=
  (∃ v m out, T v (rtab n m) = .ok out) →
    ∃ D : (Nat → ℝ) → (Nat → ℝ) → (Nat → ℝ),
      (∀ v w m p, D (fun k => v k + w k) (fun k => m k + p k) = fun k => D v m k + D w p k) ∧
      ∀ v m, T v (rtab n m) = .ok (rtab n (D v m))

theorem AddStep.forN {n : Nat} (N : Nat) (f : (Nat → ℝ) → Nat → List XR → Res (List XR)) (h : ∀ z, z < N → AddStep n (fun v => f v z)) :
    AddStep n (fun v m => Imfit.forN N m (f v)) := by
  induction N with
  | zero =>
    intro _
    exact ⟨fun _ m => m, fun _ _ _ _ => rfl, fun _ _ => rfl⟩
  | succ N ih =>
    rintro ⟨v, m, out, hok⟩
    simp only [Imfit.forN] at hok ⊢
    cases h1 : Imfit.forN N (rtab n m) (f v) with
    | error e => rw [h1] at hok; cases hok
    | ok t =>
      obtain ⟨D1, ha1, hD1'⟩ := ih (fun z hz => h z (by omega)) ⟨v, m, t, h1⟩
      have hD1 : ∀ v m, Imfit.forN N (rtab n m) (f v) = .ok (rtab n (D1 v m)) := hD1'
      have ht : t = rtab n (D1 v m) := by
        have := hD1 v m
        rw [h1] at this
        exact Except.ok.inj this
      subst ht
      rw [h1] at hok
      obtain ⟨D2, ha2, hD2⟩ := h N (by omega) ⟨v, D1 v m, out, hok⟩
      refine ⟨fun v m => D2 v (D1 v m), ?_, ?_⟩
      · intro v w m p
        simp only
        rw [ha1, ha2]
      · intro v m
        rw [hD1]
        exact hD2 v (D1 v m)

theorem rd_rtab_cases (n k : Nat) : (∀ v, rd (rtab n v) k = .ok (fin (v k))) ∨ (∀ v, rd (rtab n v) k = .error .oob) := by
  by_cases h : k < n
  · exact Or.inl fun v => rd_range_map _ h
  · exact Or.inr fun v => rd_oob (by simp [rtab, tab]; omega)

/-- The bin sum: faults always, or is additive in the oversampled image. -/
theorem binLoop_lin (N cols a jj1 : Nat) (ii1 : Nat) (M : Nat) :
    (∃ F : (Nat → ℝ) → ℝ, (∀ v w, F (fun k => v k + w k) = F v + F w) ∧
      ∀ v s, forN M (fin s) (fun b acc => do let x ← rd (rtab N v) ((ii1 + a) * cols + (jj1 + b)); pure (acc + x)) = .ok (fin (s + F v))) ∨
    (∀ v s, forN M (fin s) (fun b acc => do let x ← rd (rtab N v) ((ii1 + a) * cols + (jj1 + b)); pure (acc + x)) = .error .oob) := by
  induction M with
  | zero => exact Or.inl ⟨fun _ => 0, fun _ _ => by simp, fun _ _ => by simp [forN]⟩
  | succ M ih =>
    rcases ih with ⟨F, ha, hF⟩ | hF
    · rcases rd_rtab_cases N ((ii1 + a) * cols + (jj1 + M)) with h | h
      · refine Or.inl ⟨fun v => F v + v ((ii1 + a) * cols + (jj1 + M)), fun v w => by simp only; rw [ha]; ring, fun v s => ?_⟩
        rw [forN, hF, ok_bind, h, ok_bind, pure_eq_ok, fin_add, add_assoc]
      · refine Or.inr fun v s => ?_
        rw [forN, hF, ok_bind, h, error_bind]
    · refine Or.inr fun v s => ?_
      rw [forN, hF, error_bind]

theorem binFlux_lin (N cols ii1 jj1 scale : Nat) :
    (∃ F : (Nat → ℝ) → ℝ, (∀ v w, F (fun k => v k + w k) = F v + F w) ∧ ∀ v, binFlux (rtab N v) cols ii1 jj1 scale = .ok (fin (F v))) ∨
    (∀ v, binFlux (rtab N v) cols ii1 jj1 scale = .error .oob) := by
  have gen : ∀ M, (∃ F : (Nat → ℝ) → ℝ, (∀ v w, F (fun k => v k + w k) = F v + F w) ∧
      ∀ v, forN M (fin 0) (fun a acc => forN scale acc fun b acc2 => do
        let x ← rd (rtab N v) ((ii1 + a) * cols + (jj1 + b)); pure (acc2 + x)) = .ok (fin (F v))) ∨
      (∀ v, forN M (fin 0) (fun a acc => forN scale acc fun b acc2 => do
        let x ← rd (rtab N v) ((ii1 + a) * cols + (jj1 + b)); pure (acc2 + x)) = .error .oob) := by
    intro M
    induction M with
    | zero => exact Or.inl ⟨fun _ => 0, fun _ _ => by simp, fun _ => rfl⟩
    | succ M ih =>
      rcases ih with ⟨F, ha, hF⟩ | hF
      · rcases binLoop_lin N cols M jj1 ii1 scale with ⟨G, hga, hG⟩ | hG
        · refine Or.inl ⟨fun v => F v + G v, fun v w => by simp only; rw [ha, hga]; ring, fun v => ?_⟩
          rw [forN, hF, ok_bind]
          exact hG v (F v)
        · refine Or.inr fun v => ?_
          rw [forN, hF, ok_bind]
          exact hG v (F v)
      · refine Or.inr fun v => ?_
        rw [forN, hF, error_bind]
  have := gen scale
  simpa [binFlux] using this

theorem wrI_rtab_cases (n : Nat) (i : Int) :
    (∃ k, ∀ m x, wrI (rtab n m) i (fin x) = .ok (rtab n fun z => if z = k then x else m z)) ∨
    (∀ m x, wrI (rtab n m) i (fin x) = .error .oob) := by
  by_cases h0 : i < 0
  · exact Or.inr fun m x => by simp [wrI, h0]
  by_cases h : i.toNat < n
  · refine Or.inl ⟨i.toNat, fun m x => ?_⟩
    unfold wrI
    rw [if_neg h0, wr_ok (by simpa [rtab, tab] using h)]
    congr 1
    apply List.ext_getElem
    · simp [rtab, tab]
    · intro z h1 h2
      simp only [rtab, tab, List.getElem_set, List.getElem_map, List.getElem_range]
      by_cases hz : i.toNat = z
      · simp [hz]
      · simp [hz, Ne.symm hz]
  · refine Or.inr fun m x => ?_
    unfold wrI
    rw [if_neg h0, wr_oob (by simp [rtab, tab]; omega)]

theorem downsample_add (g mg : Geom) (x1 y1 : Int) (scale : Nat) (hs : 1 ≤ scale) :
    AddStep mg.n (fun v m => downsample (rtab g.n v) g m mg x1 y1 scale) := by
  unfold downsample
  apply AddStep.forN
  intro is _
  apply AddStep.forN
  intro js _
  have hsc : ((scale * scale : Nat) : ℝ) ≠ 0 := by
    have : scale * scale ≠ 0 := Nat.mul_ne_zero (by omega) (by omega)
    exact_mod_cast this
  rintro ⟨v0, m0, out0, hok⟩
  rcases binFlux_lin g.n g.cols (is * scale + g.psfRows) (js * scale + g.psfCols) scale with ⟨F, ha, hF⟩ | hF
  · have hdiv : ∀ x : ℝ, (fin x / lit ((scale * scale : Nat) : ℚ) : XR) = fin (x / ((scale * scale : Nat) : ℝ)) := by
      intro x
      have e : (lit ((scale * scale : Nat) : ℚ) : XR) = fin ((scale * scale : Nat) : ℝ) := by simp
      rw [e, fin_div_of_ne hsc]
    simp only [hF, ok_bind, hdiv] at hok ⊢
    rcases wrI_rtab_cases mg.n ((y1 - 1 + (mg.psfRows : Int) + (is : Int)) * (mg.cols : Int) +
        (x1 - 1 + (mg.psfCols : Int) + (js : Int))) with ⟨k, hk⟩ | hk
    · refine ⟨fun v m z => if z = k then F v / ((scale * scale : Nat) : ℝ) else m z, ?_, fun v m => hk _ _⟩
      intro v w m p
      funext z
      by_cases hz : z = k
      · simp only [hz, if_true]
        rw [ha, add_div]
      · simp [hz]
    · rw [hk] at hok
      cases hok
  · simp only [hF, error_bind] at hok
    cases hok

end Imfit
