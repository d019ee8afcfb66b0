import Verif.Props.C08
import Verif.Model.Output

/-!
# C09 — output images have the meaning the user is told
-/

namespace Imfit

open Spec XR

/-- A write loop over a whole buffer gives the table of the written values, whatever was in the buffer. -/
theorem overwrite_ok {α : Type} (n : Nat) (buf : List α) (f : Nat → Res α) (g : Nat → α) (hl : buf.length = n)
    (h : ∀ z, z < n → f z = .ok (g z)) : overwrite n buf f = .ok (tab n g) := by
  unfold overwrite
  rw [forN_ok n buf _ (fun z => tab z g ++ buf.drop z)]
  · simp [← hl]
  · simp [tab]
  · intro z hz
    simp only [h z hz, ok_bind]
    have hlen : z < (tab z g ++ List.drop z buf).length := by simp [tab_length]; omega
    rw [wr_ok hlen]
    congr 1
    have hd : List.drop z buf = buf[z] :: List.drop (z + 1) buf := List.drop_eq_getElem_cons (by omega)
    rw [hd, List.set_append_right _ _ (by simp [tab_length])]
    simp only [tab_length, Nat.sub_self, List.set_cons_zero]
    simp [tab, List.range_succ]

/-- What a returned pointer must show: `n` pixels, pixel `z` having the documented value. `d`, `w`: data and internal weights of the
object; `img`: the (padded) model image. -/
def Shows (i : FitInput XR) (d w img : List XR) (r : Req) (l : List XR) : Prop :=
  match r with
  | .expanded => l = img
  | .model => l.length = i.n ∧ ∀ z, z < i.n → pix l z = pix img (padIndex i z)
  | .residual => l.length = i.n ∧ ∀ z, z < i.n → pix l z = pix d z - pix img (padIndex i z)
  | .weight => l.length = i.n ∧ ∀ z, z < i.n → pix l z = pix w z * pix w z
  | .data => l = d

/-- invariant on the buffers -/
structure OutOK (i : FitInput XR) (d w img : List XR) (mo : MO XR) (o : Out XR) : Prop where
  mo : o.mo = mo
  out : ∀ l, o.outModel = some l → Shows i d w img .model l
  res : ∀ l, o.resid = some l → Shows i d w img .residual l
  wts : ∀ l ∈ o.weights, Shows i d w img .weight l

theorem pix_tab {n z : Nat} (g : Nat → XR) (h : z < n) : pix (tab n g) z = g z := by
  unfold pix tab; simp [List.getD_eq_getElem?_getD, h]

theorem serve_ok {i : FitInput XR} {c : Chars i} (sh : Shapes i) {img : List XR} (hl : img.length = padLen i)
    {s' : MO XR} {T : List Nat} (hm : Mode i.n (count i.n (Used i)) (runState i c) s' T)
    {o : Out XR} (ho : OutOK i (tab i.n (fData i)) (tab i.n (fWeight i c)) img (withModel s' img) o) (r : Req) :
    ∃ o' b, serve o r = .ok (o', some b) ∧ OutOK i (tab i.n (fData i)) (tab i.n (fWeight i c)) img (withModel s' img) o' ∧
      (∃ l, o'.read b = some l ∧ Shows i (tab i.n (fData i)) (tab i.n (fWeight i c)) img r l) ∧
      (∀ b' l, o.read b' = some l → o'.read b' = some l) := by
  obtain ⟨T0, IT⟩ := run_tabs0 (c := c) sh hm img hl
  have f := setupFacts i c sh
  have hmi : ∀ z, modelIndex (withModel s' img) z = padIndex i z := by
    intro z
    have : modelIndex (withModel s' img) z = modelIndex (runState i c) z := by cases hm <;> rfl
    rw [this, modelIndex_pad sh]
  have hconv : (withModel s' img).doConvolution = i.psf.isSome := by
    have h1 : (runState i c).doConvolution = i.psf.isSome := f.conv
    cases hm <;> exact h1
  have hws : (withModel s' img).weightValsSet = true := by
    have h1 : (runState i c).weightValsSet = true := by
      show (genW (postSetup i c) || (postSetup i c).weightValsSet) = true
      rw [f.gen, f.set]
      by_cases h : i.stat = .chi2Data <;> simp [h]
    cases hm <;> exact h1
  have hds : (withModel s' img).dataValsSet = true := by
    have h1 : (runState i c).dataValsSet = true := f.ready.hset
    cases hm <;> exact h1
  have himg : ∀ z, imgAt (runState i c) img z = pix img (padIndex i z) := by
    intro z; unfold imgAt; rw [modelIndex_pad sh]
  obtain ⟨hmo, hout, hres, hwts⟩ := ho
  obtain ⟨omo, oout, ores, owts⟩ := o
  simp only at hmo hout hres hwts
  subst hmo
  have hcomp : (withModel s' img).modelImageComputed = true := rfl
  have halloc : ∀ (x : Option (List XR)), (∀ l, x = some l → l.length = i.n) → (allocOnce i.n x).length = i.n := by
    intro x hx
    cases x with
    | none => simp [allocOnce]
    | some l => exact hx l rfl
  cases r with
  | model =>
    unfold serve getModelImage
    simp only [hcomp, hconv, if_true]
    cases hp : i.psf with
    | none =>
      simp only [Option.isSome_none, Bool.false_eq_true, if_false]
      refine ⟨_, .model, rfl, ⟨rfl, hout, hres, hwts⟩, ⟨img, ?_, ?_⟩, fun _ _ h => h⟩
      · rfl
      · refine ⟨?_, ?_⟩
        · rw [hl]; unfold padLen; rw [hp]; rfl
        · intro z _; unfold padIndex; rw [hp]
    | some p =>
      simp only [Option.isSome_some, if_true]
      rw [T0.hn, overwrite_ok i.n _ _ (imgAt (runState i c) img) (halloc _ fun l hl => (hout l hl).1) (fun z hz => T0.hf z hz)]
      have hS : Shows i (tab i.n (fData i)) (tab i.n (fWeight i c)) img .model (tab i.n (imgAt (runState i c) img)) :=
        ⟨tab_length _ _, fun z hz => by rw [pix_tab _ hz, himg]⟩
      refine ⟨_, _, rfl, ⟨rfl, ?_, hres, hwts⟩, ⟨_, rfl, hS⟩, ?_⟩
      · intro l hl; cases hl; exact hS
      · intro b' l h
        cases b' with
        | outModel =>
          -- the same image was there before
          have := hout l h
          show some _ = _
          congr 1
          apply List.ext_getElem
          · rw [tab_length, this.1]
          · intro k h1 h2
            have hk : k < i.n := by rw [tab_length] at h1; exact h1
            have e1 := this.2 k hk
            have e2 := hS.2 k hk
            rw [← e1] at e2
            unfold pix at e2
            simpa [List.getD_eq_getElem?_getD, h1, h2] using e2
        | _ => exact h
  | expanded =>
    unfold serve getExpandedModelImage
    simp only [hcomp, if_true]
    refine ⟨_, .model, rfl, ⟨rfl, hout, hres, hwts⟩, ⟨img, ?_, rfl⟩, fun _ _ h => h⟩
    rfl
  | residual =>
    unfold serve getResidualImage
    simp only [hcomp, if_true]
    rw [T0.hn, overwrite_ok i.n _ _ (fun z => fData i z - imgAt (runState i c) img z) (halloc _ fun l hl => (hres l hl).1)]
    · have hS : Shows i (tab i.n (fData i)) (tab i.n (fWeight i c)) img .residual
          (tab i.n fun z => fData i z - imgAt (runState i c) img z) :=
        ⟨tab_length _ _, fun z hz => by rw [pix_tab _ hz, pix_tab _ hz, himg]⟩
      refine ⟨_, _, rfl, ⟨rfl, hout, ?_, hwts⟩, ⟨_, rfl, hS⟩, ?_⟩
      · intro l hl; cases hl; exact hS
      · intro b' l h
        cases b' with
        | resid =>
          have := hres l h
          show some _ = _
          congr 1
          apply List.ext_getElem
          · rw [tab_length, this.1]
          · intro k h1 h2
            have hk : k < i.n := by rw [tab_length] at h1; exact h1
            have e1 := this.2 k hk
            have e2 := hS.2 k hk
            rw [← e1] at e2
            unfold pix at e2
            simpa [List.getD_eq_getElem?_getD, h1, h2] using e2
        | _ => exact h
    · intro z hz
      rw [T0.hd, rdp_tab _ hz, T0.hf z hz]; rfl
  | weight =>
    unfold serve getWeightImage
    simp only [hws, if_true]
    rw [T0.hn, overwrite_ok i.n _ _ (fun z => fWeight i c z * fWeight i c z) (by simp)]
    · have hS : Shows i (tab i.n (fData i)) (tab i.n (fWeight i c)) img .weight
          (tab i.n fun z => fWeight i c z * fWeight i c z) :=
        ⟨tab_length _ _, fun z hz => by rw [pix_tab _ hz, pix_tab _ hz]⟩
      refine ⟨_, _, rfl, ⟨rfl, hout, hres, ?_⟩, ⟨_, ?_, hS⟩, ?_⟩
      · intro l hl
        simp only [List.mem_append, List.mem_singleton] at hl
        rcases hl with hl | rfl
        · exact hwts l hl
        · exact hS
      · show (owts ++ [_])[owts.length]? = _
        simp
      · intro b' l h
        cases b' with
        | weight k =>
          have h : owts[k]? = some l := h
          show (owts ++ [_])[k]? = _
          rw [List.getElem?_append_left]
          · exact h
          · exact (List.getElem?_eq_some_iff.mp h).1
        | _ => exact h
    · intro z hz
      rw [T0.hw, rdp_tab _ hz]; rfl
  | data =>
    unfold serve getDataImage
    simp only [hds, if_true]
    refine ⟨_, .data, rfl, ⟨rfl, hout, hres, hwts⟩, ⟨_, ?_, rfl⟩, fun _ _ h => h⟩
    exact T0.hd

/-- After fit setup and a model evaluation, any sequence of output requests is served without fault; afterwards the object (data, mask,
weights, model image, everything the fit statistic is computed from) is unchanged, and through every pointer handed out in the sequence
— also by the earlier requests — the caller sees an image of the right size with the documented value in every pixel. -/
theorem C09_outputs (i : FitInput XR) (c : Chars i) (sh : Shapes i) (s : MO XR) (st : Int) (hrun : runSetup i = .ok (s, st))
    (img : List XR) (hl : img.length = padLen i) (s' : MO XR) (T : List Nat) (hm : Mode i.n (count i.n (Used i)) s s' T)
    (reqs : List Req) :
    ∃ d w, s.dataVec = some d ∧ s.weightVec = some w ∧
    ∃ o ans, serveAll reqs ⟨withModel s' img, none, none, []⟩ = .ok (o, ans) ∧ o.mo = withModel s' img ∧
      ans.map Prod.fst = reqs ∧
      ∀ r p, (r, p) ∈ ans → ∃ b l, p = some b ∧ o.read b = some l ∧ Shows i d w img r l := by
  rw [runSetup_eq (c := c) sh] at hrun
  simp only [Except.ok.injEq, Prod.mk.injEq] at hrun
  obtain ⟨rfl, -⟩ := hrun
  refine ⟨_, _, run_data sh, run_weight sh, ?_⟩
  have key : ∀ (reqs : List Req) (o : Out XR), OutOK i (tab i.n (fData i)) (tab i.n (fWeight i c)) img (withModel s' img) o →
      ∃ o' ans, serveAll reqs o = .ok (o', ans) ∧ o'.mo = withModel s' img ∧ ans.map Prod.fst = reqs ∧
        (∀ r p, (r, p) ∈ ans → ∃ b l, p = some b ∧ o'.read b = some l ∧
          Shows i (tab i.n (fData i)) (tab i.n (fWeight i c)) img r l) ∧
        (∀ b l, o.read b = some l → o'.read b = some l) := by
    intro reqs
    induction reqs with
    | nil => intro o ho; exact ⟨o, [], rfl, ho.mo, rfl, by simp, fun _ _ h => h⟩
    | cons r rest ih =>
      intro o ho
      obtain ⟨o1, b, h1, h2, ⟨l, h3, h3'⟩, h4⟩ := serve_ok sh hl hm ho r
      obtain ⟨o2, ans, g1, g2, g3, g4, g5⟩ := ih o1 h2
      refine ⟨o2, (r, some b) :: ans, ?_, g2, by simp [g3], ?_, fun b' l' h => g5 b' l' (h4 b' l' h)⟩
      · simp [serveAll, h1, g1]
      · intro r' p hp
        simp only [List.mem_cons, Prod.mk.injEq] at hp
        rcases hp with ⟨rfl, rfl⟩ | hp
        · exact ⟨b, l, rfl, g5 b l h3, h3'⟩
        · exact g4 r' p hp
  obtain ⟨o, ans, h1, h2, h3, h4, -⟩ := key reqs ⟨withModel s' img, none, none, []⟩ ⟨rfl, by simp, by simp, by simp⟩
  exact ⟨o, ans, h1, h2, h3, h4⟩

/-- Without a computed model image the model and residual requests return the null pointer and change nothing. -/
theorem C09_null_before_model {α : Type} [FP α] (o : Out α) (h : o.mo.modelImageComputed = false) :
    serve o .model = .ok (o, none) ∧ serve o .residual = .ok (o, none) ∧ serve o .expanded = .ok (o, none) := by
  simp [serve, getModelImage, getResidualImage, getExpandedModelImage, h]

/-- Example: model, residual, weight and model again, for the 2 x 2 example with a 3 x 3 PSF. -/
example : ∃ s o ans, runSetup exInput = .ok (s, 0) ∧
    serveAll [.model, .residual, .weight, .model] ⟨withModel s (List.replicate 64 (fin 7)), none, none, []⟩ = .ok (o, ans) ∧
    ans.length = 4 := by
  have h0 : runStatus exInput exChars = 0 := by
    rw [run_status exShapes]
    refine ⟨⟨0, by decide, exUsed0⟩, ?_⟩
    intro z hz hu
    have hz : z < 4 := hz
    have hW : ∀ r : ℝ, 0 < r → pix exInput.errors z = fin r → ∃ w : ℝ, 0 ≤ w ∧ WeightIs exChars z w := by
      intro r hr he
      refine ⟨1 / r, by positivity, ?_⟩
      simp only [WeightIs, exInput, if_true]
      exact Or.inl ⟨r, he, hr, rfl⟩
    match z, hz with
    | 0, _ => exact hW 1 one_pos rfl
    | 1, _ => exact hW 1 one_pos rfl
    | 2, _ => exact absurd hu.1 exGood2
    | 3, _ => exact hW 2 two_pos rfl
  have hr : runSetup exInput = .ok (runState exInput exChars, 0) := by rw [runSetup_eq (c := exChars) exShapes, h0]
  obtain ⟨d, w, -, -, o, ans, h1, -, h3, -⟩ := C09_outputs exInput exChars exShapes _ _ hr (List.replicate 64 (fin 7))
    (by rw [List.length_replicate]; rfl) _ _ Mode.plain [.model, .residual, .weight, .model]
  refine ⟨_, o, ans, hr, h1, ?_⟩
  have := congrArg List.length h3
  simpa using this

end Imfit
