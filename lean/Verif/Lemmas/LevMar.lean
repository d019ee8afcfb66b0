import Verif.Model.LevMar
import Verif.Lemmas.DESafe

/-!
# Levenberg-Marquardt: invariants of the iteration
-/

namespace Imfit

section
variable {α : Type} [FP α]

/-- `v` has the start values outside `fr`, and the `j`-th free parameter satisfies `P j`. -/
structure Agrees (fr : List Nat) (start : List α) (P : Nat → α → Prop) (v : List α) : Prop where
  len : v.length = start.length
  off : ∀ k, k ∉ fr → v[k]? = start[k]?
  on : ∀ j k, fr[j]? = some k → ∃ a, v[k]? = some a ∧ P j a

omit [FP α] in
theorem Agrees.mono {fr : List Nat} {start v : List α} {P Q : Nat → α → Prop} (h : Agrees fr start P v) (hpq : ∀ j a, P j a → Q j a) :
    Agrees fr start Q v :=
  ⟨h.len, h.off, fun j k e => let ⟨a, h1, h2⟩ := h.on j k e; ⟨a, h1, hpq j a h2⟩⟩

omit [FP α] in
theorem wr_eq_ok {l l' : List α} {i : Nat} {a : α} (h : wr l i a = .ok l') : i < l.length ∧ l' = l.set i a := by
  unfold wr at h
  split at h
  · rename_i hi; cases h; exact ⟨hi, rfl⟩
  · cases h

omit [FP α] in
/-- Writing the free parameters. -/
theorem scatter_agrees {fr : List Nat} {start x xnew v : List α} {P : Nat → α → Prop} (hnd : fr.Nodup)
    (hlen : xnew.length = start.length) (hoff : ∀ k, k ∉ fr → xnew[k]? = start[k]?) (hP : ∀ j (h : j < x.length), P j x[j])
    (h : scatter fr x xnew = .ok v) : Agrees fr start P v := by
  unfold scatter at h
  suffices H : ∀ n v, n ≤ fr.length → (forN n xnew fun i v => do
      let k ← rd fr i
      let a ← rd x i
      wr v k a) = .ok v → v.length = start.length ∧ (∀ k, k ∉ fr → v[k]? = start[k]?) ∧
        ∀ j k, j < n → fr[j]? = some k → ∃ a, v[k]? = some a ∧ P j a by
    obtain ⟨a, b, c⟩ := H _ _ (le_refl _) h
    refine ⟨a, b, fun j k e => c j k ?_ e⟩
    exact (List.getElem?_eq_some_iff.1 e).1
  intro n
  induction n with
  | zero =>
    intro v _ h
    simp only [forN] at h
    cases h
    exact ⟨hlen, hoff, fun j k hj => by omega⟩
  | succ n ih =>
    intro v hn h
    simp only [forN] at h
    obtain ⟨w, hw, h⟩ := bind_ok h
    obtain ⟨k0, hk0, h⟩ := bind_ok h
    obtain ⟨a, ha, h⟩ := bind_ok h
    obtain ⟨w1, w2, w3⟩ := ih w (by omega) hw
    obtain ⟨hkl, hv⟩ := wr_eq_ok h
    obtain ⟨hnl, hk0'⟩ := rd_eq_ok_iff.1 hk0
    obtain ⟨hxl, hx⟩ := rd_eq_ok_iff.1 ha
    subst hv
    refine ⟨by simp [w1], ?_, ?_⟩
    · intro k hk
      rw [List.getElem?_set_ne, w2 k hk]
      rintro rfl
      exact hk (hk0' ▸ List.getElem_mem hnl)
    · intro j k hj e
      by_cases hjn : j = n
      · subst hjn
        have : k = k0 := by
          rw [List.getElem?_eq_getElem hnl, hk0'] at e
          exact (Option.some.inj e).symm
        subst this
        exact ⟨a, by simp [hkl], hx ▸ hP j hxl⟩
      · obtain ⟨b, h1, h2⟩ := w3 j k (by omega) e
        refine ⟨b, ?_, h2⟩
        rw [List.getElem?_set_ne, h1]
        intro hkk
        apply hjn
        have e1 := (List.getElem?_eq_some_iff.1 e)
        obtain ⟨hjl, e1⟩ := e1
        exact (List.Nodup.getElem_inj_iff hnd).1 (e1.trans (hkk.symm.trans hk0'.symm))

/-- The derivative points: one free parameter is shifted. -/
theorem fdPoints_agrees {fr : List Nat} {lims : List (FreeLim α)} {start xnew : List α} {P Q : Nat → α → Prop} (hnd : fr.Nodup)
    (hx : Agrees fr start P xnew) (hPQ : ∀ j a, P j a → Q j a) (hQ : ∀ j a, P j a → Q j (a + fdStep lims[j]? a)) {pts : List (List α)}
    (h : fdPoints fr lims xnew = .ok pts) : ∀ v ∈ pts, Agrees fr start Q v := by
  intro v hv
  obtain ⟨z, hz, rfl⟩ := List.getElem_of_mem hv
  unfold fdPoints at h
  obtain ⟨h1, h2⟩ := loopMap_elems h
  have h3 := h2 z hz
  obtain ⟨k, hk, h3⟩ := bind_ok h3
  obtain ⟨t, ht, h3⟩ := bind_ok h3
  obtain ⟨hkl, hv'⟩ := wr_eq_ok h3
  obtain ⟨hzl, hkz⟩ := rd_eq_ok_iff.1 hk
  obtain ⟨htl, htz⟩ := rd_eq_ok_iff.1 ht
  rw [hv']
  refine ⟨by simp [hx.len], ?_, ?_⟩
  · intro i hi
    rw [List.getElem?_set_ne, hx.off i hi]
    rintro rfl
    exact hi (hkz ▸ List.getElem_mem hzl)
  · intro j i e
    obtain ⟨a, ha, hPa⟩ := hx.on j i e
    by_cases hjz : j = z
    · subst hjz
      have hik : i = k := by
        rw [List.getElem?_eq_getElem hzl, hkz] at e
        exact (Option.some.inj e).symm
      subst hik
      rw [List.getElem?_eq_getElem htl, htz] at ha
      cases ha
      exact ⟨_, by simp [hkl], hQ j t hPa⟩
    · refine ⟨a, ?_, hPQ j a hPa⟩
      rw [List.getElem?_set_ne, ha]
      intro hki
      apply hjz
      obtain ⟨hjl, e1⟩ := List.getElem?_eq_some_iff.1 e
      exact (List.Nodup.getElem_inj_iff hnd).1 (e1.trans (hki.symm.trans hkz.symm))

/-- What is kept by the loops. -/
structure LMInv (fr : List Nat) (start : List α) (P Q : Nat → α → Prop) (s : LMSt α) : Prop where
  x : ∀ j (h : j < s.x.length), P j s.x[j]
  xlen : s.x.length = fr.length
  len : s.xnew.length = start.length
  off : ∀ k, k ∉ fr → s.xnew[k]? = start[k]?
  tr : ∀ v ∈ s.trace, v.1 = false → Agrees fr start P v.2
  dv : ∀ v ∈ s.trace, v.1 = true → Agrees fr start Q v.2

theorem newPoint_length {lims : List (FreeLim α)} {x dir : List α} {p : List α × α} (h : newPoint lims x dir = .ok p) : p.1.length = x.length := by
  unfold newPoint at h
  split at h
  · obtain ⟨q, _, h⟩ := bind_ok h
    obtain ⟨w, hw, h⟩ := bind_ok h
    cases h
    exact (loopMap_elems hw).1
  · obtain ⟨w, hw, h⟩ := bind_ok h
    cases h
    exact (loopMap_elems hw).1

theorem innerTurn_inv {dev : List α → List α} {c : MPConf α} {fr : List Nat} {lims : List (FreeLim α)} {la : InnerLA α} {start : List α}
    {P Q : Nat → α → Prop} (hnd : fr.Nodup) {s : LMSt α} (hs : LMInv fr start P Q s)
    (hstep : ∀ p, newPoint lims s.x la.dir = .ok p → ∀ j (h : j < p.1.length), P j p.1[j]) {r : LMSt α × LMNext}
    (h : innerTurn dev c fr lims la s = .ok r) : LMInv fr start P Q r.1 := by
  unfold innerTurn at h
  obtain ⟨p, hp, h⟩ := bind_ok h
  obtain ⟨xnew, hx, h⟩ := bind_ok h
  have hA := scatter_agrees (P := P) hnd hs.len hs.off (hstep p hp) hx
  have key : ∀ s' : LMSt α, s'.x = (if fle (lit (1 / 10000)) (gainRatio (actRed s.fnorm (mpEnorm (dev xnew))) (preRed la p.2 s.fnorm).1) then p.1 else s.x) →
      s'.xnew = xnew → s'.trace = s.trace ++ [(false, xnew)] → LMInv fr start P Q s' := by
    intro s' h1 h2 h3
    refine ⟨?_, ?_, by rw [h2]; exact hA.len, by rw [h2]; exact hA.off, ?_, ?_⟩
    · intro j hj
      simp only [h1]
      split
      · exact hstep p hp j _
      · exact hs.x j _
    · rw [h1]
      split
      · rw [newPoint_length hp, hs.xlen]
      · exact hs.xlen
    · rw [h3]
      intro v hv hf
      rcases List.mem_append.1 hv with hv | hv
      · exact hs.tr v hv hf
      · rw [List.mem_singleton.1 hv]; exact hA
    · rw [h3]
      intro v hv hf
      rcases List.mem_append.1 hv with hv | hv
      · exact hs.dv v hv hf
      · rw [List.mem_singleton.1 hv] at hf; cases hf
  cases h
  exact key _ rfl rfl rfl

theorem outerTurn_inv {c : MPConf α} {fr : List Nat} {lims : List (FreeLim α)} {la : OuterLA α} {start : List α}
    {P Q : Nat → α → Prop} (hnd : fr.Nodup) {s : LMSt α} (hs : LMInv fr start P Q s) (hPQ : ∀ j a, P j a → Q j a)
    (hQ : ∀ j a, P j a → Q j (a + fdStep lims[j]? a)) {r : LMSt α × Option Int} (h : outerTurn c fr lims la s = .ok r) :
    LMInv fr start P Q r.1 ∧ r.1.x = s.x ∧ r.1.fnorm = s.fnorm ∧ r.1.fnorm1 = s.fnorm1 := by
  unfold outerTurn at h
  obtain ⟨xnew, hx, h⟩ := bind_ok h
  obtain ⟨pts, hp, h⟩ := bind_ok h
  have hA := scatter_agrees (P := P) hnd hs.len hs.off hs.x hx
  have hD := fdPoints_agrees hnd hA hPQ hQ hp
  have key : ∀ s' : LMSt α, s'.x = s.x → s'.xnew = xnew → s'.trace = s.trace ++ pts.map (fun v => (true, v)) → LMInv fr start P Q s' := by
    intro s' h1 h2 h3
    refine ⟨by rw [h1]; exact hs.x, by rw [h1]; exact hs.xlen, by rw [h2]; exact hA.len, by rw [h2]; exact hA.off, ?_, ?_⟩
    · rw [h3]
      intro v hv hf
      rcases List.mem_append.1 hv with hv | hv
      · exact hs.tr v hv hf
      · obtain ⟨w, _, rfl⟩ := List.mem_map.1 hv; cases hf
    · rw [h3]
      intro v hv hf
      rcases List.mem_append.1 hv with hv | hv
      · exact hs.dv v hv hf
      · obtain ⟨w, hw, rfl⟩ := List.mem_map.1 hv; exact hD w hw
  cases h
  exact ⟨key _ rfl rfl rfl, rfl, rfl, rfl⟩

/-- An invariant of both turns holds at the end. -/
theorem lmLoop_inv {dev : List α → List α} {c : MPConf α} {fr : List Nat} {lims : List (FreeLim α)} {outer : Nat → OuterLA α}
    {inner : Nat → InnerLA α} (I : LMSt α → Prop) (ho : ∀ k s r, I s → outerTurn c fr lims (outer k) s = .ok r → I r.1)
    (hi : ∀ k s r, I s → innerTurn dev c fr lims (inner k) s = .ok r → I r.1) {fuel : Nat} {b : Bool} {s : LMSt α} {r : LMSt α × Int}
    (hs : I s) (h : lmLoop dev c fr lims outer inner fuel b s = .ok r) : I r.1 := by
  induction fuel generalizing b s with
  | zero => simp only [lmLoop] at h; cases h
  | succ n ih =>
    cases b with
    | true =>
      simp only [lmLoop] at h
      obtain ⟨q, hq, h⟩ := bind_ok h
      have hI := ho _ _ _ hs hq
      split at h
      · cases h; exact hI
      · exact ih hI h
    | false =>
      simp only [lmLoop] at h
      obtain ⟨q, hq, h⟩ := bind_ok h
      have hI := hi _ _ _ hs hq
      split at h
      · cases h; exact hI
      · exact ih hI h
      · exact ih hI h

omit [FP α] in
theorem freeIdx_nodup (pars : Option (List (MPPar α))) (n : Nat) : (freeIdx pars n).Nodup := by
  unfold freeIdx
  split
  · exact List.nodup_range
  · exact List.nodup_range.filter _

/-- The whole of `mpfit`, with arbitrary predicates. -/
theorem mpfit_agrees {dev : List α → List α} {m : Nat} {c : MPConf α} {pars : Option (List (MPPar α))} {outer : Nat → OuterLA α}
    {inner : Nat → InnerLA α} {fuel : Nat} {start : List α} {r : LMOut α} {P Q : Nat → α → Prop}
    (hstart : checkStart pars start = none → ∀ j k a, (freeIdx pars start.length)[j]? = some k → start[k]? = some a → P j a)
    (hPQ : ∀ j a, P j a → Q j a)
    (hQ : ∀ lims, freeLims pars (freeIdx pars start.length) = .ok lims → ∀ j a, P j a → Q j (a + fdStep lims[j]? a))
    (hstep : ∀ lims, freeLims pars (freeIdx pars start.length) = .ok lims → ∀ k x p, x.length = (freeIdx pars start.length).length →
      (∀ j (h : j < x.length), P j x[j]) → newPoint lims x (inner k).dir = .ok p → ∀ j (h : j < p.1.length), P j p.1[j])
    (h : mpfit dev m c pars outer inner fuel start = .ok r) :
    (∀ v ∈ r.trace, v.1 = false → Agrees (freeIdx pars start.length) start P v.2) ∧
    (∀ v ∈ r.trace, v.1 = true → Agrees (freeIdx pars start.length) start Q v.2) ∧
    (r.xall = start ∨ Agrees (freeIdx pars start.length) start P r.xall) := by
  unfold mpfit at h
  simp only at h
  split at h
  · cases h; simp [lmFail]
  split at h
  · cases h; simp [lmFail]
  rename_i hchk
  obtain ⟨lims, hl, h⟩ := bind_ok h
  split at h
  · cases h; simp [lmFail]
  split at h
  · cases h; simp [lmFail]
  have hnd := freeIdx_nodup pars start.length
  unfold lmIterate at h
  obtain ⟨x, hx, h⟩ := bind_ok h
  obtain ⟨hx1, hx2⟩ := loopMap_elems hx
  obtain ⟨q, hq, h⟩ := bind_ok h
  have hP0 : ∀ j (h : j < x.length), P j x[j] := by
    intro j hj
    obtain ⟨k, hk, h2⟩ := bind_ok (hx2 j hj)
    obtain ⟨a, b⟩ := rd_eq_ok_iff.1 hk
    obtain ⟨c, d⟩ := rd_eq_ok_iff.1 h2
    exact hstart hchk j k _ (by rw [List.getElem?_eq_getElem a, b]) (by rw [List.getElem?_eq_getElem c, d])
  have hA : Agrees (freeIdx pars start.length) start P start := by
    refine ⟨rfl, fun _ _ => rfl, ?_⟩
    intro j k e
    have hj : j < x.length := by rw [hx1]; exact (List.getElem?_eq_some_iff.1 e).1
    obtain ⟨k', hk, h2⟩ := bind_ok (hx2 j hj)
    obtain ⟨a, b⟩ := rd_eq_ok_iff.1 hk
    obtain ⟨c, d⟩ := rd_eq_ok_iff.1 h2
    have : k' = k := by rw [List.getElem?_eq_getElem a, b] at e; exact Option.some.inj e
    subst this
    exact ⟨_, List.getElem?_eq_getElem c, d ▸ hP0 j hj⟩
  have hinv : LMInv (freeIdx pars start.length) start P Q q.1 := by
    refine lmLoop_inv (LMInv (freeIdx pars start.length) start P Q) (fun k s r hs hr => (outerTurn_inv hnd hs hPQ (hQ lims hl) hr).1)
      (fun k s r hs hr => innerTurn_inv hnd hs (fun p hp => hstep lims hl k s.x p hs.xlen hs.x hp) hr) ?_ hq
    refine ⟨hP0, hx1, rfl, fun _ _ => rfl, ?_, ?_⟩
    · intro v hv _; rw [List.mem_singleton.1 hv]; exact hA
    · intro v hv hf; rw [List.mem_singleton.1 hv] at hf; cases hf
  unfold lmLeave at h
  split at h
  · cases h; exact ⟨hinv.tr, hinv.dv, Or.inl rfl⟩
  · unfold lmFinish at h
    obtain ⟨y, hy, h⟩ := bind_ok h
    cases h
    exact ⟨hinv.tr, hinv.dv, Or.inr (scatter_agrees hnd rfl (fun _ _ => rfl) hinv.x hy)⟩

end

end Imfit
