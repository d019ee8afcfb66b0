import Verif.Props.C58
import Verif.Lemmas.BootErr
import Verif.Lemmas.Func

/-!
# C63: crossover numbers and their probabilities

The table made by `gen_CR` holds each crossover number exactly as often as the multinomial draw says, in an order given by the shuffle. The probabilities computed
during burn-in are those of the published algorithm — the jump distance reached with each number per use of it, normalised to 1 — if every number has been used.

The claim that they are probabilities is false of the code if some number has not been used yet: its probability becomes NaN and the others zero.
-/

namespace Imfit

open XR

section
variable {σ α : Type} [FP α]

theorem crEntries_count (l : List Nat) (k m : Nat) :
    ((l.zipIdx k).flatMap fun x => List.replicate x.1 (x.2 + 1)).count (k + m + 1) = (l[m]?).getD 0 := by
  induction l generalizing k m with
  | nil => simp
  | cons a l ih =>
    rw [List.zipIdx_cons, List.flatMap_cons, List.count_append]
    cases m with
    | zero =>
      have h0 : ((l.zipIdx (k + 1)).flatMap fun x => List.replicate x.1 (x.2 + 1)).count (k + 0 + 1) = 0 := by
        rw [List.count_eq_zero]
        intro h
        have := crEntries_mem h
        omega
      rw [h0]
      simp
    | succ m =>
      have := ih (k + 1) m
      rw [show k + 1 + m + 1 = k + (m + 1) + 1 by omega] at this
      rw [this]
      have h1 : (List.replicate a (k + 1)).count (k + (m + 1) + 1) = 0 := by
        rw [List.count_eq_zero, List.mem_replicate]
        omega
      show List.count _ (List.replicate a (k + 1)) + _ = _
      rw [h1]
      simp

/-- `gsl_ran_shuffle` keeps the items. -/
theorem rearrange_perm {β : Type} {l : List β} {p : List Nat} (hp : p.Perm (List.range l.length)) : Sat (rearrange l p) fun r => r.Perm l := by
  have hl : p.length = l.length := by rw [hp.length_eq]; simp
  by_cases hne : l = []
  · subst hne
    exact ⟨[], rfl, List.Perm.refl _⟩
  obtain ⟨d⟩ : Nonempty β := by
    cases l with
    | nil => exact absurd rfl hne
    | cons a l => exact ⟨a⟩
  have hq : ∀ z, z < p.length → p.getD z 0 < l.length := by
    intro z hz
    have : p[z] ∈ p := List.getElem_mem hz
    have := hp.subset this
    rw [List.getD_eq_getElem?_getD, List.getElem?_eq_getElem hz]
    simpa using this
  have : rearrange l p = .ok ((List.range l.length).map fun z => l.getD (p.getD z 0) d) := by
    unfold rearrange
    refine loopMap_ok _ _ _ ?_
    intro z hz
    obtain ⟨q, e1, hq1⟩ := Sat.rd (l := p) (i := z) (by omega)
    rw [e1, val_bind]
    have e2 : p.getD z 0 = q := by rw [List.getD_eq_getElem?_getD, hq1]; rfl
    obtain ⟨b, e3, hb⟩ := Sat.rd (l := l) (i := q) (by rw [← e2]; exact hq z (by omega))
    rw [e3, e2, List.getD_eq_getElem?_getD, hb]
    rfl
  refine ⟨_, this, ?_⟩
  have e1 : ((List.range l.length).map fun z => l.getD (p.getD z 0) d) = p.map fun q => l.getD q d := by
    apply List.ext_getElem
    · simp [hl]
    · intro n h1 h2
      have hn : n < p.length := by simpa using h2
      simp [List.getElem?_eq_getElem hn]
  have e2 : (List.range l.length).map (fun q => l.getD q d) = l := by
    apply List.ext_getElem
    · simp
    · intro n h1 h2
      simp [h2]
  rw [e1]
  have := hp.map fun q => l.getD q d
  rwa [e2] at this

/-- If the counts drawn add up to the size of the table, the table holds the number `m + 1` as often as the draw says, and nothing else. -/
theorem C63_table (c : DreamCfg α) (R : Rng σ α) (hR : Spec.GoodRng R) (st : DreamSt σ α) (hs : ChainShape c st)
    (hsum : (R.multi c.nCR (c.numChains * c.loopSteps) st.pCR st.rng).1.sum = c.numChains * c.loopSteps) :
    ∃ st', genCR c R st = .ok st' ∧ st'.cand = (R.multi c.nCR (c.numChains * c.loopSteps) st.pCR st.rng).1 ∧ st'.crm.length = c.numChains * c.loopSteps ∧
      (∀ x ∈ st'.crm, ∃ m, x = some m ∧ 1 ≤ m ∧ m ≤ c.nCR) ∧ ∀ m, m < c.nCR → st'.cand[m]? = some (st'.crm.count (some (m + 1))) := by
  have hlen := hs.crm
  have hcl := hR.multi_length c.nCR (c.numChains * c.loopSteps) st.pCR st.rng
  unfold genCR
  generalize hM : R.multi c.nCR (c.numChains * c.loopSteps) st.pCR st.rng = M at hsum hcl
  have he : (crEntries M.1).length = M.1.sum := crEntries_length M.1 0
  show ∃ st', (if st.crm.length < (crEntries M.1).length then _ else _) = _ ∧ _
  rw [if_neg (by omega)]
  have hd : st.crm.drop (crEntries M.1).length = [] := List.drop_eq_nil_of_le (by omega)
  rw [hd, List.append_nil]
  obtain ⟨r, e1, hp⟩ := rearrange_perm (l := (crEntries M.1).map some) (p := (R.perm (c.numChains * c.loopSteps) M.2).1) (by
    have : ((crEntries M.1).map some).length = c.numChains * c.loopSteps := by rw [List.length_map]; omega
    rw [this]
    exact hR.perm _ _)
  show ∃ st', (rearrange ((crEntries M.1).map some) (R.perm (c.numChains * c.loopSteps) M.2).1 >>= _) = _ ∧ _
  rw [e1, val_bind]
  refine ⟨_, rfl, rfl, ?_, ?_, ?_⟩
  · show r.length = _
    rw [hp.length_eq, List.length_map]
    omega
  · intro x hx
    have hx' := hp.subset hx
    rw [List.mem_map] at hx'
    obtain ⟨m, hm, rfl⟩ := hx'
    have h3 : 0 + 1 ≤ m ∧ m ≤ 0 + M.1.length := crEntries_mem hm
    exact ⟨m, rfl, by omega, by omega⟩
  · intro m hm
    show M.1[m]? = some (r.count (some (m + 1)))
    rw [hp.count_eq]
    have h1 : ((crEntries M.1).map some).count (some (m + 1)) = (crEntries M.1).count (m + 1) :=
      List.count_map_of_injective _ _ (Option.some_injective _) _
    have h2 := crEntries_count M.1 0 m
    rw [show 0 + m + 1 = m + 1 by omega] at h2
    rw [h1, show (crEntries M.1).count (m + 1) = _ from h2]
    rw [List.getElem?_eq_getElem (by omega)]
    rfl

end

example : let _ := toyFP
    ((genCR { toyCfg with loopSteps := 2 } toyRng (start { toyCfg with loopSteps := 2 } 0)).toOption.map fun st => (st.cand, st.crm)) =
      some ([0, 0, 6], [some 3, some 3, some 3, some 3, some 3, some 3]) := by
  decide +kernel

/-! ## Probabilities -/

/-- The probabilities of the published algorithm: the distance jumped with number `m` per use of it, normalised. -/
noncomputable def Spec.crossProb (n : Nat) (dist : Nat → ℝ) (uses : Nat → Nat) (m : Nat) : ℝ :=
  dist m / uses m / ((List.range n).map fun k => dist k / uses k).sum

theorem foldl_map_fin_add (n : Nat) (v : Nat → ℝ) : ((List.range n).map fun m => fin (v m)).foldl (· + ·) (0 : XR) = fin ((List.range n).map v).sum := by
  rw [List.foldl_map, zero_def, foldl_fin_add _ _ v (fun _ _ => rfl), zero_add]

theorem sum_nonpos' (l : List ℝ) (h : ∀ x ∈ l, x ≤ 0) : l.sum ≤ 0 := by
  induction l with
  | nil => simp
  | cons a l ih =>
    have h1 := h a (by simp)
    have h2 := ih fun x hx => h x (by simp [hx])
    rw [List.sum_cons]
    linarith

/-- During burn-in the probabilities are updated as in the published algorithm. -/
theorem C63_update {σ : Type} (c : DreamCfg XR) (st : DreamSt σ XR) (dist : Nat → ℝ) (uses new : Nat → Nat) (hb : st.inBurn = true) (hu : c.pCRupdate = true)
    (hd : st.deltaTot = tab c.nCR fun m => fin (dist m)) (ht : st.total = tab c.nCR uses) (hc : st.cand = tab c.nCR new)
    (h0 : ∀ m, m < c.nCR → 0 ≤ dist m) (hpos : 0 < ((List.range c.nCR).map dist).sum) (hk : ∀ m, m < c.nCR → 0 < uses m + new m) :
    ∃ st', updatePCR c st = .ok st' ∧ st'.total = tab c.nCR (fun m => uses m + new m) ∧
      st'.pCR = tab c.nCR (fun m => fin (Spec.crossProb c.nCR dist (fun m => uses m + new m) m)) ∧
      ((List.range c.nCR).map fun m => Spec.crossProb c.nCR dist (fun m => uses m + new m) m).sum = 1 ∧
      ∀ m, m < c.nCR → 0 ≤ Spec.crossProb c.nCR dist (fun m => uses m + new m) m := by
  set S := ((List.range c.nCR).map dist).sum with hS
  set T := ((List.range c.nCR).map fun k => dist k / ((uses k + new k : Nat) : ℝ)).sum with hT
  have hTpos : 0 < T := by
    have hex : ∃ m ∈ List.range c.nCR, 0 < dist m := by
      by_contra hcon
      push Not at hcon
      have : S ≤ 0 := sum_nonpos' _ (by
        intro x hx
        rw [List.mem_map] at hx
        obtain ⟨m, hm, rfl⟩ := hx
        exact hcon m hm)
      linarith
    obtain ⟨m, hm, hdm⟩ := hex
    have hm' : m < c.nCR := by simpa using hm
    have hle : dist m / ((uses m + new m : Nat) : ℝ) ≤ T := by
      refine List.single_le_sum ?_ _ (List.mem_map.2 ⟨m, hm, rfl⟩)
      intro x hx
      rw [List.mem_map] at hx
      obtain ⟨k, hk', rfl⟩ := hx
      have hkn : k < c.nCR := by simpa using hk'
      exact div_nonneg (h0 k hkn) (Nat.cast_nonneg _)
    have : 0 < dist m / ((uses m + new m : Nat) : ℝ) := div_pos hdm (by exact_mod_cast hk m hm')
    linarith
  have hT' : T ≠ 0 := hTpos.ne'
  have hS' : S ≠ 0 := hpos.ne'
  have hp : newPCR c.nCR st.deltaTot (tab c.nCR fun m => uses m + new m) (fin S) =
      .ok (tab c.nCR fun m => fin (Spec.crossProb c.nCR dist (fun m => uses m + new m) m)) := by
    unfold newPCR
    rw [loopMap_ok c.nCR _ (fun m => fin (dist m / S / ((uses m + new m : Nat) : ℝ))) ?_, val_bind]
    · have hs : ((List.range c.nCR).map fun m => fin (dist m / S / ((uses m + new m : Nat) : ℝ))).foldl (· + ·) (0 : XR) = fin (T / S) := by
        rw [foldl_map_fin_add]
        congr 1
        rw [hT, div_eq_mul_inv, ← List.sum_map_mul_right]
        congr 1
        refine List.map_congr_left fun m _ => ?_
        ring
      show Except.ok (((List.range c.nCR).map fun m => fin (dist m / S / ((uses m + new m : Nat) : ℝ))).map fun x =>
        x / ((List.range c.nCR).map fun m => fin (dist m / S / ((uses m + new m : Nat) : ℝ))).foldl (· + ·) (0 : XR)) = _
      rw [hs, List.map_map]
      congr 1
      refine List.map_congr_left fun m _ => ?_
      show fin _ / fin (T / S) = _
      rw [fin_div_of_ne (div_ne_zero hT' hS')]
      congr 1
      show _ = dist m / ((uses m + new m : Nat) : ℝ) / T
      field_simp
    · intro m hm
      rw [hd, rd_tab _ hm, val_bind, rd_tab _ hm, val_bind, fin_div_of_ne hS', lit_def, fin_div_of_ne (by
        have := hk m hm
        simp only [Rat.cast_natCast]
        exact_mod_cast (show uses m + new m ≠ 0 by omega))]
      simp
  unfold updatePCR
  rw [if_pos (by simp [hb, hu]), loopMap_ok c.nCR _ (fun m => uses m + new m) (fun m hm => by rw [ht, hc, rd_tab _ hm, val_bind, rd_tab _ hm, val_bind]),
    val_bind, loopMap_ok c.nCR _ (fun m => fin (dist m)) (fun m hm => by rw [hd, rd_tab _ hm]), val_bind]
  show ∃ st', (if flt 0 (((List.range c.nCR).map fun m => fin (dist m)).foldl (· + ·) (0 : XR)) = true then _ else _) = _ ∧ _
  rw [foldl_map_fin_add, ← hS, if_pos (by rw [zero_def, flt_fin]; simpa using hpos)]
  show ∃ st', (newPCR c.nCR st.deltaTot (tab c.nCR fun m => uses m + new m) (fin S) >>= _) = _ ∧ _
  rw [hp, val_bind]
  refine ⟨_, rfl, rfl, rfl, ?_, ?_⟩
  · show ((List.range c.nCR).map fun m => dist m / ((uses m + new m : Nat) : ℝ) / T).sum = 1
    have : ((List.range c.nCR).map fun m => dist m / ((uses m + new m : Nat) : ℝ) / T) =
        (List.range c.nCR).map fun m => dist m / ((uses m + new m : Nat) : ℝ) * T⁻¹ := List.map_congr_left fun m _ => div_eq_mul_inv _ _
    rw [this, List.sum_map_mul_right, ← hT]
    exact mul_inv_cancel₀ hT'
  · intro m hm
    exact div_nonneg (div_nonneg (h0 m hm) (Nat.cast_nonneg _)) hTpos.le

/-- Three numbers with distances 1, 2, 3 used 1, 1, 3 times: probabilities 1/4, 1/2, 1/4. -/
example : (List.range 3).map (Spec.crossProb 3 (fun m => (m : ℝ) + 1) (fun m => if m = 2 then 3 else 1)) = [1 / 4, 1 / 2, 1 / 4] := by
  simp [Spec.crossProb, List.range_succ]
  norm_num

/-- If number 1 has been used and numbers 2 and 3 have not: NaN for those two, zero for the first, whatever the distances (which are positive from the start). -/
theorem C63_unused_false {σ : Type} (c : DreamCfg XR) (st : DreamSt σ XR) (d0 d1 d2 : ℝ) (n : Nat) (h0 : 0 < d0) (h1 : 0 < d1) (h2 : 0 < d2) (hn : 0 < n)
    (hc : c.nCR = 3) (hb : st.inBurn = true) (hu : c.pCRupdate = true) (hd : st.deltaTot = [fin d0, fin d1, fin d2]) (ht : st.total = [0, 0, 0])
    (hcand : st.cand = [n, 0, 0]) : ∃ st', updatePCR c st = .ok st' ∧ st'.pCR = [fin 0, nan, nan] := by
  unfold updatePCR
  rw [if_pos (by simp [hb, hu]), hc, ht, hcand, hd]
  show ∃ st', (if flt 0 ((0 : XR) + fin d0 + fin d1 + fin d2) = true then _ else _) = _ ∧ _
  have hS : 0 + d0 + d1 + d2 ≠ 0 := by positivity
  rw [zero_def, fin_add, fin_add, fin_add, flt_fin, if_pos (by simp; positivity)]
  show ∃ st', (newPCR 3 [fin d0, fin d1, fin d2] [0 + n, 0, 0] ((0 : XR) + fin d0 + fin d1 + fin d2) >>= _) = _ ∧ _
  have hp : newPCR 3 [fin d0, fin d1, fin d2] [0 + n, 0, 0] ((0 : XR) + fin d0 + fin d1 + fin d2) = .ok [fin 0, nan, nan] := by
    have hn' : (n : ℝ) ≠ 0 := by positivity
    have e0 : fin d0 / (fin (0 + d0 + d1 + d2)) / (lit ((0 + n : Nat) : ℚ) : XR) = fin (d0 / (0 + d0 + d1 + d2) / n) := by
      rw [fin_div_of_ne hS, lit_def, fin_div_of_ne (by simpa using hn')]
      simp
    have e1 : fin d1 / (fin (0 + d0 + d1 + d2)) / (lit ((0 : Nat) : ℚ) : XR) = pinf := by
      rw [fin_div_of_ne hS, lit_def]
      simp only [Nat.cast_zero, Rat.cast_zero]
      rw [fin_div_zero, infSign_pos (by positivity)]
    have e2 : fin d2 / (fin (0 + d0 + d1 + d2)) / (lit ((0 : Nat) : ℚ) : XR) = pinf := by
      rw [fin_div_of_ne hS, lit_def]
      simp only [Nat.cast_zero, Rat.cast_zero]
      rw [fin_div_zero, infSign_pos (by positivity)]
    rw [zero_def, fin_add, fin_add, fin_add]
    show Except.ok (([fin d0 / (fin (0 + d0 + d1 + d2)) / (lit ((0 + n : Nat) : ℚ) : XR), fin d1 / (fin (0 + d0 + d1 + d2)) / (lit ((0 : Nat) : ℚ) : XR),
      fin d2 / (fin (0 + d0 + d1 + d2)) / (lit ((0 : Nat) : ℚ) : XR)]).map fun x => x / ((0 : XR) +
        fin d0 / (fin (0 + d0 + d1 + d2)) / (lit ((0 + n : Nat) : ℚ) : XR) + fin d1 / (fin (0 + d0 + d1 + d2)) / (lit ((0 : Nat) : ℚ) : XR) +
        fin d2 / (fin (0 + d0 + d1 + d2)) / (lit ((0 : Nat) : ℚ) : XR))) = _
    rw [e0, e1, e2, zero_def, fin_add]
    rfl
  rw [hp, val_bind]
  exact ⟨_, rfl, rfl⟩

end Imfit
