import Verif.Spec.DreamStat
import Verif.Lemmas.DreamToy
import Mathlib.Tactic.Linarith
import Mathlib.Tactic.Positivity
import Mathlib.Tactic.FieldSimp
import Mathlib.Algebra.BigOperators.Group.List.Basic
import Mathlib.MeasureTheory.Measure.Lebesgue.Basic

/-!
# C68: proposals follow the published algorithm

The proposal of a chain changes some of its free parameters, and each of them by `(1 + e) * gamma` times the sum of the differences between pairs of other chains,
plus a small random number. `gamma` is `2.38 / sqrt (2 * d * n)` for `d` changed parameters and `n` pairs, and 1 in every fifth generation. A parameter is left
alone with probability `1 - m / nCR`, where `m` is the entry of the crossover table.
-/

namespace Imfit

open XR MeasureTheory

namespace Spec

/-- The factor of the differences. -/
noncomputable def gamma (t d n : ℕ) : ℝ := if 1 < t ∧ 5 ∣ t then 1 else 2.38 / Real.sqrt (2 * d * n)

/-- The sum of the differences; `x` are the values of one parameter by chain. -/
def difference (x : ℕ → ℝ) (pairs : List (ℕ × ℕ)) : ℝ := (pairs.map fun p => x p.1 - x p.2).sum

/-- The proposed value; `u` says whether the parameter is changed. -/
noncomputable def proposed (t d : ℕ) (x : ℕ → ℝ) (i : ℕ) (pairs : List (ℕ × ℕ)) (u : Bool) (e eps : ℝ) : ℝ :=
  if u then x i + ((1 + e) * gamma t d pairs.length * difference x pairs + eps) else x i

end Spec

/-- The loop with an invariant of the values so far. -/
theorem Sat.loopAccL {β σ : Type} {n : Nat} {s : σ} {f : Nat → σ → Res (β × σ)} {I : List β → σ → Prop} (h0 : I [] s)
    (h : ∀ l s, l.length < n → I l s → Sat (f l.length s) fun r => I (l ++ [r.1]) r.2) : Sat (Imfit.loopAcc n s f) fun r => r.1.length = n ∧ I r.1 r.2 := by
  induction n with
  | zero => exact Sat.ok ⟨rfl, h0⟩
  | succ n ih =>
    unfold Imfit.loopAcc
    refine Sat.bind (ih fun l s hl => h l s (by omega)) ?_
    rintro ⟨l, s1⟩ ⟨hl, hi⟩
    have hl' : l.length = n := hl
    have := h l s1 (by omega) hi
    rw [hl'] at this
    refine Sat.bind this ?_
    rintro ⟨b, s2⟩ hi2
    exact Sat.ok ⟨by simpa using hl', hi2⟩

section
variable {σ : Type}

theorem holds_row {c : DreamCfg XR} {state : List (Option (List XR))} {x : ℕ → ℕ → ℕ → ℝ} {k0 k1 k i j : ℕ} (h : Spec.Holds c state x k0 k1) (h0 : k0 ≤ k)
    (h1 : k < k1) (hi : i < c.numChains) : ∃ row, getRow c state k i = .ok row ∧ (j < c.nvar → rd row j = .ok (fin (x k i j))) := by
  obtain ⟨row, e, hr⟩ := h k i h0 h1 hi
  refine ⟨row, rdU_sat e, fun hj => ?_⟩
  have hlt : j < row.length := by
    by_contra hcon
    have := hr j hj
    rw [List.getElem?_eq_none (by omega)] at this
    cases this
  obtain ⟨a, ea, hra⟩ := Sat.rd hlt
  rw [hr j hj] at hra
  cases hra
  exact ea

theorem pairDiff_ok (c : DreamCfg XR) (state : List (Option (List XR))) (x : ℕ → ℕ → ℕ → ℝ) (t j : ℕ) (ht : 0 < t) (hj : j < c.nvar)
    (hh : Spec.Holds c state x (t - 1) t) (pairs : List (ℕ × ℕ)) (hp : ∀ p ∈ pairs, p.1 < c.numChains ∧ p.2 < c.numChains) :
    pairDiff c state t j pairs = .ok (fin (Spec.difference (fun i => x (t - 1) i j) pairs)) := by
  have key : ∀ (l : List (ℕ × ℕ)) (a : ℝ), (∀ p ∈ l, p.1 < c.numChains ∧ p.2 < c.numChains) → l.foldlM (fun acc p =>
      if p.1 = p.2 then (.ok acc : Res XR)
      else do
        let ra ← getRow c state (t - 1) p.1
        let a ← rd ra j
        let rb ← getRow c state (t - 1) p.2
        let b ← rd rb j
        .ok (acc + (a - b))) (fin a) = .ok (fin (a + Spec.difference (fun i => x (t - 1) i j) l)) := by
    intro l
    induction l with
    | nil =>
      intro a _
      simp [Spec.difference]
      rfl
    | cons p l ih =>
      intro a hl
      rw [List.foldlM_cons]
      have hrest : ∀ q ∈ l, q.1 < c.numChains ∧ q.2 < c.numChains := fun q hq => hl q (by simp [hq])
      by_cases he : p.1 = p.2
      · rw [if_pos he, val_bind, ih a hrest]
        simp [Spec.difference, he]
      · rw [if_neg he]
        obtain ⟨ra, e1, e2⟩ := holds_row (j := j) hh (le_refl _) (show t - 1 < t by omega) (hl p (by simp)).1
        obtain ⟨rb, e3, e4⟩ := holds_row (j := j) hh (le_refl _) (show t - 1 < t by omega) (hl p (by simp)).2
        rw [e1, val_bind, e2 hj, val_bind, e3, val_bind, e4 hj, val_bind, val_bind, fin_sub, fin_add, ih _ hrest]
        congr 2
        simp only [Spec.difference, List.map_cons, List.sum_cons]
        ring
  unfold pairDiff
  rw [zero_def, key pairs 0 hp, zero_add]

/-- The finite value. -/
noncomputable def fval : XR → ℝ
  | fin x => x
  | _ => 0

/-- What is drawn for parameter `j`. -/
structure VarOk (c : DreamCfg XR) (b : ℝ) (x : ℕ → ℕ → ℕ → ℝ) (t : ℕ) (pairs : List (ℕ × ℕ)) (j : ℕ) (d : VarDraw XR) : Prop where
  lock : c.lock[j]? = some true → d.upd = false
  e : ∃ e, d.e = fin e ∧ |e| ≤ b
  eps : ∃ g, d.eps = fin g
  pd : d.upd = true → d.pd = fin (Spec.difference (fun i => x (t - 1) i j) pairs)

theorem drawVar_ok (c : DreamCfg XR) (hc : c.lock.length = c.nvar) (R : Rng σ XR) (hu : ∀ s, ∃ u, 0 ≤ u ∧ u < 1 ∧ (R.unif s).1 = fin u)
    (hg : ∀ s, ∃ g, (R.gauss c.bstar s).1 = fin g) (b : ℝ) (hb : 0 ≤ b) (hn : c.noise = fin b) (st : DreamSt σ XR) (hs : ChainShape c st) (hk : CrmOk c st)
    (x : ℕ → ℕ → ℕ → ℝ) (t i j : ℕ) (ht : 0 < t) (hi : i < c.numChains) (hj : j < c.nvar) (hh : Spec.Holds c st.state x (t - 1) t) (pairs : List (ℕ × ℕ))
    (hp : ∀ p ∈ pairs, p.1 < c.numChains ∧ p.2 < c.numChains) (s : σ × Int) :
    Sat (drawVar c R st t i pairs j s) fun r => VarOk c b x t pairs j r.1 ∧
      (c.lock[j]? = some true → r.2.2 = s.2) ∧ (c.lock[j]? = some false → r.2.2 = if r.1.upd then s.2 else s.2 - 1) := by
  unfold drawVar
  obtain ⟨l, el, hl⟩ := Sat.rd (l := c.lock) (i := j) (by omega)
  rw [el, val_bind]
  cases l with
  | true =>
    rw [if_pos rfl]
    refine Sat.ok ⟨⟨fun _ => rfl, ⟨0, rfl, by simpa using hb⟩, ⟨0, rfl⟩, fun h => by cases h⟩, fun _ => rfl, fun h => ?_⟩
    rw [hl] at h
    cases h
  | false =>
    rw [if_neg (by decide), pairDiff_ok c st.state x t j ht hj hh pairs hp, val_bind]
    have hlt : i * c.loopSteps + st.gen < st.crm.length := by
      rw [hs.crm]
      exact cellIdx_lt hs.gen hi
    obtain ⟨m, hm, -, -⟩ := hk _ (List.getElem_mem hlt)
    have hm' : rdU st.crm (i * c.loopSteps + st.gen) = .ok m := rdU_sat (by rw [List.getElem?_eq_getElem hlt, hm])
    rw [hm', val_bind]
    refine Sat.ok ⟨⟨fun h => ?_, ?_, hg _, fun _ => rfl⟩, fun h => ?_, fun _ => ?_⟩
    · rw [hl] at h
      cases h
    · obtain ⟨u, h0, h1, eu⟩ := hu s.1
      refine ⟨b * (2 * u - 1), ?_, ?_⟩
      · show c.noise * (lit 2 * (R.unif s.1).1 - 1) = _
        rw [eu, hn, lit_def, one_def, fin_mul, fin_sub, fin_mul]
        norm_num
      · rw [abs_mul, abs_of_nonneg hb]
        have : |2 * u - 1| ≤ 1 := abs_le.2 ⟨by linarith, by linarith⟩
        nlinarith
    · rw [hl] at h
      cases h
    · show (if (crossCheck c R m (R.gauss c.bstar (R.unif s.1).2).2).1 then s.2 - 1 else s.2) =
        if (!(crossCheck c R m (R.gauss c.bstar (R.unif s.1).2).2).1) then s.2 else s.2 - 1
      cases (crossCheck c R m (R.gauss c.bstar (R.unif s.1).2).2).1 <;> rfl

theorem jump_ok (t d n : ℕ) (hd : 0 < d) (hn : 0 < n) : (jump t (d : Int) n : XR) = fin (Spec.gamma t d n) := by
  unfold jump Spec.gamma
  by_cases h : 1 < t ∧ t % 5 = 0
  · rw [if_pos h, if_pos ⟨h.1, Nat.dvd_of_mod_eq_zero h.2⟩]
    rfl
  · rw [if_neg h, if_neg (fun h' => h ⟨h'.1, Nat.mod_eq_zero_of_dvd h'.2⟩)]
    have h2 : (0 : ℝ) < 2 * d * n := by positivity
    simp only [lit_def, fin_mul]
    have e : (((2 : ℚ) : ℝ) * (((d : Int) : ℚ) : ℝ) * ((n : ℚ) : ℝ)) = 2 * d * n := by push_cast; ring
    rw [e, fsqrt_fin_of_nonneg h2.le, fin_div_of_ne (Real.sqrt_pos.2 h2).ne']
    norm_num

/-- The proposal of chain `i` in generation `t`: `d` lists, for every parameter, whether it is changed, and the two random numbers. -/
theorem C68_proposal (c : DreamCfg XR) (hc : c.lock.length = c.nvar) (hfree : c.nfree = c.lock.countP (fun l => !l)) (h2 : 2 ≤ c.numChains) (R : Rng σ XR)
    (hR : Spec.GoodRng R) (hu : ∀ s, ∃ u, 0 ≤ u ∧ u < 1 ∧ (R.unif s).1 = fin u) (hg : ∀ s, ∃ g, (R.gauss c.bstar s).1 = fin g) (b : ℝ) (hb : 0 ≤ b)
    (hn : c.noise = fin b) (st : DreamSt σ XR) (hs : ChainShape c st) (hk : CrmOk c st) (x : ℕ → ℕ → ℕ → ℝ) (t i : ℕ) (ht : 0 < t) (hi : i < c.numChains)
    (hh : Spec.Holds c st.state x (t - 1) t) (s : σ) :
    ∃ (new : List XR) (s' : σ) (pairs : List (ℕ × ℕ)) (d : List (Bool × ℝ × ℝ)),
      propose c R st t i s = .ok ((new, (d.countP (·.1) : ℕ)), s') ∧
      1 ≤ pairs.length ∧ pairs.length ≤ max 1 c.deltaMax ∧
      (∀ p ∈ pairs, p.1 < c.numChains ∧ p.2 < c.numChains ∧ p.1 ≠ i ∧ (2 < c.numChains → p.2 ≠ i ∧ p.1 ≠ p.2)) ∧
      new.length = c.nvar ∧ d.length = c.nvar ∧ ∀ (j : Nat) u e eps, d[j]? = some (u, e, eps) → |e| ≤ b ∧ (c.lock[j]? = some true → u = false) ∧
        new[j]? = some (fin (Spec.proposed t (d.countP (·.1)) (fun i => x (t - 1) i j) i pairs u e eps)) := by
  unfold propose
  obtain ⟨row, e1, -⟩ := holds_row (j := 0) hh (le_refl _) (show t - 1 < t by omega) hi
  have hrow : ∀ j, j < c.nvar → rd row j = .ok (fin (x (t - 1) i j)) := by
    intro j hj
    obtain ⟨row', e1', h⟩ := holds_row (j := j) hh (le_refl _) (show t - 1 < t by omega) hi
    rw [e1] at e1'
    cases e1'
    exact h hj
  show ∃ new s' pairs d, (getRow c st.state (t - 1) i >>= _) = _ ∧ _
  rw [e1, val_bind]
  obtain ⟨⟨ps, s1⟩, e2, ⟨hpl, hps⟩, -⟩ := Sat.loopAcc (n := (pickDelta c R s).1) (s := (pickDelta c R s).2) (f := fun _ s => pickPair c R i s)
    (Q := fun _ (p : ℕ × ℕ) => p.1 < c.numChains ∧ p.2 < c.numChains ∧ p.1 ≠ i ∧ (2 < c.numChains → p.2 ≠ i ∧ p.1 ≠ p.2)) (I := fun _ _ => True) trivial
    (fun z s1 _ _ => (pickPair_sat hR h2 hi s1).mono fun r hr => ⟨⟨hr.1, hr.2.1, hr.2.2.1, fun hn => ⟨(hr.2.2.2 hn).2, fun h => (hr.2.2.2 hn).1 h.symm⟩⟩, trivial⟩)
  have hps' : ∀ p ∈ ps, p.1 < c.numChains ∧ p.2 < c.numChains ∧ p.1 ≠ i ∧ (2 < c.numChains → p.2 ≠ i ∧ p.1 ≠ p.2) := by
    intro p hp
    obtain ⟨z, hz, rfl⟩ := List.getElem_of_mem hp
    exact hps z _ (by simp [hz])
  have hpl' : ps.length = (pickDelta c R s).1 := hpl
  rw [e2, val_bind]
  obtain ⟨⟨vs, s2⟩, e3, hvl, hvs, hcount⟩ := Sat.loopAccL (n := c.nvar) (s := (s1, (c.nfree : Int))) (f := fun j s => drawVar c R st t i ps j s)
    (I := fun l s => (∀ (j : Nat) d, l[j]? = some d → VarOk c b x t ps j d) ∧
      s.2 + ((c.lock.take l.length).countP (fun l => !l) : ℕ) = c.nfree + (l.countP (·.upd) : ℕ)) ⟨by simp, by simp⟩ (by
    rintro l s2 hl ⟨h1, h3⟩
    refine (drawVar_ok c hc R hu hg b hb hn st hs hk x t i l.length ht hi hl hh ps (fun p hp => ⟨(hps' p hp).1, (hps' p hp).2.1⟩) s2).mono ?_
    rintro ⟨d, s3⟩ ⟨g1, g2, g3⟩
    refine ⟨?_, ?_⟩
    · intro j d' hd'
      rcases Nat.lt_trichotomy j l.length with h | h | h
      · rw [List.getElem?_append_left h] at hd'
        exact h1 j d' hd'
      · subst h
        rw [List.getElem?_append_right (le_refl _)] at hd'
        simp at hd'
        rw [← hd']
        exact g1
      · rw [List.getElem?_eq_none (by simp; omega)] at hd'
        cases hd'
    · have hlt : l.length < c.lock.length := by omega
      have htake : c.lock.take (l.length + 1) = c.lock.take l.length ++ [c.lock[l.length]] := by
        rw [List.take_add_one, List.getElem?_eq_getElem hlt]
        rfl
      rw [List.length_append, List.length_singleton, htake, List.countP_append, List.countP_append, List.countP_singleton, List.countP_singleton]
      have hget : c.lock[l.length]? = some c.lock[l.length] := List.getElem?_eq_getElem hlt
      have h3' : s2.2 + ((c.lock.take l.length).countP (fun l => !l) : ℕ) = c.nfree + (l.countP (·.upd) : ℕ) := h3
      have g1' := g1.lock
      cases hb' : c.lock[l.length] with
      | true =>
        rw [hb'] at hget
        have e4 : s3.2 = s2.2 := g2 hget
        have e5 : d.upd = false := g1' hget
        rw [e4, e5]
        simp only [Bool.not_true, Bool.false_eq_true, if_false]
        push_cast
        linarith
      | false =>
        rw [hb'] at hget
        have e4 : s3.2 = if d.upd then s2.2 else s2.2 - 1 := g3 hget
        rw [e4]
        cases hd : d.upd with
        | true =>
          simp only [Bool.not_false, if_true]
          push_cast
          linarith
        | false =>
          simp only [Bool.not_false, Bool.false_eq_true, if_true, if_false]
          push_cast
          linarith)
  have hcount' : s2.2 = (vs.countP (·.upd) : ℕ) := by
    have hvl' : vs.length = c.nvar := hvl
    have h3 : s2.2 + ((c.lock.take vs.length).countP (fun l => !l) : ℕ) = c.nfree + (vs.countP (·.upd) : ℕ) := hcount
    rw [List.take_of_length_le (by omega), ← hfree] at h3
    linarith
  have hvl' : vs.length = c.nvar := hvl
  rw [e3, val_bind]
  have hdl : 0 < ps.length := by
    rw [hpl']
    exact pickDelta_pos c R s
  have e6 : loopMap c.nvar (fun j => do
      let v ← rd vs j
      let x ← rd row j
      .ok (newValueD t s2.2 (pickDelta c R s).1 v x)) = .ok ((List.range c.nvar).map fun j =>
        newValueD t s2.2 (pickDelta c R s).1 (vs.getD j ⟨false, 0, 0, 0⟩) (fin (x (t - 1) i j))) := by
    refine loopMap_ok _ _ _ fun j hj => ?_
    obtain ⟨v, ev, hv⟩ := Sat.rd (l := vs) (i := j) (by omega)
    rw [ev, val_bind, hrow j hj, val_bind, List.getD_eq_getElem?_getD, hv]
    rfl
  refine ⟨(List.range c.nvar).map fun j => newValueD t s2.2 (pickDelta c R s).1 (vs.getD j ⟨false, 0, 0, 0⟩) (fin (x (t - 1) i j)), s2.1, ps, vs.map fun v => (v.upd, fval v.e, fval v.eps), ?_, hdl, ?_, hps', ?_, ?_, ?_⟩
  · show (loopMap c.nvar _ >>= _) = _
    rw [e6, val_bind, List.countP_map]
    show (Except.ok ((_, s2.2), s2.1) : Res _) = _
    rw [hcount']
    rfl
  · rw [hpl']
    unfold pickDelta
    split
    · rename_i h1
      have := hR.uint c.deltaMax s (by omega)
      show (R.uint c.deltaMax s).1 + 1 ≤ _
      omega
    · exact le_max_left _ _
  · simp
  · simpa using hvl'
  · intro j u e eps hd
    rw [List.getElem?_map] at hd
    cases hv : vs[j]? with
    | none =>
      rw [hv] at hd
      cases hd
    | some v =>
      rw [hv] at hd
      simp only [Option.map_some, Option.some.injEq, Prod.mk.injEq] at hd
      obtain ⟨rfl, rfl, rfl⟩ := hd
      have hok := hvs j v hv
      obtain ⟨e', he, heb⟩ := hok.e
      obtain ⟨g', hge⟩ := hok.eps
      have hj : j < c.nvar := by
        rw [← hvl']
        by_contra hcon
        rw [List.getElem?_eq_none (by omega)] at hv
        cases hv
      rw [he, hge]
      refine ⟨heb, hok.lock, ?_⟩
      rw [List.getElem?_map, List.getElem?_range hj, Option.map_some, List.getD_eq_getElem?_getD, hv, List.countP_map]
      show some (newValueD t s2.2 (pickDelta c R s).1 v (fin (x (t - 1) i j))) = _
      congr 1
      unfold newValueD Spec.proposed
      rw [hcount']
      cases hupd : v.upd with
      | false => rw [if_neg (by simp), if_neg (by simp)]
      | true =>
        have hpos : 0 < vs.countP (·.upd) := List.countP_pos_iff.2 ⟨v, List.mem_of_getElem? hv, hupd⟩
        rw [if_pos ⟨by exact_mod_cast hpos, rfl⟩, if_pos rfl, jump_ok t _ _ hpos (by omega), hok.pd hupd, he, hge, one_def, fin_add, fin_mul, fin_mul, fin_add,
          fin_add, hpl']
        rfl

/-- A parameter is left alone with probability `1 - m / nCR`; the probability is the length of the set of the uniform numbers. -/
theorem C68_crossover (c : DreamCfg XR) (R : ℝ → Rng σ XR) (s : σ) (hR : ∀ u, ((R u).unif s).1 = fin u) (m : ℕ) (hm : 1 ≤ m) (hmn : m ≤ c.nCR) :
    volume {u : ℝ | u ∈ Set.Ico 0 1 ∧ (crossCheck c (R u) m s).1 = true} = ENNReal.ofReal (1 - m / c.nCR) := by
  have hpos : (0 : ℝ) < c.nCR := by
    have : 0 < c.nCR := by omega
    exact_mod_cast this
  have hle : (m : ℝ) ≤ c.nCR := by exact_mod_cast hmn
  have h0 : (0 : ℝ) < m := by exact_mod_cast hm
  have hcr : (1 * lit (m : ℚ) / lit (c.nCR : ℚ) : XR) = fin ((m : ℝ) / c.nCR) := by
    rw [one_def, lit_def, lit_def, fin_mul, fin_div_of_ne (by simpa using hpos.ne')]
    norm_num
  have hset : {u : ℝ | u ∈ Set.Ico 0 1 ∧ (crossCheck c (R u) m s).1 = true} = Set.Ico 0 (1 - (m : ℝ) / c.nCR) := by
    ext u
    unfold crossCheck
    rw [hcr, one_def, flt_fin, fin_sub]
    by_cases hlt : (m : ℝ) / c.nCR < 1
    · simp only [hlt, decide_true, if_true, hR, flt_fin, decide_eq_true_eq, Set.mem_ofPred_eq, Set.mem_Ico]
      have : 0 < (m : ℝ) / c.nCR := by positivity
      constructor
      · rintro ⟨⟨a, -⟩, b⟩
        exact ⟨a, b⟩
      · rintro ⟨a, b⟩
        exact ⟨⟨a, by linarith⟩, b⟩
    · simp only [hlt, decide_false, Bool.false_eq_true, if_false, and_false, Set.mem_ofPred_eq, false_iff, Set.mem_Ico, not_and, not_lt]
      intro _
      linarith
  rw [hset, Real.volume_Ico, sub_zero]

end

example : Spec.gamma 1 1 1 = 2.38 / Real.sqrt 2 := by
  unfold Spec.gamma
  norm_num

example : Spec.gamma 10 3 2 = 1 := by
  unfold Spec.gamma
  norm_num

/-- Two pairs: chains 1, 2 and 3, 0. -/
example : Spec.proposed 5 2 (fun i => (i : ℝ) * i) 4 [(1, 2), (3, 0)] true 0 (1 / 8) = 16 + 6 + 1 / 8 := by
  simp [Spec.proposed, Spec.gamma, Spec.difference]
  norm_num

/-- A proposal of the integer version: the second chain, at 3, in generation 5 gets the difference of chains 2 and 0, at 6 and 0, and the small number 1. -/
example : let _ := toyFP
    ((propose { toyCfg with maxEvals := 8 } toyRng { (start { toyCfg with maxEvals := 8 } 1 : DreamSt Nat Int) with
        state := List.replicate 12 none ++ [some [0, 5], some [3, 5], some [6, 5]] ++ List.replicate 9 none
        crm := List.replicate 30 (some 3) } 5 1 1).toOption.map Prod.fst) = some ([10, 5], 1) := by
  decide +kernel

end Imfit
