import Verif.Spec.Dream
import Verif.Lemmas.Sat

/-!
# Lemmas about the Markov-chain sampler

The main result is `runLoop_sat`: from a state that satisfies `Inv` the loop over the generations returns normally, and `Inv` holds at the end.
-/

namespace Imfit

section
variable {σ α : Type} [FP α]

/-- What is asked of the configuration. -/
structure DreamOk (c : DreamCfg α) : Prop where
  lock : c.lock.length = c.nvar
  lo : c.lo.length = c.nvar
  hi : c.hi.length = c.nvar
  chains : 0 < c.numChains
  steps : 0 < c.loopSteps
  ncr : 0 < c.nCR
  ordered : ∀ (j : Nat) a b, c.lo[j]? = some a → c.hi[j]? = some b → flt b a = false

/-- A class of values that proposals do not leave. -/
structure Closed (V : α → Prop) (c : DreamCfg α) (R : Rng σ α) : Prop where
  zero : V 0
  add : ∀ a b, V a → V b → V (a + b)
  sub : ∀ a b, V a → V b → V (a - b)
  step : ∀ u t upd delta pd g s, V pd → u = (R.unif s).1 → (∃ s', g = (R.gauss c.bstar s').1) → 0 < upd → 0 < delta →
    V ((1 + c.noise * (lit 2 * u - 1)) * jump t upd delta * pd + g)
  lo : ∀ a ∈ c.lo, V a
  hi : ∀ b ∈ c.hi, V b
  first : ∀ a b (k : Nat) s, a ∈ c.lo → b ∈ c.hi →
    V (a + lit (k : ℚ) * (b - a) / lit (c.numChains : ℚ) + (b - a) / lit (c.numChains : ℚ) * (R.unif s).1)
  again : ∀ a b s, a ∈ c.lo → b ∈ c.hi → V (a + (b - a) * (R.unif s).1)

/-- A position that can be held by a chain. -/
def Pos (V : α → Prop) (c : DreamCfg α) (row : List α) : Prop :=
  row.length = c.nvar ∧ ∀ (j : Nat) x, row[j]? = some x → V x ∧ ∀ l a b, c.lock[j]? = some l → c.lo[j]? = some a → c.hi[j]? = some b →
    flt x a = false ∧ flt b x = false ∧ (l = true → x = a)

/-- The same without the limits of the free parameters. -/
def Half (V : α → Prop) (c : DreamCfg α) (row : List α) : Prop :=
  row.length = c.nvar ∧ ∀ (j : Nat) x, row[j]? = some x → V x ∧ ∀ l a b, c.lock[j]? = some l → c.lo[j]? = some a → c.hi[j]? = some b →
    l = true → flt x a = false ∧ flt b x = false ∧ x = a

theorem Pos.half {V : α → Prop} {c : DreamCfg α} {row : List α} (h : Pos V c row) : Half V c row :=
  ⟨h.1, fun j x hx => ⟨(h.2 j x hx).1, fun l a b hl ha hb hlt =>
    ⟨((h.2 j x hx).2 l a b hl ha hb).1, ((h.2 j x hx).2 l a b hl ha hb).2.1, ((h.2 j x hx).2 l a b hl ha hb).2.2 hlt⟩⟩⟩

/-- Neither `-INFINITY` nor NaN. -/
def Num (v : α) : Prop := eqD v ninfty = false ∧ fle v v = true

/-- The first `n` cells hold positions together with their likelihoods, which are numbers. -/
def Hist (V : α → Prop) (c : DreamCfg α) (F : List α → α) (n : Nat) (st : DreamSt σ α) : Prop :=
  ∀ q, q < n → ∃ row, (Pos V c row ∧ Num (F row)) ∧ st.state[q]? = some (some row) ∧ st.lik[q]? = some (some (F row))

/-- Sizes of the arrays. -/
structure ChainShape (c : DreamCfg α) (st : DreamSt σ α) : Prop where
  state : st.state.length = c.maxEvals * c.numChains
  lik : st.lik.length = (c.maxEvals + 1) * c.numChains
  accept : st.accept.length = c.numChains
  crm : st.crm.length = c.numChains * c.loopSteps
  deltaTot : st.deltaTot.length = c.nCR
  total : st.total.length = c.nCR
  cand : st.cand.length = c.nCR
  scale : st.scaleRed.length = c.nvar
  gen : st.gen < c.loopSteps

/-- The crossover table holds values between 1 and `nCR`. -/
def CrmOk (c : DreamCfg α) (st : DreamSt σ α) : Prop := ∀ x ∈ st.crm, ∃ m, x = some m ∧ 1 ≤ m ∧ m ≤ c.nCR

theorem cellIdx_lt {n k i t : Nat} (hi : i < n) (hk : k < t) : k * n + i < t * n := by
  calc k * n + i < k * n + n := by omega
    _ = (k + 1) * n := by ring
    _ ≤ t * n := Nat.mul_le_mul_right n hk

theorem prev_lt {n i t : Nat} (hi : i < n) (ht : 0 < t) : (t - 1) * n + i < t * n := cellIdx_lt hi (by omega)

theorem rdU_sat {β : Type} {l : List (Option β)} {k : Nat} {b : β} (h : l[k]? = some (some b)) : rdU l k = .ok b := by
  unfold rdU rd
  rw [h]
  rfl

theorem Hist.row {V : α → Prop} {c : DreamCfg α} {F : List α → α} {n : Nat} {st : DreamSt σ α} (h : Hist V c F n st) {t i : Nat}
    (hq : t * c.numChains + i < n) : ∃ row, Pos V c row ∧ getRow c st.state t i = .ok row ∧ getLik c st.lik t i = .ok (F row) := by
  obtain ⟨row, h1, h2, h3⟩ := h _ hq
  exact ⟨row, h1.1, rdU_sat h2, rdU_sat h3⟩

theorem Hist.num {V : α → Prop} {c : DreamCfg α} {F : List α → α} {n : Nat} {st : DreamSt σ α} (h : Hist V c F n st) {t i : Nat}
    (hq : t * c.numChains + i < n) {row : List α} (hr : getRow c st.state t i = .ok row) : Num (F row) := by
  obtain ⟨row', h1, h2, h3⟩ := h _ hq
  have := rdU_sat h2
  rw [show rdU st.state (t * c.numChains + i) = .ok row from hr] at this
  cases this
  exact h1.2

/-! ## Crossover table -/

theorem crEntries_length (l : List Nat) (k : Nat) : ((l.zipIdx k).flatMap fun x => List.replicate x.1 (x.2 + 1)).length = l.sum := by
  induction l generalizing k with
  | nil => rfl
  | cons a l ih => simp [List.zipIdx_cons, ih]

theorem crEntries_mem {l : List Nat} {k m : Nat} (h : m ∈ (l.zipIdx k).flatMap fun x => List.replicate x.1 (x.2 + 1)) : k + 1 ≤ m ∧ m ≤ k + l.length := by
  induction l generalizing k with
  | nil => simp at h
  | cons a l ih =>
    rw [List.zipIdx_cons, List.flatMap_cons, List.mem_append] at h
    rcases h with h | h
    · rw [List.mem_replicate] at h
      simp only [List.length_cons]
      omega
    · have := ih h
      simp only [List.length_cons]
      omega

theorem rearrange_sat {β : Type} {l : List β} {p : List Nat} (hp : p.Perm (List.range l.length)) :
    Sat (rearrange l p) fun r => r.length = l.length ∧ ∀ x ∈ r, x ∈ l := by
  unfold rearrange
  have hl : p.length = l.length := by rw [hp.length_eq]; simp
  refine (Sat.loopMap (Q := fun _ b => b ∈ l) ?_).mono ?_
  · intro z hz
    refine Sat.bind (Sat.rd (by omega)) ?_
    intro q hq
    have hq' : q < l.length := by
      have : q ∈ p := List.mem_of_getElem? hq
      have := hp.subset this
      simpa using this
    exact (Sat.rd hq').mono fun a ha => List.mem_of_getElem? ha
  · rintro r ⟨h1, h2⟩
    refine ⟨h1, fun x hx => ?_⟩
    obtain ⟨z, hz, rfl⟩ := List.getElem_of_mem hx
    exact h2 z _ (by simp [hz])

/-- `gen_CR` succeeds and leaves a table with valid entries if the table was valid before or the counts add up. -/
theorem genCR_sat {c : DreamCfg α} {R : Rng σ α} (hR : Spec.GoodRng R) {st : DreamSt σ α} (hs : ChainShape c st)
    (hc : CrmOk c st ∨ ∀ s, (R.multi c.nCR (c.numChains * c.loopSteps) st.pCR s).1.sum = c.numChains * c.loopSteps) :
    Sat (genCR c R st) fun st' => CrmOk c st' ∧ ChainShape c st' ∧ st'.state = st.state ∧ st'.lik = st.lik ∧ st'.gen = st.gen ∧ st'.inBurn = st.inBurn ∧
      st'.burnStart = st.burnStart ∧ st'.calls = st.calls ∧ st'.out = st.out := by
  unfold genCR
  have hsum := crEntries_length (R.multi c.nCR (c.numChains * c.loopSteps) st.pCR st.rng).1 0
  have hle := hR.multi_le c.nCR (c.numChains * c.loopSteps) st.pCR st.rng
  have hlen := hs.crm
  have hcl := hR.multi_length c.nCR (c.numChains * c.loopSteps) st.pCR st.rng
  set L := (R.multi c.nCR (c.numChains * c.loopSteps) st.pCR st.rng).1 with hL
  have he : (crEntries L).length = L.sum := hsum
  show Sat (if st.crm.length < (crEntries L).length then _ else _) _
  rw [if_neg (by rw [he]; omega)]
  have hlen2 : ((crEntries L).map some ++ st.crm.drop (crEntries L).length).length = c.numChains * c.loopSteps := by
    simp only [List.length_append, List.length_map, List.length_drop]
    omega
  refine Sat.bind (rearrange_sat (by rw [hlen2]; exact hR.perm _ _)) ?_
  rintro r ⟨h1, h2⟩
  refine Sat.ok ⟨?_, ⟨hs.state, hs.lik, hs.accept, by show r.length = _; rw [h1, hlen2], hs.deltaTot, hs.total, hcl, hs.scale, hs.gen⟩, rfl, rfl, rfl, rfl, rfl, rfl, rfl⟩
  intro x hx
  have hx2 := h2 x hx
  rw [List.mem_append] at hx2
  rcases hx2 with hx2 | hx2
  · rw [List.mem_map] at hx2
    obtain ⟨m, hm, rfl⟩ := hx2
    have h3 : 0 + 1 ≤ m ∧ m ≤ 0 + L.length := crEntries_mem hm
    exact ⟨m, rfl, by omega, by omega⟩
  · rcases hc with hc | hc
    · exact hc x (List.mem_of_mem_drop hx2)
    · have := hc st.rng
      rw [← hL] at this
      have h4 : st.crm.length ≤ (crEntries L).length := by omega
      have h5 : st.crm.drop (crEntries L).length = [] := List.drop_eq_nil_of_le h4
      rw [show st.crm.drop (crEntries (R.multi c.nCR (c.numChains * c.loopSteps) st.pCR st.rng).1).length = [] from h5] at hx2
      simp at hx2

/-! ## Pairs -/

theorem advance_sat {n i r1 : Nat} (hn : 2 < n) (hi : i < n) (h1 : r1 < n) {r2 : Nat} (h2 : r2 < n) {fuel : Nat} (hf : 3 ≤ fuel) :
    Sat (advance n i r1 fuel r2) fun r => r < n ∧ r ≠ r1 ∧ r ≠ i := by
  have key : ∀ r, r < n → ¬(r = r1 ∨ r = i) → ∀ f, Sat (advance n i r1 (f + 1) r) fun r => r < n ∧ r ≠ r1 ∧ r ≠ i := by
    intro r hr hn f
    unfold advance
    rw [if_neg hn]
    exact Sat.ok ⟨hr, by tauto, by tauto⟩
  obtain ⟨f, rfl⟩ : ∃ f, fuel = f + 3 := ⟨fuel - 3, by omega⟩
  by_cases ha : r2 = r1 ∨ r2 = i
  · unfold advance
    rw [if_pos ha]
    by_cases hb : (r2 + 1) % n = r1 ∨ (r2 + 1) % n = i
    · unfold advance
      rw [if_pos hb]
      refine key _ (Nat.mod_lt _ (by omega)) ?_ f
      have e1 : (r2 + 1) % n = if r2 + 1 = n then 0 else r2 + 1 := by
        split
        · rename_i h; rw [h, Nat.mod_self]
        · exact Nat.mod_eq_of_lt (by omega)
      have e2 : ((r2 + 1) % n + 1) % n = if (r2 + 1) % n + 1 = n then 0 else (r2 + 1) % n + 1 := by
        have := Nat.mod_lt (r2 + 1) (show 0 < n by omega)
        split
        · rename_i h; rw [h, Nat.mod_self]
        · exact Nat.mod_eq_of_lt (by omega)
      rw [e2]
      rw [e1] at hb ⊢
      split at hb <;> split_ifs <;> omega
    · exact key _ (Nat.mod_lt _ (by omega)) hb (f + 1)
  · exact key _ h2 ha (f + 2)

/-- What is asked of a pair of chains: both exist. -/
theorem pairOf_sat {n i u1 u2 : Nat} (hn : 2 ≤ n) (hi : i < n) (h1 : u1 < n - 1) (h2 : u2 < n - 1) :
    Sat (pairOf n i u1 u2) fun p => p.1 < n ∧ p.2 < n ∧ p.1 ≠ i ∧ (2 < n → p.2 ≠ p.1 ∧ p.2 ≠ i) := by
  unfold pairOf
  have hr : (if i ≤ u1 then u1 + 1 else u1) < n ∧ (if i ≤ u1 then u1 + 1 else u1) ≠ i := by split <;> omega
  by_cases h3 : 2 < n
  · simp only [if_pos h3]
    refine Sat.bind (advance_sat h3 hi hr.1 (by omega) (by omega)) ?_
    rintro r ⟨ha, hb, hc⟩
    exact Sat.ok ⟨hr.1, ha, hr.2, fun _ => ⟨hb, hc⟩⟩
  · simp only [if_neg h3]
    exact Sat.ok ⟨hr.1, by show u2 < n; omega, hr.2, fun h => absurd h h3⟩

theorem pickPair_sat {c : DreamCfg α} {R : Rng σ α} (hR : Spec.GoodRng R) (hn : 2 ≤ c.numChains) {i : Nat} (hi : i < c.numChains) (s : σ) :
    Sat (pickPair c R i s) fun r => r.1.1 < c.numChains ∧ r.1.2 < c.numChains ∧ r.1.1 ≠ i ∧ (2 < c.numChains → r.1.2 ≠ r.1.1 ∧ r.1.2 ≠ i) := by
  have hd : ∀ s, drawInt R (c.numChains - 1) s = .ok (R.uint (c.numChains - 1) s) := fun s => by
    unfold drawInt
    rw [if_neg (by omega)]
  unfold pickPair
  rw [hd, val_bind, hd, val_bind]
  refine Sat.bind (pairOf_sat hn hi (hR.uint _ _ (by omega)) (hR.uint _ _ (by omega))) ?_
  intro p hp
  exact Sat.ok hp

/-! ## Proposals -/

theorem pairDiff_sat {V : α → Prop} {c : DreamCfg α} {R : Rng σ α} (hV : Closed V c R) {F : List α → α} {st : DreamSt σ α} {t j : Nat} (ht : 0 < t)
    (hj : j < c.nvar) (hh : Hist V c F (t * c.numChains) st) {pairs : List (Nat × Nat)} (hp : ∀ p ∈ pairs, p.1 < c.numChains ∧ p.2 < c.numChains) :
    Sat (pairDiff c st.state t j pairs) V := by
  unfold pairDiff
  refine Sat.foldlM 0 hV.zero ?_
  intro s p hpm hs
  by_cases he : p.1 = p.2
  · rw [if_pos he]
    exact Sat.ok hs
  · rw [if_neg he]
    obtain ⟨ra, ha, ha', -⟩ := hh.row (prev_lt (hp p hpm).1 ht)
    obtain ⟨rb, hb, hb', -⟩ := hh.row (prev_lt (hp p hpm).2 ht)
    rw [ha', val_bind]
    refine Sat.bind (Sat.rd (by rw [ha.1]; exact hj)) ?_
    intro a hav
    rw [hb', val_bind]
    refine Sat.bind (Sat.rd (by rw [hb.1]; exact hj)) ?_
    intro b hbv
    exact Sat.ok (hV.add _ _ hs (hV.sub _ _ (ha.2 j a hav).1 (hb.2 j b hbv).1))

/-- What is known of the draws for one parameter. -/
def DrawOk (V : α → Prop) (c : DreamCfg α) (R : Rng σ α) (j : Nat) (d : VarDraw α) : Prop :=
  (c.lock[j]? = some true → d.upd = false) ∧
    (d.upd = true → V d.pd ∧ (∃ s, d.e = c.noise * (lit 2 * (R.unif s).1 - 1)) ∧ ∃ s, d.eps = (R.gauss c.bstar s).1)

theorem drawVar_sat {V : α → Prop} {c : DreamCfg α} {R : Rng σ α} (hc : DreamOk c) (hV : Closed V c R) {F : List α → α} {st : DreamSt σ α} {t i j : Nat}
    (ht : 0 < t) (hi : i < c.numChains) (hj : j < c.nvar) (hs : ChainShape c st) (hk : CrmOk c st) (hh : Hist V c F (t * c.numChains) st) {pairs : List (Nat × Nat)}
    (hp : ∀ p ∈ pairs, p.1 < c.numChains ∧ p.2 < c.numChains) (s : σ × Int) :
    Sat (drawVar c R st t i pairs j s) fun r => DrawOk V c R j r.1 := by
  unfold drawVar
  refine Sat.bind (Sat.rd (by rw [hc.lock]; exact hj)) ?_
  intro l hl
  cases l with
  | true =>
    rw [if_pos rfl]
    exact Sat.ok ⟨fun _ => rfl, by intro h; cases h⟩
  | false =>
    rw [if_neg (by decide)]
    refine Sat.bind (pairDiff_sat hV ht hj hh hp) ?_
    intro pd hpd
    have hlt : i * c.loopSteps + st.gen < st.crm.length := by
      rw [hs.crm]
      exact cellIdx_lt hs.gen hi
    obtain ⟨m, hm, -, -⟩ := hk _ (List.getElem_mem hlt)
    have hm' : rdU st.crm (i * c.loopSteps + st.gen) = .ok m := rdU_sat (by rw [List.getElem?_eq_getElem hlt, hm])
    rw [hm', val_bind]
    refine Sat.ok ⟨?_, ?_⟩
    · intro h
      rw [hl] at h
      cases h
    · intro _
      exact ⟨hpd, ⟨_, rfl⟩, ⟨_, rfl⟩⟩

omit [FP α] in
theorem pickDelta_pos (c : DreamCfg α) (R : Rng σ α) (s : σ) : 0 < (pickDelta c R s).1 := by
  unfold pickDelta
  split <;> simp

/-- The proposal for a chain: free parameters move, locked ones do not. -/
theorem propose_sat {V : α → Prop} {c : DreamCfg α} {R : Rng σ α} (hc : DreamOk c) (h2 : 2 ≤ c.numChains) (hR : Spec.GoodRng R) (hV : Closed V c R) {F : List α → α} {st : DreamSt σ α}
    {t i : Nat} (ht : 0 < t) (hi : i < c.numChains) (hs : ChainShape c st) (hk : CrmOk c st) (hh : Hist V c F (t * c.numChains) st) (s : σ) :
    Sat (propose c R st t i s) fun r => Half V c r.1.1 := by
  unfold propose
  obtain ⟨row, hrow, hget, -⟩ := hh.row (prev_lt hi ht)
  show Sat (getRow c st.state (t - 1) i >>= _) _
  rw [hget, val_bind]
  refine Sat.bind (Sat.loopAcc (Q := fun _ (p : Nat × Nat) => p.1 < c.numChains ∧ p.2 < c.numChains) (I := fun _ _ => True) trivial ?_) ?_
  · intro z s1 _ _
    exact (pickPair_sat hR h2 hi s1).mono fun r hr => ⟨⟨hr.1, hr.2.1⟩, trivial⟩
  rintro ⟨ps, s1⟩ ⟨⟨-, hps⟩, -⟩
  have hps' : ∀ p ∈ ps, p.1 < c.numChains ∧ p.2 < c.numChains := by
    intro p hp
    obtain ⟨z, hz, rfl⟩ := List.getElem_of_mem hp
    exact hps z _ (by simp [hz])
  refine Sat.bind (Sat.loopAcc (Q := fun j d => DrawOk V c R j d) (I := fun _ _ => True) trivial ?_) ?_
  · intro j s2 hj _
    exact (drawVar_sat hc hV ht hi hj hs hk hh hps' s2).mono fun r hr => ⟨hr, trivial⟩
  rintro ⟨vs, s3⟩ ⟨⟨hvl, hvs⟩, -⟩
  refine Sat.bind (Sat.loopMap (Q := fun j y => V y ∧ ∀ l a b, c.lock[j]? = some l → c.lo[j]? = some a → c.hi[j]? = some b →
    l = true → flt y a = false ∧ flt b y = false ∧ y = a) ?_) ?_
  · intro j hj
    refine Sat.bind (Sat.rd (by simpa using hvl ▸ hj)) ?_
    intro v hv
    refine Sat.bind (Sat.rd (by rw [hrow.1]; exact hj)) ?_
    intro x hx
    have hd := hvs j v hv
    obtain ⟨hVx, hlim⟩ := hrow.2 j x hx
    refine Sat.ok ?_
    unfold newValueD
    by_cases hu : 0 < s3.2 ∧ v.upd = true
    · rw [if_pos hu]
      obtain ⟨h1, ⟨s4, h2⟩, s5, h3⟩ := hd.2 hu.2
      refine ⟨hV.add _ _ hVx ?_, ?_⟩
      · rw [h2, h3]
        exact hV.step _ _ _ _ _ _ s4 h1 rfl ⟨s5, rfl⟩ hu.1 (pickDelta_pos c R s)
      · intro l a b hl _ _ hlt
        rw [hlt] at hl
        rw [hd.1 hl] at hu
        exact absurd hu.2 (by decide)
    · rw [if_neg hu]
      exact ⟨hVx, fun l a b hl ha hb hlt => ⟨(hlim l a b hl ha hb).1, (hlim l a b hl ha hb).2.1, (hlim l a b hl ha hb).2.2 hlt⟩⟩
  · rintro new ⟨hn1, hn2⟩
    exact Sat.ok ⟨hn1, hn2⟩

/-- All proposals. -/
theorem proposeAll_sat {V : α → Prop} {c : DreamCfg α} {R : Rng σ α} (hc : DreamOk c) (h2 : 2 ≤ c.numChains) (hR : Spec.GoodRng R) (hV : Closed V c R) {F : List α → α} {st : DreamSt σ α}
    {t : Nat} (ht : 0 < t) (hs : ChainShape c st) (hk : CrmOk c st) (hh : Hist V c F (t * c.numChains) st) :
    Sat (proposeAll c R t st) fun st' => (∃ pr ud s, st' = { st with prop := pr, updDim := ud, rng := s } ∧ ud.length = c.numChains ∧ pr.length = c.numChains ∧
      ∀ row ∈ pr, Half V c row) := by
  unfold proposeAll
  refine Sat.bind (Sat.loopAcc (Q := fun _ (r : List α × Int) => Half V c r.1) (I := fun _ _ => True) trivial ?_) ?_
  · intro i s hi _
    exact (propose_sat hc h2 hR hV ht hi hs hk hh s).mono fun r hr => ⟨hr, trivial⟩
  · rintro ⟨l, s⟩ ⟨⟨hl, hq⟩, -⟩
    refine Sat.ok ⟨_, _, _, rfl, by simpa using hl, by simpa using hl, ?_⟩
    intro row hrow
    rw [List.mem_map] at hrow
    obtain ⟨x, hx, rfl⟩ := hrow
    obtain ⟨z, hz, rfl⟩ := List.getElem_of_mem hx
    exact hq z _ (by simp [hz])

/-! ## Likelihoods -/

/-- Needed of the comparisons: `-INFINITY == -INFINITY`; no number is below itself; comparisons with NaN, and with NaN minus a number, are false. -/
structure CmpLaws (α : Type) [FP α] : Prop where
  ninf : fle (ninfty : α) ninfty = true
  irrefl : ∀ a : α, flt a a = false
  nan_le : ∀ a b : α, fle a a = false → fle b a = false
  nan_sub : ∀ a b x : α, fle a a = false → flt x (a - b) = false

theorem outside_sat {c : DreamCfg α} (hc : DreamOk c) {row : List α} (hr : row.length = c.nvar) (all : Bool) :
    Sat (outside c all row) fun b => b = false → ∀ (j : Nat) x l a b, row[j]? = some x → c.lock[j]? = some l → c.lo[j]? = some a → c.hi[j]? = some b →
      (all = true ∨ l = false) → flt x a = false ∧ flt b x = false := by
  unfold outside
  refine Sat.bind (Sat.loopMap (Q := fun j y => y = false → ∀ x l a b, row[j]? = some x → c.lock[j]? = some l → c.lo[j]? = some a → c.hi[j]? = some b →
      (all = true ∨ l = false) → flt x a = false ∧ flt b x = false) ?_) ?_
  · intro j hj
    refine Sat.bind (Sat.rd (by rw [hc.lock]; exact hj)) ?_
    intro l hl
    refine Sat.bind (Sat.rd (by rw [hr]; exact hj)) ?_
    intro x hx
    refine Sat.bind (Sat.rd (by rw [hc.lo]; exact hj)) ?_
    intro a ha
    refine Sat.bind (Sat.rd (by rw [hc.hi]; exact hj)) ?_
    intro b hb
    refine Sat.ok ?_
    intro h x' l' a' b' hx' hl' ha' hb' hor
    rw [hx] at hx'; rw [hl] at hl'; rw [ha] at ha'; rw [hb] at hb'
    cases hx'; cases hl'; cases ha'; cases hb'
    have : (all || !l) = true := by rcases hor with h | h <;> simp [h]
    rw [this, Bool.true_and, Bool.or_eq_false_iff] at h
    exact h
  · rintro bs ⟨hl, hq⟩
    refine Sat.ok ?_
    intro h j x l a b hx
    have hj : j < bs.length := by
      rw [hl, ← hr]
      by_contra hcon
      rw [List.getElem?_eq_none (by omega)] at hx
      cases hx
    have hf : bs[j] = false := by
      rw [List.any_eq_false] at h
      simpa using h bs[j] (List.getElem_mem hj)
    exact hq j false (by rw [List.getElem?_eq_getElem hj, hf]) rfl x l a b hx

/-- A proposal for which the likelihood is computed is a permitted position. -/
theorem Half.pos {V : α → Prop} {c : DreamCfg α} {row : List α} (h : Half V c row)
    (ho : ∀ (j : Nat) x l a b, row[j]? = some x → c.lock[j]? = some l → c.lo[j]? = some a → c.hi[j]? = some b →
      (false = true ∨ l = false) → flt x a = false ∧ flt b x = false) : Pos V c row := by
  refine ⟨h.1, fun j x hx => ⟨(h.2 j x hx).1, fun l a b hl ha hb => ?_⟩⟩
  cases l with
  | true => exact ⟨((h.2 j x hx).2 _ a b hl ha hb rfl).1, ((h.2 j x hx).2 _ a b hl ha hb rfl).2.1, fun _ => ((h.2 j x hx).2 _ a b hl ha hb rfl).2.2⟩
  | false =>
    obtain ⟨h1, h2⟩ := ho j x false a b hx hl ha hb (Or.inr rfl)
    exact ⟨h1, h2, by intro h; cases h⟩

theorem Hist.congr {V : α → Prop} {c : DreamCfg α} {F : List α → α} {n : Nat} {st st' : DreamSt σ α} (h : Hist V c F n st)
    (h1 : ∀ q, q < n → st'.state[q]? = st.state[q]?) (h2 : ∀ q, q < n → st'.lik[q]? = st.lik[q]?) : Hist V c F n st' := by
  intro q hq
  rw [h1 q hq, h2 q hq]
  exact h q hq

/-- The likelihood of a chain has been computed. -/
def Judged (V : α → Prop) (c : DreamCfg α) (F : List α → α) (t i : Nat) (st : DreamSt σ α) : Prop :=
  ∃ row v, st.prop[i]? = some row ∧ st.lik[t * c.numChains + i]? = some (some v) ∧ (v = ninfty ∨ Pos V c row ∧ v = F row)

/-- During the loop that computes likelihoods. -/
structure EvalInv (V : α → Prop) (c : DreamCfg α) (F : List α → α) (t : Nat) (st0 : DreamSt σ α) (i : Nat) (st : DreamSt σ α) : Prop where
  same : ∃ l pr cl, st = { st0 with lik := l, prop := pr, calls := cl }
  hist : Hist V c F (t * c.numChains) st
  lik : st.lik.length = (c.maxEvals + 1) * c.numChains
  prop : st.prop.length = c.numChains
  half : ∀ row ∈ st.prop, Half V c row
  done : ∀ k, k < i → Judged V c F t k st
  calls : ∀ row ∈ st.calls, Pos V c row

theorem refresh_sat {V : α → Prop} {c : DreamCfg α} {F : List α → α} {t i : Nat} {st0 st : DreamSt σ α} (ht : 0 < t) (htm : t < c.maxEvals)
    (hi : i < c.numChains) (h : EvalInv V c F t st0 i st) :
    Sat (refresh c F t i st) fun st' => EvalInv V c F t st0 i st' ∧ st'.prop = st.prop := by
  unfold refresh
  split
  · obtain ⟨row, hp, hg, -⟩ := h.hist.row (prev_lt hi ht)
    obtain ⟨row', hp', hs', hl'⟩ := h.hist _ (prev_lt hi ht)
    have : row' = row := by
      have := rdU_sat hs'
      rw [show rdU st.state ((t - 1) * c.numChains + i) = .ok row from hg] at this
      cases this
      rfl
    subst this
    rw [hg, val_bind]
    have hlt : (t - 1) * c.numChains + i < st.lik.length := by
      rw [h.lik]
      exact cellIdx_lt hi (by omega)
    refine Sat.bind (Sat.wr hlt) ?_
    rintro l rfl
    have hset : st.lik.set ((t - 1) * c.numChains + i) (some (F row')) = st.lik := by
      apply List.ext_getElem?
      intro q
      by_cases hq : (t - 1) * c.numChains + i = q
      · subst hq
        rw [List.getElem?_set_self hlt, hl']
      · rw [List.getElem?_set_ne hq]
    rw [hset]
    obtain ⟨l, pr, cl, rfl⟩ := h.same
    refine Sat.ok ⟨⟨⟨_, _, _, rfl⟩, h.hist, h.lik, h.prop, h.half, h.done, ?_⟩, rfl⟩
    intro r hr
    rcases List.mem_cons.1 hr with rfl | hr
    · exact hp
    · exact h.calls r hr
  · exact Sat.ok ⟨h, rfl⟩

/-- Writing the likelihood of chain `i` in generation `t`. -/
theorem EvalInv.write {V : α → Prop} {c : DreamCfg α} {F : List α → α} {t i : Nat} {st0 st : DreamSt σ α} (htm : t < c.maxEvals)
    (hi : i < c.numChains) (h : EvalInv V c F t st0 i st) {row : List α} {v : α} {pr : List (List α)} {cl : List (List α)}
    (hpr : pr.length = c.numChains) (hhalf : ∀ row ∈ pr, Half V c row) (hold : ∀ k, k < i → pr[k]? = st.prop[k]?) (hrow : pr[i]? = some row)
    (hv : v = ninfty ∨ Pos V c row ∧ v = F row) (hcl : ∀ row ∈ cl, Pos V c row) :
    EvalInv V c F t st0 (i + 1) { st with lik := st.lik.set (t * c.numChains + i) (some v), prop := pr, calls := cl } := by
  have hlt : t * c.numChains + i < st.lik.length := by
    rw [h.lik]
    exact cellIdx_lt hi (by omega)
  obtain ⟨l, pr', cl', rfl⟩ := h.same
  refine ⟨⟨_, _, _, rfl⟩, ?_, by simpa using h.lik, hpr, hhalf, ?_, hcl⟩
  · refine h.hist.congr (fun q _ => rfl) ?_
    intro q hq
    exact List.getElem?_set_ne (by omega)
  · intro k hk
    by_cases hki : k = i
    · subst hki
      exact ⟨row, v, hrow, List.getElem?_set_self hlt, hv⟩
    · obtain ⟨r, w, h1, h2, h3⟩ := h.done k (by omega)
      refine ⟨r, w, (hold k (by omega)).trans h1, ?_, h3⟩
      show (List.set _ _ _)[t * c.numChains + k]? = _
      rw [List.getElem?_set_ne (by omega)]
      exact h2

theorem evalChain_sat {V : α → Prop} {c : DreamCfg α} (hc : DreamOk c) {F : List α → α} {t i : Nat} {st0 st : DreamSt σ α} (ht : 0 < t) (htm : t < c.maxEvals)
    (hud : st0.updDim.length = c.numChains) (hi : i < c.numChains) (h : EvalInv V c F t st0 i st) :
    Sat (evalChain c F t i st) (EvalInv V c F t st0 (i + 1)) := by
  have hudst : st.updDim = st0.updDim := by obtain ⟨l, pr, cl, rfl⟩ := h.same; rfl
  unfold evalChain
  refine Sat.bind (Sat.rd (by rw [hudst, hud]; exact hi)) ?_
  intro ud _
  by_cases hpos : 0 < ud
  · rw [if_pos hpos]
    refine Sat.bind (Sat.rd (by rw [h.prop]; exact hi)) ?_
    intro row hrow
    have hhalf := h.half row (List.mem_of_getElem? hrow)
    refine Sat.bind (outside_sat hc hhalf.1 false) ?_
    intro b hb
    refine Sat.bind (refresh_sat ht htm hi h) ?_
    rintro st1 ⟨h1, hpr1⟩
    have hrow1 : st1.prop[i]? = some row := by rw [hpr1]; exact hrow
    have hlt : t * c.numChains + i < st1.lik.length := by
      rw [h1.lik]
      exact cellIdx_lt hi (by omega)
    unfold evalNew
    cases b with
    | true =>
      rw [if_pos rfl]
      refine Sat.bind (Sat.wr hlt) ?_
      rintro l rfl
      exact Sat.ok (h1.write htm hi h1.prop h1.half (fun _ _ => rfl) hrow1 (Or.inl rfl) h1.calls)
    | false =>
      rw [if_neg (by decide)]
      have hP := hhalf.pos (hb rfl)
      refine Sat.bind (Sat.wr hlt) ?_
      rintro l rfl
      refine Sat.ok (h1.write htm hi h1.prop h1.half (fun _ _ => rfl) hrow1 (Or.inr ⟨hP, rfl⟩) ?_)
      intro r hr
      rcases List.mem_cons.1 hr with rfl | hr
      · exact hP
      · exact h1.calls r hr
  · rw [if_neg hpos]
    unfold evalSame
    obtain ⟨row, hP, hg, hgl⟩ := h.hist.row (prev_lt hi ht)
    rw [hg, val_bind]
    have hpi : i < st.prop.length := by rw [h.prop]; exact hi
    refine Sat.bind (Sat.wr hpi) ?_
    rintro pr rfl
    have hlt : t * c.numChains + i < st.lik.length := by
      rw [h.lik]
      exact cellIdx_lt hi (by omega)
    have hhalf : ∀ r ∈ st.prop.set i row, Half V c r := by
      intro r hr
      rcases List.mem_or_eq_of_mem_set hr with hr | rfl
      · exact h.half r hr
      · exact hP.half
    have hold : ∀ k, k < i → (st.prop.set i row)[k]? = st.prop[k]? := fun k hk => List.getElem?_set_ne (by omega)
    split
    · refine Sat.bind (Sat.wr hlt) ?_
      rintro l rfl
      refine Sat.ok (h.write htm hi (by simpa using h.prop) hhalf hold (List.getElem?_set_self hpi) (Or.inr ⟨hP, rfl⟩) ?_)
      intro r hr
      rcases List.mem_cons.1 hr with rfl | hr
      · exact hP
      · exact h.calls r hr
    · rw [hgl, val_bind]
      refine Sat.bind (Sat.wr hlt) ?_
      rintro l rfl
      exact Sat.ok (h.write htm hi (by simpa using h.prop) hhalf hold (List.getElem?_set_self hpi) (Or.inr ⟨hP, rfl⟩) h.calls)

/-! ## Acceptance -/

/-- During the loop that accepts or rejects. -/
structure AccInv (V : α → Prop) (c : DreamCfg α) (F : List α → α) (t : Nat) (st0 : DreamSt σ α) (i : Nat) (st : DreamSt σ α) : Prop where
  same : ∃ s l a r, st = { st0 with state := s, lik := l, accept := a, rng := r }
  hist : Hist V c F (t * c.numChains + i) st
  state : st.state.length = c.maxEvals * c.numChains
  lik : st.lik.length = (c.maxEvals + 1) * c.numChains
  accept : st.accept.length = c.numChains
  todo : ∀ k, i ≤ k → k < c.numChains → Judged V c F t k st
  frame : ∀ q, q < t * c.numChains → st.state[q]? = st0.state[q]?

/-- Chain `i` gets its new position and the likelihood of it. -/
theorem AccInv.write {V : α → Prop} {c : DreamCfg α} {F : List α → α} {t i : Nat} {st0 st : DreamSt σ α} (htm : t < c.maxEvals)
    (hi : i < c.numChains) (h : AccInv V c F t st0 i st) {row : List α} {l : List (Option α)} {a : List Bool} {r : σ} (hP : Pos V c row ∧ Num (F row))
    (hl : l[t * c.numChains + i]? = some (some (F row))) (hne : ∀ q, q ≠ t * c.numChains + i → l[q]? = st.lik[q]?) (hll : l.length = (c.maxEvals + 1) * c.numChains)
    (ha : a.length = c.numChains) :
    AccInv V c F t st0 (i + 1) { st with state := st.state.set (t * c.numChains + i) (some row), lik := l, accept := a, rng := r } := by
  have hlt : t * c.numChains + i < st.state.length := by
    rw [h.state]
    exact cellIdx_lt hi (by omega)
  obtain ⟨s', l', a', r', rfl⟩ := h.same
  refine ⟨⟨_, _, _, _, rfl⟩, ?_, by simpa using h.state, hll, ha, ?_, ?_⟩
  · intro q hq
    by_cases hqi : q = t * c.numChains + i
    · subst hqi
      exact ⟨row, hP, List.getElem?_set_self hlt, hl⟩
    · obtain ⟨row', h1, h2, h3⟩ := h.hist q (by omega)
      refine ⟨row', h1, ?_, (hne q hqi).trans h3⟩
      show (List.set _ _ _)[q]? = _
      rw [List.getElem?_set_ne (Ne.symm hqi)]
      exact h2
  · intro k hk hkn
    obtain ⟨row', v, h1, h2, h3⟩ := h.todo k (by omega) hkn
    exact ⟨row', v, h1, (hne _ (by omega)).trans h2, h3⟩
  · intro q hq
    show (List.set _ _ _)[q]? = _
    rw [List.getElem?_set_ne (by omega)]
    exact h.frame q hq

theorem acceptTest_ninf (hL : CmpLaws α) (R : Rng σ α) (prev : α) (s : σ) : (acceptTest R ninfty prev s).1 = false := by
  unfold acceptTest eqD
  rw [if_pos (by simp [hL.ninf])]

/-- What is accepted is a number. -/
theorem acceptTest_num (hL : CmpLaws α) (R : Rng σ α) (new prev : α) (s : σ) (h : (acceptTest R new prev s).1 = true) : Num new := by
  unfold acceptTest at h
  split at h
  · cases h
  · rename_i h1
    refine ⟨by simpa using h1, ?_⟩
    by_contra hn
    rw [Bool.not_eq_true] at hn
    rw [hL.nan_le _ _ hn, if_neg (by decide)] at h
    have h' : flt (flog (R.unif s).1) (new - prev) = true := h
    rw [hL.nan_sub _ _ _ hn] at h'
    cases h'

theorem acceptChain_sat {V : α → Prop} {c : DreamCfg α} {R : Rng σ α} (hL : CmpLaws α) {F : List α → α} {t i : Nat} {st0 st : DreamSt σ α} (ht : 0 < t)
    (htm : t < c.maxEvals) (hi : i < c.numChains) (h : AccInv V c F t st0 i st) : Sat (acceptChain c R t i st) (AccInv V c F t st0 (i + 1)) := by
  unfold acceptChain
  obtain ⟨row, v, h1, h2, h3⟩ := h.todo i (le_refl _) hi
  have hget : getLik c st.lik t i = .ok v := rdU_sat h2
  rw [hget, val_bind]
  obtain ⟨row0, hP0, hg0, hl0⟩ := h.hist.row (t := t - 1) (i := i) (by have := prev_lt hi ht; omega)
  rw [hl0, val_bind]
  refine Sat.bind (Sat.wr (by rw [h.accept]; exact hi)) ?_
  rintro a rfl
  have hlts : t * c.numChains + i < st.state.length := by
    rw [h.state]
    exact cellIdx_lt hi (by omega)
  have hltl : t * c.numChains + i < st.lik.length := by
    rw [h.lik]
    exact cellIdx_lt hi (by omega)
  unfold settle
  cases hb : (acceptTest R v (F row0) st.rng).1 with
  | true =>
    rw [if_pos rfl]
    have hne : v ≠ ninfty := by
      rintro rfl
      rw [acceptTest_ninf hL] at hb
      cases hb
    obtain ⟨hP, hv⟩ : Pos V c row ∧ v = F row := by
      rcases h3 with h3 | h3
      · exact absurd h3 hne
      · exact h3
    refine Sat.bind (Sat.rd (l := st.prop) (i := i) (by by_contra hcon; rw [List.getElem?_eq_none (by omega)] at h1; cases h1)) ?_
    intro row' hrow'
    rw [h1] at hrow'
    cases hrow'
    refine Sat.bind (Sat.wr hlts) ?_
    rintro s rfl
    have hN : Num (F row) := hv ▸ acceptTest_num hL R v _ _ hb
    refine Sat.ok (h.write htm hi ⟨hP, hN⟩ (by rw [h2, hv]) (fun _ _ => rfl) h.lik (by simpa using h.accept))
  | false =>
    rw [if_neg (by decide)]
    refine Sat.bind (Q := fun r => r = row0) ⟨row0, hg0, rfl⟩ ?_
    intro r hr
    rw [hr]
    refine Sat.bind (Sat.wr hlts) ?_
    rintro s rfl
    refine Sat.bind (Q := fun r => r = F row0) ⟨F row0, hl0, rfl⟩ ?_
    intro r hr
    rw [hr]
    refine Sat.bind (Sat.wr hltl) ?_
    rintro l rfl
    refine Sat.ok (h.write htm hi ⟨hP0, h.hist.num (by have := prev_lt hi ht; omega) hg0⟩ (List.getElem?_set_self hltl) (fun q hq => List.getElem?_set_ne (Ne.symm hq)) (by simpa using h.lik) (by simpa using h.accept))

/-! ## Crossover probabilities -/

omit [FP α] in
theorem crm_get {c : DreamCfg α} {st : DreamSt σ α} (hs : ChainShape c st) (hk : CrmOk c st) {i : Nat} (hi : i < c.numChains) :
    ∃ m, rdU st.crm (i * c.loopSteps + st.gen) = .ok m ∧ 1 ≤ m ∧ m ≤ c.nCR := by
  have hlt : i * c.loopSteps + st.gen < st.crm.length := by
    rw [hs.crm]
    exact cellIdx_lt hs.gen hi
  obtain ⟨m, hm, h1, h2⟩ := hk _ (List.getElem_mem hlt)
  exact ⟨m, rdU_sat (by rw [List.getElem?_eq_getElem hlt, hm]), h1, h2⟩

theorem normX_sat {V : α → Prop} {c : DreamCfg α} (hc : DreamOk c) {F : List α → α} {st : DreamSt σ α} {t i : Nat} (ht : 0 < t) (hi : i < c.numChains)
    (hh : Hist V c F ((t + 1) * c.numChains) st) {sd : List α} (hsd : sd.length = c.nvar) : Sat (normX c sd t i st.state) fun _ => True := by
  unfold normX
  refine Sat.forN (I := fun _ _ => True) trivial ?_
  intro j acc hj _
  refine Sat.bind (Sat.rd (by rw [hc.lock]; exact hj)) ?_
  intro l _
  refine Sat.bind (Sat.rd (by rw [hsd]; exact hj)) ?_
  intro s _
  split
  · obtain ⟨ra, ha, ha', -⟩ := hh.row (t := t) (cellIdx_lt hi (by omega))
    obtain ⟨rb, hb, hb', -⟩ := hh.row (t := t - 1) (cellIdx_lt hi (by omega))
    rw [ha', val_bind]
    refine Sat.bind (Sat.rd (by rw [ha.1]; exact hj)) ?_
    intro a _
    rw [hb', val_bind]
    refine Sat.bind (Sat.rd (by rw [hb.1]; exact hj)) ?_
    intro b _
    exact Sat.ok trivial
  · exact Sat.ok trivial

theorem jumpStats_sat {V : α → Prop} {c : DreamCfg α} (hc : DreamOk c) {G : Gsl α} {F : List α → α} {st : DreamSt σ α} {t : Nat} (ht : 0 < t)
    (hs : ChainShape c st) (hk : CrmOk c st) (hh : Hist V c F ((t + 1) * c.numChains) st) :
    Sat (jumpStats c G t st) fun st' => ∃ d, st' = { st with deltaTot := d } ∧ d.length = c.nCR := by
  unfold jumpStats
  split
  · refine Sat.bind (Sat.loopMap (Q := fun _ _ => True) ?_) ?_
    · intro j hj
      refine Sat.bind (Q := fun _ => True) ?_ fun _ _ => Sat.ok trivial
      unfold column
      refine (Sat.loopMap (Q := fun _ _ => True) ?_).mono fun _ _ => trivial
      intro i hi
      obtain ⟨ra, ha, ha', -⟩ := hh.row (t := t) (cellIdx_lt hi (by omega))
      rw [ha', val_bind]
      exact (Sat.rd (by rw [ha.1]; exact hj)).mono fun _ _ => trivial
    · rintro sd ⟨hsd, -⟩
      refine Sat.forN (I := fun _ st' => ∃ d, st' = { st with deltaTot := d } ∧ d.length = c.nCR) ⟨_, rfl, hs.deltaTot⟩ ?_
      rintro i _ hi ⟨d, rfl, hd⟩
      unfold addDelta
      refine Sat.bind (Sat.rd (by show i < st.accept.length; rw [hs.accept]; exact hi)) ?_
      intro a _
      split
      · refine Sat.bind (normX_sat hc ht hi hh hsd) ?_
        intro x _
        obtain ⟨m, hm, h1, h2⟩ := crm_get hs hk hi
        refine Sat.bind (Q := fun r => r = m) ⟨m, hm, rfl⟩ ?_
        rintro r rfl
        have hn : ¬((r : Int) - 1 < 0) := by omega
        have hlt : ((r : Int) - 1).toNat < d.length := by omega
        refine Sat.bind (Q := fun _ => True) ?_ ?_
        · show Sat (rdI d ((r : Int) - 1)) _
          unfold rdI
          rw [if_neg hn]
          exact (Sat.rd hlt).mono fun _ _ => trivial
        · intro y _
          refine Sat.bind (Q := fun l => l = d.set ((r : Int) - 1).toNat (y + x)) ?_ ?_
          · show Sat (wrI d ((r : Int) - 1) (y + x)) _
            unfold wrI
            rw [if_neg hn]
            exact Sat.wr hlt
          · rintro l rfl
            exact Sat.ok ⟨_, rfl, by simpa using hd⟩
      · exact Sat.ok ⟨d, rfl, hd⟩
  · exact Sat.ok ⟨_, rfl, hs.deltaTot⟩

theorem updatePCR_sat {c : DreamCfg α} {st : DreamSt σ α} (hs : ChainShape c st) :
    Sat (updatePCR c st) fun st' => ∃ tot p, st' = { st with total := tot, pCR := p } ∧ tot.length = c.nCR := by
  unfold updatePCR
  split
  · refine Sat.bind (Sat.loopMap (Q := fun _ _ => True) ?_) ?_
    · intro m hm
      refine Sat.bind (Sat.rd (by rw [hs.total]; exact hm)) ?_
      intro a _
      refine Sat.bind (Sat.rd (by rw [hs.cand]; exact hm)) ?_
      intro b _
      exact Sat.ok trivial
    · rintro tot ⟨htot, -⟩
      refine Sat.bind (Sat.loopMap (Q := fun _ _ => True) ?_) ?_
      · intro m hm
        exact (Sat.rd (by rw [hs.deltaTot]; exact hm)).mono fun _ _ => trivial
      · rintro ds -
        show Sat (if _ then _ else _) _
        split
        · unfold newPCR
          refine Sat.bind (Q := fun _ => True) ?_ ?_
          · refine Sat.bind (Sat.loopMap (Q := fun _ _ => True) ?_) ?_
            · intro m hm
              refine Sat.bind (Sat.rd (by rw [hs.deltaTot]; exact hm)) ?_
              intro a _
              refine Sat.bind (Sat.rd (by rw [htot]; exact hm)) ?_
              intro b _
              exact Sat.ok trivial
            · intro p _
              exact Sat.ok trivial
          · intro p _
            exact Sat.ok ⟨_, _, rfl, htot⟩
        · exact Sat.ok ⟨_, _, rfl, htot⟩
  · exact Sat.ok ⟨_, _, rfl, hs.total⟩

/-! ## Outliers -/

theorem checkOutliers_sat {V : α → Prop} {c : DreamCfg α} {G : Gsl α} {F : List α → α} {st : DreamSt σ α} {t : Nat}
    (hh : Hist V c F ((t + 1) * c.numChains) st) : Sat (checkOutliers c G t st.lik) fun r => r.1.length = c.numChains ∧ r.2.length = c.numChains := by
  unfold checkOutliers
  refine Sat.bind (Sat.loopMap (Q := fun _ _ => True) ?_) ?_
  · intro i hi
    refine Sat.bind (Q := fun _ => True) ?_ fun _ _ => Sat.ok trivial
    refine (Sat.loopMap (Q := fun _ _ => True) ?_).mono fun _ _ => trivial
    intro k hk
    obtain ⟨ra, -, -, ha⟩ := hh.row (t := t / 2 + k) (cellIdx_lt hi (by omega))
    rw [ha]
    exact Sat.ok trivial
  · rintro ml ⟨hl, -⟩
    exact Sat.ok ⟨hl, by simpa using hl⟩

/-- While outliers are moved. -/
structure MoveInv (V : α → Prop) (c : DreamCfg α) (F : List α → α) (t : Nat) (st0 st : DreamSt σ α) : Prop where
  same : ∃ s l b k n, st = { st0 with state := s, lik := l, burnStart := b, curRun := k, inBurn := n }
  hist : Hist V c F ((t + 1) * c.numChains) st
  state : st.state.length = c.maxEvals * c.numChains
  lik : st.lik.length = (c.maxEvals + 1) * c.numChains
  frame : ∀ q, q < t * c.numChains → st.state[q]? = st0.state[q]?
  burn : (st.inBurn = st0.inBurn ∧ st.burnStart = st0.burnStart) ∨ st.inBurn = true

theorem moveChain_sat {V : α → Prop} {c : DreamCfg α} {F : List α → α} {t best i : Nat} {st0 st : DreamSt σ α} (htm : t < c.maxEvals)
    (hb : best < c.numChains) (hi : i < c.numChains) (h : MoveInv V c F t st0 st) : Sat (moveChain c t best i st) (MoveInv V c F t st0) := by
  unfold moveChain
  obtain ⟨row, hP, hg, hl⟩ := h.hist.row (t := t) (i := best) (cellIdx_lt hb (by omega))
  have hlts : t * c.numChains + i < st.state.length := by
    rw [h.state]
    exact cellIdx_lt hi (by omega)
  have hltl : t * c.numChains + i < st.lik.length := by
    rw [h.lik]
    exact cellIdx_lt hi (by omega)
  rw [hl, val_bind]
  refine Sat.bind (Sat.wr hltl) ?_
  rintro l rfl
  rw [hg, val_bind]
  refine Sat.bind (Sat.wr hlts) ?_
  rintro s rfl
  have hist' : ∀ b k n, Hist V c F ((t + 1) * c.numChains)
      { st with state := st.state.set (t * c.numChains + i) (some row), lik := st.lik.set (t * c.numChains + i) (some (F row)), burnStart := b, curRun := k,
                inBurn := n } := by
    intro b k n q hq
    by_cases hqi : q = t * c.numChains + i
    · subst hqi
      exact ⟨row, ⟨hP, h.hist.num (cellIdx_lt hb (by omega)) hg⟩, List.getElem?_set_self hlts, List.getElem?_set_self hltl⟩
    · obtain ⟨row', h1, h2, h3⟩ := h.hist q hq
      exact ⟨row', h1, (List.getElem?_set_ne (Ne.symm hqi)).trans h2, (List.getElem?_set_ne (Ne.symm hqi)).trans h3⟩
  have frame' : ∀ q, q < t * c.numChains → (st.state.set (t * c.numChains + i) (some row))[q]? = st0.state[q]? := by
    intro q hq
    rw [List.getElem?_set_ne (by omega)]
    exact h.frame q hq
  split
  · refine Sat.ok ⟨?_, hist' _ _ _, by simpa using h.state, by simpa using h.lik, frame', Or.inr rfl⟩
    obtain ⟨s', l', b', k', n', rfl⟩ := h.same
    exact ⟨_, _, _, _, _, rfl⟩
  · refine Sat.ok ⟨?_, hist' _ _ _, by simpa using h.state, by simpa using h.lik, frame', h.burn⟩
    obtain ⟨s', l', b', k', n', rfl⟩ := h.same
    exact ⟨_, _, _, _, _, rfl⟩

theorem collapse_sat {V : α → Prop} {c : DreamCfg α} (hc : DreamOk c) {G : Gsl α} (hG : Spec.GoodGsl G) {F : List α → α} {t : Nat} {st : DreamSt σ α}
    (htm : t < c.maxEvals) (hs : ChainShape c st) (hh : Hist V c F ((t + 1) * c.numChains) st) : Sat (collapse c G t st) (MoveInv V c F t st) := by
  have h0 : MoveInv V c F t st st := ⟨⟨_, _, _, _, _, rfl⟩, hh, hs.state, hs.lik, fun _ _ => rfl, Or.inl ⟨rfl, rfl⟩⟩
  unfold collapse
  split
  · refine Sat.bind (checkOutliers_sat hh) ?_
    rintro ⟨ml, o⟩ ⟨hml, ho⟩
    refine Sat.forN (I := fun _ st' => MoveInv V c F t st st') h0 ?_
    intro i st' hi h
    refine Sat.bind (Sat.rd (by show i < o.length; rw [ho]; exact hi)) ?_
    intro b _
    split
    · refine moveChain_sat htm ?_ hi h
      have hne : ml ≠ [] := by
        intro hnil
        have : ml.length = c.numChains := hml
        rw [hnil] at this
        have := hc.chains
        simp at *
        omega
      have := hG ml hne
      have h2 : ml.length = c.numChains := hml
      show G.maxIndex ml < _
      omega
    · exact Sat.ok h
  · exact Sat.ok h0

/-! ## Convergence -/

theorem gelmanRubin_sat {V : α → Prop} {c : DreamCfg α} (hc : DreamOk c) {G : Gsl α} {F : List α → α} {t first : Nat} {st : DreamSt σ α} (hf : first < t)
    (hs : st.scaleRed.length = c.nvar) (hh : Hist V c F ((t + 1) * c.numChains) st) :
    Sat (gelmanRubin c G st.state st.scaleRed first t) fun l => l.length = c.nvar := by
  unfold gelmanRubin
  rw [if_neg (by omega)]
  refine (Sat.loopMap (Q := fun _ _ => True) ?_).mono fun l hl => hl.1
  intro j hj
  unfold scaleVar
  refine Sat.bind (Sat.rd (by rw [hc.lock]; exact hj)) ?_
  intro l _
  split
  · exact (Sat.rd (by rw [hs]; exact hj)).mono fun _ _ => trivial
  · refine Sat.bind (Q := fun _ => True) ?_ fun _ _ => Sat.ok trivial
    refine (Sat.loopMap (Q := fun _ _ => True) ?_).mono fun _ _ => trivial
    intro i hi
    unfold window
    refine (Sat.loopMap (Q := fun _ _ => True) ?_).mono fun _ _ => trivial
    intro k hk
    obtain ⟨ra, ha, ha', -⟩ := hh.row (t := (t + first) / 2 + k) (cellIdx_lt hi (by omega))
    rw [ha', val_bind]
    exact (Sat.rd (by rw [ha.1]; exact hj)).mono fun _ _ => trivial

theorem allConverged_sat {c : DreamCfg α} (hc : DreamOk c) {scale : List α} (hs : scale.length = c.nvar) : Sat (allConverged c scale) fun _ => True := by
  unfold allConverged
  refine Sat.bind (Sat.loopMap (Q := fun _ _ => True) ?_) fun _ _ => Sat.ok trivial
  intro j hj
  refine Sat.bind (Sat.rd (by rw [hc.lock]; exact hj)) ?_
  intro l _
  refine Sat.bind (Sat.rd (by rw [hs]; exact hj)) ?_
  intro s _
  exact Sat.ok trivial

theorem convergence_sat {V : α → Prop} {c : DreamCfg α} (hc : DreamOk c) {G : Gsl α} {F : List α → α} {t : Nat} {st : DreamSt σ α}
    (hb : st.inBurn = false → st.burnStart + c.burnIn < t) (hs : st.scaleRed.length = c.nvar) (hh : Hist V c F ((t + 1) * c.numChains) st) :
    Sat (convergence c G t st) fun r => (∃ n k l, r.1 = { st with inBurn := n, curRun := k, scaleRed := l } ∧ l.length = c.nvar) ∧
      (r.1.inBurn = false → r.1.burnStart + c.burnIn < t + 1) := by
  unfold convergence
  by_cases hi : st.inBurn = true
  · rw [if_pos hi]
    split
    · rename_i hle
      exact Sat.ok ⟨⟨_, _, _, rfl, hs⟩, fun _ => by show st.burnStart + c.burnIn < t + 1; omega⟩
    · refine Sat.ok ⟨⟨_, _, _, rfl, hs⟩, fun h => ?_⟩
      have h' : st.inBurn = false := h
      rw [hi] at h'
      cases h'
  · rw [if_neg hi]
    have hf := hb (by simpa using hi)
    split
    · refine Sat.bind (gelmanRubin_sat hc hf hs hh) ?_
      intro l hl
      refine Sat.bind (allConverged_sat hc hl) ?_
      intro b _
      split
      · exact Sat.ok ⟨⟨_, _, _, rfl, hl⟩, fun _ => by show st.burnStart + c.burnIn < t + 1; omega⟩
      · exact Sat.ok ⟨⟨_, _, _, rfl, hl⟩, fun _ => by show st.burnStart + c.burnIn < t + 1; omega⟩
    · exact Sat.ok ⟨⟨_, _, _, rfl, hs⟩, fun _ => by show st.burnStart + c.burnIn < t + 1; omega⟩

/-! ## Generations -/

/-- What has been written to the files: from generation `b` on, one line per chain with the position (plus the offsets) and the likelihood of it. -/
def OutOk (c : DreamCfg α) (F : List α → α) (off : List α) (b t : Nat) (st : DreamSt σ α) : Prop :=
  b + st.out.length = t ∧ ∀ (k : Nat) e, st.out[k]? = some e → e.1 = b + k ∧ e.2.length = c.numChains ∧
    ∀ (i : Nat) x, e.2[i]? = some x → ∃ row, st.state[(b + k) * c.numChains + i]? = some (some row) ∧ x.1 = List.zipWith (· + ·) row off ∧ x.2.1 = F row

/-- Before generation `t`. -/
structure Inv (V : α → Prop) (c : DreamCfg α) (R : Rng σ α) (F : List α → α) (t : Nat) (st : DreamSt σ α) : Prop where
  shape : ChainShape c st
  hist : Hist V c F (t * c.numChains) st
  crm : CrmOk c st ∨ (st.gen = 0 ∧ ∀ s, (R.multi c.nCR (c.numChains * c.loopSteps) st.pCR s).1.sum = c.numChains * c.loopSteps)
  burn : st.inBurn = false → st.burnStart + c.burnIn < t
  calls : ∀ row ∈ st.calls, Pos V c row

theorem refillCR_sat {V : α → Prop} {c : DreamCfg α} {R : Rng σ α} (hR : Spec.GoodRng R) {F : List α → α} {t : Nat} {st : DreamSt σ α} (h : Inv V c R F t st) :
    Sat (refillCR c R st) fun st' => Inv V c R F t st' ∧ CrmOk c st' ∧ st'.state = st.state ∧ st'.out = st.out := by
  unfold refillCR
  by_cases hg : st.gen = 0
  · rw [if_pos hg]
    refine (genCR_sat hR h.shape (h.crm.imp_right fun h => h.2)).mono ?_
    rintro st' ⟨h1, h2, h3, h4, h5, h6, h7, h8, h9⟩
    refine ⟨⟨h2, ?_, Or.inl h1, ?_, ?_⟩, h1, h3, h9⟩
    · exact h.hist.congr (fun q _ => by rw [h3]) (fun q _ => by rw [h4])
    · rw [h6, h7]
      exact h.burn
    · rw [h8]
      exact h.calls
  · rw [if_neg hg]
    rcases h.crm with hk | hk
    · exact Sat.ok ⟨h, hk, rfl, rfl⟩
    · exact absurd hk.1 hg

theorem periodic_sat {V : α → Prop} {c : DreamCfg α} (hc : DreamOk c) {R : Rng σ α} {G : Gsl α} (hG : Spec.GoodGsl G) {F : List α → α} {t : Nat}
    {st : DreamSt σ α} (htm : t < c.maxEvals) (hs : ChainShape c st) (hk : CrmOk c st) (hh : Hist V c F ((t + 1) * c.numChains) st)
    (hb : st.inBurn = false → st.burnStart + c.burnIn < t) (hcl : ∀ row ∈ st.calls, Pos V c row) :
    Sat (periodic c G t st) fun r => Inv V c R F (t + 1) r.1 ∧ (∀ q, q < t * c.numChains → r.1.state[q]? = st.state[q]?) ∧ r.1.out = st.out := by
  unfold periodic
  split
  · have hs0 : ChainShape c { st with gen := 0 } := ⟨hs.state, hs.lik, hs.accept, hs.crm, hs.deltaTot, hs.total, hs.cand, hs.scale, hc.steps⟩
    refine Sat.bind (updatePCR_sat hs0) ?_
    rintro _ ⟨tot, p, rfl, htot⟩
    have hs1 : ChainShape c { st with gen := 0, total := tot, pCR := p } :=
      ⟨hs.state, hs.lik, hs.accept, hs.crm, hs.deltaTot, htot, hs.cand, hs.scale, hc.steps⟩
    have hh1 : Hist V c F ((t + 1) * c.numChains) { st with gen := 0, total := tot, pCR := p } := hh
    refine Sat.bind (collapse_sat hc hG htm hs1 hh1) ?_
    intro st2 h2
    obtain ⟨s', l', b', k', n', rfl⟩ := h2.same
    refine (convergence_sat hc ?_ (by exact hs.scale) h2.hist).mono ?_
    · intro hn
      rcases h2.burn with ⟨e1, e2⟩ | e
      · have hn' : st.inBurn = false := by rw [← hn]; exact e1.symm
        have e2' : b' = st.burnStart := e2
        have := hb hn'
        show b' + c.burnIn < t
        omega
      · rw [e] at hn
        cases hn
    · rintro ⟨r, flag⟩ ⟨⟨n, k, l, hr, hl⟩, hb2⟩
      subst hr
      refine ⟨⟨⟨h2.state, h2.lik, hs.accept, hs.crm, hs.deltaTot, htot, hs.cand, hl, hc.steps⟩, ?_, Or.inl hk, hb2, hcl⟩, ?_, rfl⟩
      · exact h2.hist
      · intro q hq
        exact h2.frame q hq
  · rename_i hgen
    refine Sat.ok ⟨⟨⟨hs.state, hs.lik, hs.accept, hs.crm, hs.deltaTot, hs.total, hs.cand, hs.scale, by show st.gen + 1 < _; omega⟩, hh, Or.inl hk, ?_, hcl⟩,
      fun _ _ => rfl, rfl⟩
    intro hn
    have := hb hn
    show st.burnStart + c.burnIn < t + 1
    omega

theorem generation_sat {V : α → Prop} {c : DreamCfg α} (hc : DreamOk c) (h2 : 2 ≤ c.numChains) {R : Rng σ α} (hR : Spec.GoodRng R) {G : Gsl α} (hG : Spec.GoodGsl G) (hL : CmpLaws α)
    (hV : Closed V c R) {F : List α → α} {t : Nat} {st : DreamSt σ α} (ht : 0 < t) (htm : t < c.maxEvals) (h : Inv V c R F t st) :
    Sat (generation c R G F t st) fun r => Inv V c R F (t + 1) r.1 ∧ (∀ q, q < t * c.numChains → r.1.state[q]? = st.state[q]?) ∧ r.1.out = st.out := by
  unfold generation
  refine Sat.bind (refillCR_sat hR h) ?_
  rintro st1 ⟨h1, hk1, hst1, hout1⟩
  refine Sat.bind (proposeAll_sat hc h2 hR hV ht h1.shape hk1 h1.hist) ?_
  rintro _ ⟨pr, ud, s, rfl, hud, hpr, hhalf⟩
  have e0 : EvalInv V c F t { st1 with prop := pr, updDim := ud, rng := s } 0 { st1 with prop := pr, updDim := ud, rng := s } :=
    ⟨⟨_, _, _, rfl⟩, h1.hist, h1.shape.lik, hpr, hhalf, fun k hk => absurd hk (by omega), h1.calls⟩
  refine Sat.bind (Sat.forN (I := fun i st' => EvalInv V c F t { st1 with prop := pr, updDim := ud, rng := s } i st') e0
    fun i st' hi he => evalChain_sat hc ht htm hud hi he) ?_
  intro st3 e3
  obtain ⟨l3, pr3, cl3, rfl⟩ := e3.same
  have a0 : AccInv V c F t { st1 with prop := pr3, updDim := ud, rng := s, lik := l3, calls := cl3 } 0
      { st1 with prop := pr3, updDim := ud, rng := s, lik := l3, calls := cl3 } :=
    ⟨⟨_, _, _, _, rfl⟩, e3.hist, h1.shape.state, e3.lik, h1.shape.accept, fun k _ hk => e3.done k hk, fun _ _ => rfl⟩
  refine Sat.bind (Sat.forN (I := fun i st' => AccInv V c F t { st1 with prop := pr3, updDim := ud, rng := s, lik := l3, calls := cl3 } i st') a0
    fun i st' hi ha => acceptChain_sat hL ht htm hi ha) ?_
  intro st4 a4
  obtain ⟨s4, l4, acc4, r4, rfl⟩ := a4.same
  have hist4 : Hist V c F ((t + 1) * c.numChains) { st1 with prop := pr3, updDim := ud, calls := cl3, state := s4, lik := l4, accept := acc4, rng := r4 } := by
    have := a4.hist
    rwa [show t * c.numChains + c.numChains = (t + 1) * c.numChains by ring] at this
  have shape4 : ChainShape c { st1 with prop := pr3, updDim := ud, calls := cl3, state := s4, lik := l4, accept := acc4, rng := r4 } :=
    ⟨a4.state, a4.lik, a4.accept, h1.shape.crm, h1.shape.deltaTot, h1.shape.total, h1.shape.cand, h1.shape.scale, h1.shape.gen⟩
  refine Sat.bind (jumpStats_sat hc ht shape4 hk1 hist4) ?_
  rintro _ ⟨d, rfl, hd⟩
  refine (periodic_sat (R := R) (st := { st1 with prop := pr3, updDim := ud, calls := cl3, state := s4, lik := l4, accept := acc4, rng := r4, deltaTot := d })
    hc hG htm ⟨shape4.state, shape4.lik, shape4.accept, shape4.crm, hd, shape4.total, shape4.cand, shape4.scale, shape4.gen⟩ hk1 hist4
    h1.burn e3.calls).mono ?_
  rintro ⟨r, f⟩ ⟨hi, hf, ho⟩
  refine ⟨hi, ?_, ho.trans hout1⟩
  intro q hq
  rw [hf q hq, ← hst1]
  exact a4.frame q hq

theorem report_sat {V : α → Prop} {c : DreamCfg α} {R : Rng σ α} {F : List α → α} {off : List α} {b t : Nat} {flag : Bool} {st : DreamSt σ α}
    (h : Inv V c R F (t + 1) st) (ho : OutOk c F off b t st) :
    Sat (report c off t flag st) fun st' => Inv V c R F (t + 1) st' ∧ OutOk c F off b (t + 1) st' ∧ st'.state = st.state := by
  unfold report
  refine Sat.bind (Sat.loopMap (Q := fun i (x : List α × α × Bool) => ∃ row, st.state[t * c.numChains + i]? = some (some row) ∧
    x.1 = List.zipWith (· + ·) row off ∧ x.2.1 = F row) ?_) ?_
  · intro i hi
    unfold outLine
    obtain ⟨row, hP, h1, h2⟩ := h.hist (t * c.numChains + i) (cellIdx_lt hi (by omega))
    rw [show getRow c st.state t i = .ok row from rdU_sat h1, val_bind, show getLik c st.lik t i = .ok (F row) from rdU_sat h2, val_bind]
    exact Sat.ok ⟨row, h1, rfl, rfl⟩
  · rintro l ⟨hl, hq⟩
    refine Sat.ok ⟨⟨⟨h.shape.state, h.shape.lik, h.shape.accept, h.shape.crm, h.shape.deltaTot, h.shape.total, h.shape.cand, h.shape.scale, h.shape.gen⟩,
      h.hist, h.crm, h.burn, h.calls⟩, ⟨?_, ?_⟩, rfl⟩
    · have := ho.1
      simp only [List.length_append, List.length_cons, List.length_nil]
      omega
    · intro k e he
      have he' : (st.out ++ [(t, l)])[k]? = some e := he
      by_cases hk : k < st.out.length
      · rw [List.getElem?_append_left hk] at he'
        exact ho.2 k e he'
      · rw [List.getElem?_append_right (by omega)] at he'
        have hk0 : k = st.out.length := by
          by_contra hcon
          rw [List.getElem?_eq_none (by simp; omega)] at he'
          cases he'
        subst hk0
        simp only [Nat.sub_self, List.getElem?_cons_zero, Option.some.injEq] at he'
        subst he'
        have := ho.1
        refine ⟨by show t = _; omega, hl, ?_⟩
        intro i x hx
        rw [this]
        exact hq i x hx

/-- A generation leaves what has been written valid. -/
theorem OutOk.frame {c : DreamCfg α} {F : List α → α} {off : List α} {b t : Nat} {st st' : DreamSt σ α} (h : OutOk c F off b t st) (ho : st'.out = st.out)
    (hf : ∀ q, q < t * c.numChains → st'.state[q]? = st.state[q]?) : OutOk c F off b t st' := by
  refine ⟨by rw [ho]; exact h.1, ?_⟩
  intro k e he
  rw [ho] at he
  obtain ⟨h1, h2, h3⟩ := h.2 k e he
  refine ⟨h1, h2, ?_⟩
  intro i x hx
  obtain ⟨row, hr, hx'⟩ := h3 i x hx
  refine ⟨row, ?_, hx'⟩
  rw [hf _ ?_]
  · exact hr
  · have hi : i < c.numChains := by
      rw [← h2]
      by_contra hcon
      rw [List.getElem?_eq_none (by omega)] at hx
      cases hx
    have hk : k < st.out.length := by
      by_contra hcon
      rw [List.getElem?_eq_none (by omega)] at he
      cases he
    exact cellIdx_lt hi (by have := h.1; omega)

/-- The loop over the generations returns; afterwards the whole history is valid. The number of generations done is `m`; `m - 1` of them have been written if the
loop was left because of convergence. -/
theorem runLoop_sat {V : α → Prop} {c : DreamCfg α} (hc : DreamOk c) (h2 : 2 ≤ c.numChains) {R : Rng σ α} (hR : Spec.GoodRng R) {G : Gsl α} (hG : Spec.GoodGsl G) (hL : CmpLaws α)
    (hV : Closed V c R) {F : List α → α} {off : List α} {b : Nat} (n t : Nat) (st : DreamSt σ α) (ht : 0 < t) (htm : t + n ≤ c.maxEvals)
    (h : Inv V c R F t st) (ho : OutOk c F off b t st) :
    Sat (runLoop c R G F off n t st) fun r => ∃ m, m ≤ n ∧ Inv V c R F (t + m) r.1 ∧ OutOk c F off b (if r.2 then t + m - 1 else t + m) r.1 ∧ (r.2 = false → m = n) ∧
      (∀ q, q < t * c.numChains → r.1.state[q]? = st.state[q]?) ∧ (r.2 = true → 0 < m) := by
  induction n generalizing t st with
  | zero => exact Sat.ok ⟨0, le_refl _, h, ho, fun _ => rfl, fun _ _ => rfl, fun h => by cases h⟩
  | succ n ih =>
    unfold runLoop
    refine Sat.bind (generation_sat hc h2 hR hG hL hV ht (by omega) h) ?_
    rintro ⟨g, f⟩ ⟨hg, hfr, hout⟩
    cases f with
    | true =>
      rw [if_pos rfl]
      exact Sat.ok ⟨1, by omega, hg, ho.frame hout hfr, fun h => (by cases h), hfr, fun _ => by omega⟩
    | false =>
      rw [if_neg (show ¬((g, false).2 = true) from Bool.false_ne_true)]
      refine Sat.bind (report_sat hg (ho.frame hout hfr)) ?_
      rintro st1 ⟨h1, ho1, hs1⟩
      refine (ih (t + 1) st1 (by omega) (by omega) h1 ho1).mono ?_
      rintro ⟨r, f⟩ ⟨m, hm, hi, hoo, hmn, hfr2, hpos⟩
      refine ⟨m + 1, by omega, ?_, ?_, fun h => by rw [hmn h], ?_, fun _ => by omega⟩
      · rwa [show t + (m + 1) = t + 1 + m by omega]
      · rwa [show t + (m + 1) = t + 1 + m by omega]
      · intro q hq
        have : q < (t + 1) * c.numChains := lt_of_lt_of_le hq (Nat.mul_le_mul_right _ (by omega))
        rw [hfr2 q this, hs1]
        exact hfr q hq

/-! ## Initial positions -/

theorem clamp_within (hL : CmpLaws α) {a b x : α} (hab : flt b a = false) : flt (clamp a b x) a = false ∧ flt b (clamp a b x) = false := by
  unfold clamp
  split
  · exact ⟨hL.irrefl a, hab⟩
  · split
    · exact ⟨hab, hL.irrefl b⟩
    · rename_i h1 h2
      exact ⟨by simpa using h1, by simpa using h2⟩

theorem clamp_lo (hL : CmpLaws α) {a b : α} (hab : flt b a = false) : clamp a b a = a := by
  unfold clamp
  rw [if_neg (by simp [hL.irrefl]), if_neg (by simp [hab])]

theorem clamp_class {V : α → Prop} {a b x : α} (ha : V a) (hb : V b) (hx : V x) : V (clamp a b x) := by
  unfold clamp
  split
  · exact ha
  · split
    · exact hb
    · exact hx

/-- What is known of the value of parameter `j`. -/
def PosAt (V : α → Prop) (c : DreamCfg α) (j : Nat) (x : α) : Prop :=
  V x ∧ ∀ l a b, c.lock[j]? = some l → c.lo[j]? = some a → c.hi[j]? = some b → flt x a = false ∧ flt b x = false ∧ (l = true → x = a)

theorem clamp_posAt {V : α → Prop} {c : DreamCfg α} (hc : DreamOk c) (hL : CmpLaws α) {j : Nat} {l : Bool} {a b x : α} (hl : c.lock[j]? = some l)
    (ha : c.lo[j]? = some a) (hb : c.hi[j]? = some b) (hVa : V a) (hVb : V b) (hVx : V x) (hx : l = true → x = a) : PosAt V c j (clamp a b x) := by
  refine ⟨clamp_class hVa hVb hVx, ?_⟩
  intro l' a' b' hl' ha' hb'
  rw [hl] at hl'; rw [ha] at ha'; rw [hb] at hb'
  cases hl'; cases ha'; cases hb'
  have hab := hc.ordered j a b ha hb
  refine ⟨(clamp_within hL hab).1, (clamp_within hL hab).2, ?_⟩
  intro h
  rw [hx h, clamp_lo hL hab]

theorem initValue_sat {V : α → Prop} {c : DreamCfg α} (hc : DreamOk c) {R : Rng σ α} (hL : CmpLaws α) (hV : Closed V c R) {samples : List (List Nat)} {i j : Nat}
    (hi : i < c.numChains) (hj : j < c.nvar) (hsm : samples.length = c.nvar) (hsl : ∀ r ∈ samples, r.length = c.numChains) (s : σ) :
    Sat (initValue c R samples i j s) fun r => PosAt V c j r.1 := by
  unfold initValue
  refine Sat.bind (Sat.rd (by rw [hc.lock]; exact hj)) ?_
  intro l hl
  refine Sat.bind (Sat.rd (by rw [hc.lo]; exact hj)) ?_
  intro a ha
  refine Sat.bind (Sat.rd (by rw [hc.hi]; exact hj)) ?_
  intro b hb
  have hVa := hV.lo a (List.mem_of_getElem? ha)
  have hVb := hV.hi b (List.mem_of_getElem? hb)
  cases l with
  | true =>
    rw [if_pos rfl]
    exact Sat.ok (clamp_posAt hc hL hl ha hb hVa hVb hVa fun _ => rfl)
  | false =>
    rw [if_neg (by decide)]
    refine Sat.bind (Sat.rd (by rw [hsm]; exact hj)) ?_
    intro row hrow
    refine Sat.bind (Sat.rd (by rw [hsl row (List.mem_of_getElem? hrow)]; exact hi)) ?_
    intro k _
    exact Sat.ok (clamp_posAt hc hL hl ha hb hVa hVb (hV.first a b k s (List.mem_of_getElem? ha) (List.mem_of_getElem? hb)) fun h => by cases h)

theorem redrawValue_sat {V : α → Prop} {c : DreamCfg α} (hc : DreamOk c) {R : Rng σ α} (hL : CmpLaws α) (hV : Closed V c R) {j : Nat} (hj : j < c.nvar) (s : σ) :
    Sat (redrawValue c R j s) fun r => PosAt V c j r.1 := by
  unfold redrawValue
  refine Sat.bind (Sat.rd (by rw [hc.lock]; exact hj)) ?_
  intro l hl
  refine Sat.bind (Sat.rd (by rw [hc.lo]; exact hj)) ?_
  intro a ha
  refine Sat.bind (Sat.rd (by rw [hc.hi]; exact hj)) ?_
  intro b hb
  have hVa := hV.lo a (List.mem_of_getElem? ha)
  have hVb := hV.hi b (List.mem_of_getElem? hb)
  cases l with
  | true =>
    rw [if_pos rfl]
    exact Sat.ok (clamp_posAt hc hL hl ha hb hVa hVb hVa fun _ => rfl)
  | false =>
    rw [if_neg (by decide)]
    exact Sat.ok (clamp_posAt hc hL hl ha hb hVa hVb (hV.again a b s (List.mem_of_getElem? ha) (List.mem_of_getElem? hb)) fun h => by cases h)

theorem redraw_may {V : α → Prop} {c : DreamCfg α} (hc : DreamOk c) {R : Rng σ α} (hL : CmpLaws α) (hV : Closed V c R) {F : List α → α} (fuel : Nat)
    (x : List α × α × σ × List (List α)) (hx : Pos V c x.1) (hv : x.2.1 = ninfty ∨ x.2.1 = F x.1) (hcl : ∀ row ∈ x.2.2.2, Pos V c row) :
    May (redraw c R F fuel x) fun y => (Pos V c y.1 ∧ Num (F y.1)) ∧ y.2.1 = F y.1 ∧ ∀ row ∈ y.2.2.2, Pos V c row := by
  induction fuel generalizing x with
  | zero => exact Or.inl rfl
  | succ fuel ih =>
    unfold redraw
    split
    · refine May.bind (May.sat (Sat.loopAcc (Q := fun j y => PosAt V c j y) (I := fun _ _ => True) trivial
        fun j s hj _ => (redrawValue_sat hc hL hV hj s).mono fun r hr => ⟨hr, trivial⟩)) ?_
      rintro ⟨row, s⟩ ⟨⟨hl, hq⟩, -⟩
      have hP : Pos V c row := ⟨hl, hq⟩
      refine ih (row, F row, s, row :: x.2.2.2) hP (Or.inr rfl) ?_
      intro r hr
      rcases List.mem_cons.1 hr with rfl | hr
      · exact hP
      · exact hcl r hr
    · rename_i hn
      have hv' : x.2.1 = F x.1 := ?_
      · refine May.sat (Sat.ok ⟨⟨hx, ?_⟩, hv', hcl⟩)
        rw [hv'] at hn
        simpa [Num] using hn
      rcases hv with hv | hv
      · exfalso
        apply hn
        rw [hv]
        simp [eqD, hL.ninf]
      · exact hv

theorem firstLik_sat {V : α → Prop} {c : DreamCfg α} (hc : DreamOk c) {F : List α → α} {row : List α} (hP : Pos V c row) :
    Sat (firstLik c F row) fun r => (r.1 = ninfty ∨ r.1 = F row) ∧ ∀ x ∈ r.2, Pos V c x := by
  unfold firstLik
  refine Sat.bind (outside_sat hc hP.1 true) ?_
  intro b _
  split
  · exact Sat.ok ⟨Or.inl rfl, by simp⟩
  · exact Sat.ok ⟨Or.inr rfl, by simpa using hP⟩

theorem initRows_sat {V : α → Prop} {c : DreamCfg α} (hc : DreamOk c) {R : Rng σ α} (hL : CmpLaws α) (hV : Closed V c R) {samples : List (List Nat)}
    (hsm : samples.length = c.nvar) (hsl : ∀ r ∈ samples, r.length = c.numChains) (s : σ) :
    Sat (initRows c R samples s) fun r => r.1.length = c.numChains ∧ ∀ row ∈ r.1, Pos V c row := by
  unfold initRows
  refine (Sat.loopAcc (Q := fun _ row => Pos V c row) (I := fun _ _ => True) trivial ?_).mono ?_
  · intro i s hi _
    refine (Sat.loopAcc (Q := fun j y => PosAt V c j y) (I := fun _ _ => True) trivial
      fun j s hj _ => (initValue_sat hc hL hV hi hj hsm hsl s).mono fun r hr => ⟨hr, trivial⟩).mono ?_
    rintro ⟨row, s⟩ ⟨⟨hl, hq⟩, -⟩
    exact ⟨⟨hl, hq⟩, trivial⟩
  · rintro ⟨rows, s⟩ ⟨⟨hl, hq⟩, -⟩
    refine ⟨hl, ?_⟩
    intro row hrow
    obtain ⟨z, hz, rfl⟩ := List.getElem_of_mem hrow
    exact hq z _ (by simp [hz])

theorem samples_sat {c : DreamCfg α} {R : Rng σ α} (hR : Spec.GoodRng R) (s : σ) :
    Sat (loopAcc c.nvar s fun _ s => .ok (R.perm c.numChains s)) fun r => r.1.length = c.nvar ∧ ∀ p ∈ r.1, p.Perm (List.range c.numChains) := by
  refine (Sat.loopAcc (Q := fun _ (p : List Nat) => p.Perm (List.range c.numChains)) (I := fun _ _ => True) trivial ?_).mono ?_
  · intro z s _ _
    exact Sat.ok ⟨hR.perm _ _, trivial⟩
  · rintro ⟨l, s⟩ ⟨⟨hl, hq⟩, -⟩
    refine ⟨hl, ?_⟩
    intro p hp
    obtain ⟨z, hz, rfl⟩ := List.getElem_of_mem hp
    exact hq z _ (by simp [hz])

theorem dreamInit_may {V : α → Prop} {c : DreamCfg α} (hc : DreamOk c) {R : Rng σ α} (hR : Spec.GoodRng R) (hL : CmpLaws α) (hV : Closed V c R)
    {F : List α → α} (fuel : Nat) (s : σ) :
    May (dreamInit c R F fuel s) fun r => r.1.length = c.numChains ∧ (∀ x ∈ r.1, (Pos V c x.1 ∧ Num (F x.1)) ∧ x.2 = F x.1) ∧ ∀ row ∈ r.2.2, Pos V c row := by
  unfold dreamInit
  refine May.bind (May.sat (samples_sat hR s)) ?_
  rintro ⟨sm, s1⟩ ⟨hsm, hsl⟩
  have hsl' : ∀ p ∈ sm, p.length = c.numChains := fun p hp => by rw [(hsl p hp).length_eq]; simp
  refine May.bind (May.sat (initRows_sat hc hL hV hsm hsl' s1)) ?_
  rintro ⟨rows, s2⟩ ⟨hrl, hrows⟩
  refine (May.loopAcc (Q := fun _ (x : List α × α) => (Pos V c x.1 ∧ Num (F x.1)) ∧ x.2 = F x.1) (I := fun _ (s : σ × List (List α)) => ∀ row ∈ s.2, Pos V c row) (by simp) ?_).mono ?_
  · rintro i ⟨s3, cl⟩ hi hcl
    refine May.bind (May.sat (Sat.rd (l := rows) (by rw [hrl]; exact hi))) ?_
    intro row hrow
    have hP := hrows row (List.mem_of_getElem? hrow)
    refine May.bind (May.sat (firstLik_sat hc hP)) ?_
    rintro ⟨v, cl1⟩ ⟨hv, hcl1⟩
    refine May.bind (redraw_may hc hL hV fuel (row, v, s3, cl1 ++ cl) hP hv ?_) ?_
    · intro r hr
      rcases List.mem_append.1 hr with hr | hr
      · exact hcl1 r hr
      · exact hcl r hr
    · rintro ⟨row', v', s4, cl'⟩ ⟨h1, h2, h3⟩
      exact May.sat (Sat.ok ⟨⟨h1, h2⟩, h3⟩)
  · rintro ⟨l, s3, cl⟩ ⟨⟨hl, hq⟩, hcl⟩
    refine ⟨hl, ?_, hcl⟩
    intro x hx
    obtain ⟨z, hz, rfl⟩ := List.getElem_of_mem hx
    exact hq z _ (by simp [hz])

theorem putFirst_sat {V : α → Prop} {c : DreamCfg α} {F : List α → α} {st : DreamSt σ α} (hm : 0 < c.maxEvals) (hs : ChainShape c st) {rows : List (List α × α)}
    (hr : rows.length = c.numChains) (hp : ∀ x ∈ rows, (Pos V c x.1 ∧ Num (F x.1)) ∧ x.2 = F x.1) :
    Sat (putFirst c rows st) fun st' => (∃ s l, st' = { st with state := s, lik := l }) ∧ Hist V c F c.numChains st' ∧ ChainShape c st' := by
  unfold putFirst
  refine (Sat.forN (I := fun i st' => (∃ s l, st' = { st with state := s, lik := l }) ∧ Hist V c F i st' ∧ ChainShape c st') ⟨⟨_, _, rfl⟩, ?_, hs⟩ ?_)
  · intro q hq
    omega
  · rintro i _ hi ⟨⟨s, l, rfl⟩, hh, hs'⟩
    refine Sat.bind (Sat.rd (by rw [hr]; exact hi)) ?_
    intro x hx
    obtain ⟨hP, hv⟩ := hp x (List.mem_of_getElem? hx)
    have h1 : 0 * c.numChains + i < s.length := by
      rw [hs'.state]
      exact cellIdx_lt hi hm
    have h2 : 0 * c.numChains + i < l.length := by
      rw [hs'.lik]
      exact cellIdx_lt hi (by omega)
    refine Sat.bind (Sat.wr h1) ?_
    rintro s' rfl
    refine Sat.bind (Sat.wr h2) ?_
    rintro l' rfl
    refine Sat.ok ⟨⟨_, _, rfl⟩, ?_, ⟨by simpa using hs'.state, by simpa using hs'.lik, hs'.accept, hs'.crm, hs'.deltaTot, hs'.total, hs'.cand, hs'.scale, hs'.gen⟩⟩
    intro q hq
    by_cases hqi : q = 0 * c.numChains + i
    · subst hqi
      exact ⟨x.1, hP, List.getElem?_set_self h1, by rw [← hv]; exact List.getElem?_set_self h2⟩
    · obtain ⟨row, h3, h4, h5⟩ := hh q (by omega)
      exact ⟨row, h3, (List.getElem?_set_ne (Ne.symm hqi)).trans h4, (List.getElem?_set_ne (Ne.symm hqi)).trans h5⟩

theorem start_shape {c : DreamCfg α} (hc : DreamOk c) (s : σ) : ChainShape c (start c s) := by
  refine ⟨?_, ?_, ?_, ?_, ?_, ?_, ?_, ?_, hc.steps⟩ <;> simp [start]

/-- A new run: after the initial positions have been found everything is ready for generation 1. -/
theorem fresh_may {V : α → Prop} {c : DreamCfg α} (hc : DreamOk c) {R : Rng σ α} (hR : Spec.GoodRng R) (hL : CmpLaws α) (hV : Closed V c R) {F : List α → α}
    {off : List α} (hm : 0 < c.maxEvals) (ha : c.append = false) (fuel : Nat) (s : σ) :
    May (fresh c R F off fuel (start c s)) fun st => Inv V c R F 1 st ∧ OutOk c F off 0 1 st := by
  unfold fresh
  rw [if_neg (by simp [ha])]
  refine May.bind (dreamInit_may hc hR hL hV fuel _) ?_
  rintro ⟨rows, s1, cl⟩ ⟨hr, hp, hcl⟩
  have hsh := start_shape hc s
  have hsh' : ChainShape c { start c s with rng := s1, calls := cl } :=
    ⟨hsh.state, hsh.lik, hsh.accept, hsh.crm, hsh.deltaTot, hsh.total, hsh.cand, hsh.scale, hsh.gen⟩
  refine May.bind (May.sat (putFirst_sat hm hsh' hr hp)) ?_
  rintro _ ⟨⟨s', l', rfl⟩, hh, hs'⟩
  refine May.sat ((report_sat (b := 0) (R := R) (V := V) (F := F) (t := 0) ⟨hs', ?_, ?_, ?_, hcl⟩ ⟨rfl, ?_⟩).mono fun st h => ⟨h.1, h.2.1⟩)
  · intro q hq
    exact hh q (by simpa using hq)
  · exact Or.inr ⟨rfl, fun s2 => hR.multi_uniform c.nCR _ s2 hc.ncr⟩
  · intro h
    have h' : decide (0 < c.burnIn) = false := h
    have : c.burnIn = 0 := by simpa using h'
    show 0 + c.burnIn < 0 + 1
    omega
  · intro k e he
    have he' : ([] : List (Nat × List (List α × α × Bool)))[k]? = some e := he
    simp at he'

/-- A new run returns, or looks for initial positions for ever. -/
theorem dream_may {V : α → Prop} {c : DreamCfg α} (hc : DreamOk c) (h2 : 2 ≤ c.numChains) {R : Rng σ α} (hR : Spec.GoodRng R) {G : Gsl α} (hG : Spec.GoodGsl G) (hL : CmpLaws α)
    (hV : Closed V c R) {F : List α → α} {off : List α} (hm : 0 < c.maxEvals) (ha : c.append = false) (files : List (Option (List (ChainLine α)))) (fuel : Nat)
    (s : σ) :
    May (dream c R G F off files fuel s) fun r => ∃ m, 0 < m ∧ m ≤ c.maxEvals ∧ Inv V c R F m r.1 ∧
      ((r.2 = .maxIterations ∧ m = c.maxEvals ∧ OutOk c F off 0 m r.1) ∨ (r.2 = .converged ∧ OutOk c F off 0 (m - 1) r.1)) := by
  unfold dream restore
  rw [if_neg (by simp [ha]), val_bind]
  show May (if (0 : Int) < 0 then _ else _) _
  rw [if_neg (by omega)]
  refine May.bind (fresh_may hc hR hL hV hm ha fuel s) ?_
  rintro st1 ⟨h1, ho1⟩
  refine May.bind (May.sat (runLoop_sat hc h2 hR hG hL hV (c.maxEvals - 1) 1 st1 (by omega) (by omega) h1 ho1)) ?_
  rintro ⟨st2, b⟩ ⟨m, hmn, hi, ho, hb, -, hpos⟩
  refine May.sat (Sat.ok ⟨1 + m, by omega, by omega, hi, ?_⟩)
  cases b with
  | true =>
    right
    exact ⟨rfl, ho⟩
  | false =>
    left
    exact ⟨rfl, by rw [hb rfl]; omega, ho⟩

/-! ## Likelihoods that are numbers -/

/-- The likelihood is never `-INFINITY` or NaN. -/
def NumberLik (F : List α → α) : Prop := ∀ row, Num (F row)

theorem redraw_ends {V : α → Prop} {c : DreamCfg α} (hc : DreamOk c) {R : Rng σ α} (hL : CmpLaws α) (hV : Closed V c R) {F : List α → α} (hF : NumberLik F)
    (fuel : Nat) (x : List α × α × σ × List (List α)) : Sat (redraw c R F (fuel + 2) x) fun _ => True := by
  have key : ∀ f (y : List α × α × σ × List (List α)), y.2.1 = F y.1 → Sat (redraw c R F (f + 1) y) fun _ => True := by
    intro f y hy
    unfold redraw
    rw [if_neg (by rw [hy]; simp [(hF y.1).1, (hF y.1).2])]
    exact Sat.ok trivial
  unfold redraw
  split
  · refine Sat.bind (Sat.loopAcc (Q := fun j y => PosAt V c j y) (I := fun _ _ => True) trivial
      fun j s hj _ => (redrawValue_sat hc hL hV hj s).mono fun r hr => ⟨hr, trivial⟩) ?_
    rintro ⟨row, s⟩ -
    exact key fuel _ rfl
  · exact Sat.ok trivial

theorem dreamInit_ends {V : α → Prop} {c : DreamCfg α} (hc : DreamOk c) {R : Rng σ α} (hR : Spec.GoodRng R) (hL : CmpLaws α) (hV : Closed V c R)
    {F : List α → α} (hF : NumberLik F) (fuel : Nat) (s : σ) : Sat (dreamInit c R F (fuel + 2) s) fun _ => True := by
  unfold dreamInit
  refine Sat.bind (samples_sat hR s) ?_
  rintro ⟨sm, s1⟩ ⟨hsm, hsl⟩
  have hsl' : ∀ p ∈ sm, p.length = c.numChains := fun p hp => by rw [(hsl p hp).length_eq]; simp
  refine Sat.bind (initRows_sat hc hL hV hsm hsl' s1) ?_
  rintro ⟨rows, s2⟩ ⟨hrl, hrows⟩
  refine (Sat.loopAcc (Q := fun _ _ => True) (I := fun _ _ => True) trivial ?_).mono fun _ _ => trivial
  rintro i ⟨s3, cl⟩ hi -
  refine Sat.bind (Sat.rd (l := rows) (by rw [hrl]; exact hi)) ?_
  intro row hrow
  have hP := hrows row (List.mem_of_getElem? hrow)
  refine Sat.bind (firstLik_sat hc hP) ?_
  rintro ⟨v, cl1⟩ -
  refine Sat.bind (redraw_ends hc hL hV hF fuel _) ?_
  intro r _
  exact Sat.ok ⟨trivial, trivial⟩

/-- The call does not run for ever and satisfies `Q`. -/
theorem May.sat_of {β : Type} {x : Res β} {Q : β → Prop} (h : May x Q) (hx : x ≠ .error .diverge) : Sat x Q := h.resolve_left hx

theorem fresh_sat {V : α → Prop} {c : DreamCfg α} (hc : DreamOk c) {R : Rng σ α} (hR : Spec.GoodRng R) (hL : CmpLaws α) (hV : Closed V c R) {F : List α → α}
    (hF : NumberLik F) {off : List α} (hm : 0 < c.maxEvals) (ha : c.append = false) (fuel : Nat) (s : σ) :
    Sat (fresh c R F off (fuel + 2) (start c s)) fun st => Inv V c R F 1 st ∧ OutOk c F off 0 1 st := by
  refine (fresh_may hc hR hL hV hm ha (fuel + 2) s).sat_of ?_
  unfold fresh
  rw [if_neg (by simp [ha])]
  obtain ⟨r, hr, -⟩ := dreamInit_ends hc hR hL hV hF fuel (start c s).rng
  obtain ⟨h1, h2, h3⟩ := (dreamInit_may hc hR hL hV (fuel + 2) (start c s).rng).get hr
  rw [hr, val_bind]
  have hsh := start_shape hc s
  have hsh' : ChainShape c { start c s with rng := r.2.1, calls := r.2.2 } :=
    ⟨hsh.state, hsh.lik, hsh.accept, hsh.crm, hsh.deltaTot, hsh.total, hsh.cand, hsh.scale, hsh.gen⟩
  obtain ⟨st', hst, ⟨s', l', rfl⟩, hh, hs'⟩ := putFirst_sat (V := V) (F := F) hm hsh' h1 h2
  rw [hst, val_bind]
  unfold report
  have : Sat (loopMap c.numChains fun i => outLine c off 0 i ({ start c s with rng := r.2.1, calls := r.2.2, state := s', lik := l' } : DreamSt σ α).inBurn
      { start c s with rng := r.2.1, calls := r.2.2, state := s', lik := l' }) fun _ => True := by
    refine (Sat.loopMap (Q := fun _ _ => True) ?_).mono fun _ _ => trivial
    intro i hi
    unfold outLine
    obtain ⟨row, -, e1, e2⟩ := hh (0 * c.numChains + i) (by omega)
    rw [show getRow c _ 0 i = .ok row from rdU_sat e1, val_bind, show getLik c _ 0 i = .ok (F row) from rdU_sat e2, val_bind]
    exact Sat.ok trivial
  obtain ⟨l, hl, -⟩ := this
  intro hcon
  rw [hl] at hcon
  cases hcon

end

end Imfit
