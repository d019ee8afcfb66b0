import Verif.Lemmas.DE

/-!
# Differential evolution: array accesses
-/

namespace Imfit

open XR

/-- The only way to fail is to draw random numbers for ever. -/
def OnlyDiverge {β : Type} (x : Res β) : Prop := ∀ f, x = .error f → f = .diverge

theorem onlyDiverge_ok {β : Type} (a : β) : OnlyDiverge (.ok a : Res β) := fun _ h => by cases h

theorem onlyDiverge_bind {β γ : Type} {x : Res β} {f : β → Res γ} (hx : OnlyDiverge x) (hf : ∀ a, x = .ok a → OnlyDiverge (f a)) :
    OnlyDiverge (x >>= f) := by
  cases x with
  | error e => intro g h; exact hx g (by cases h; rfl)
  | ok a => exact hf a rfl

/-- A loop whose turns succeed and keep an invariant succeeds and keeps it. -/
theorem forN_total {σ : Type} (n : Nat) (s : σ) (f : Nat → σ → Res σ) (I : σ → Prop) (h0 : I s)
    (hstep : ∀ z t, z < n → I t → ∃ t', f z t = .ok t' ∧ I t') : ∃ s', forN n s f = .ok s' ∧ I s' := by
  induction n with
  | zero => exact ⟨s, rfl, h0⟩
  | succ n ih =>
    obtain ⟨t, ht, it⟩ := ih fun z t hz => hstep z t (by omega)
    obtain ⟨t', h1, h2⟩ := hstep n t (by omega) it
    exact ⟨t', by simp only [forN, ht, ok_bind]; exact h1, h2⟩

theorem forN_onlyDiverge {σ : Type} (n : Nat) (s : σ) (f : Nat → σ → Res σ) (I : σ → Prop) (h0 : I s)
    (hstep : ∀ z t, z < n → I t → OnlyDiverge (f z t) ∧ ∀ t', f z t = .ok t' → I t') :
    OnlyDiverge (forN n s f) ∧ ∀ s', forN n s f = .ok s' → I s' := by
  induction n with
  | zero => exact ⟨onlyDiverge_ok s, fun s' h => by cases h; exact h0⟩
  | succ n ih =>
    obtain ⟨h1, h2⟩ := ih fun z t hz => hstep z t (by omega)
    refine ⟨?_, ?_⟩
    · exact onlyDiverge_bind h1 fun a ha => (hstep n a (by omega) (h2 a ha)).1
    · intro s' h
      obtain ⟨a, ha, h⟩ := bind_ok h
      exact (hstep n a (by omega) (h2 a ha)).2 s' h

section
variable {α : Type} [FP α]

/-- Random indices are in range: what `(int)RandomUniform(0.0, m)` should give. -/
def GoodDraws (c : DECfg α) (rng : Nat → Nat) : Prop :=
  ∀ p m : Nat, 0 < m → m < 2 ^ 31 → ∃ i : Nat, i < m ∧ c.toInt (randUniform (unif rng p) 0 (lit (m : ℚ))) = .ok (i : Int)

/-- Sizes of the arrays. -/
structure Sizes (c : DECfg α) (st : DESt α) : Prop where
  pop : st.pop.length = c.nPop * c.nDim
  popE : st.popE.length = c.nPop
  best : st.best.length = c.nDim

/-- Sizes that do not change, and ranges of `int`. -/
structure SizesCfg (c : DECfg α) : Prop where
  lo : c.lo.length = c.nDim
  hi : c.hi.length = c.nDim
  dim0 : 0 < c.nDim
  dim : c.nDim < 2 ^ 31
  pop : c.nPop < 2 ^ 31

/-! ### Choosing the partners -/

/-- A chosen sample is not one of the excluded ones, and it is an existing member if the draws are good. -/
theorem pickSample_ok {c : DECfg α} {rng : Nat → Nat} {excl : List Int} {fuel p : Nat} {r : Int × Nat} (h : pickSample c rng excl fuel p = .ok r) :
    r.1 ∉ excl ∧ (GoodDraws c rng → 0 < c.nPop → c.nPop < 2 ^ 31 → 0 ≤ r.1 ∧ r.1 < c.nPop) := by
  induction fuel generalizing p with
  | zero => simp only [pickSample] at h; cases h
  | succ n ih =>
    simp only [pickSample] at h
    obtain ⟨i, hi, h⟩ := bind_ok h
    split at h
    · exact ih h
    · rename_i hne
      cases h
      refine ⟨hne, fun hg h0 h1 => ?_⟩
      obtain ⟨j, hj, e⟩ := hg p c.nPop h0 h1
      rw [hi] at e
      cases e
      simp only
      omega

theorem pickSample_onlyDiverge {c : DECfg α} {rng : Nat → Nat} (hg : GoodDraws c rng) (h0 : 0 < c.nPop) (h1 : c.nPop < 2 ^ 31) (excl : List Int)
    (fuel p : Nat) : OnlyDiverge (pickSample c rng excl fuel p) := by
  induction fuel generalizing p with
  | zero => intro f h; simp only [pickSample] at h; cases h; rfl
  | succ n ih =>
    simp only [pickSample]
    obtain ⟨j, hj, e⟩ := hg p c.nPop h0 h1
    rw [e]
    simp only [ok_bind]
    split
    · exact ih (p + 1)
    · exact onlyDiverge_ok _

/-- The samples: as many as asked for, pairwise distinct, none of them excluded, and existing members if the draws are good. -/
theorem selectSamples_ok {c : DECfg α} {rng : Nat → Nat} {fuel k : Nat} {excl : List Int} {p : Nat} {r : List Int × Nat}
    (h : selectSamples c rng fuel k excl p = .ok r) :
    r.1.length = k ∧ r.1.Nodup ∧ (∀ i ∈ r.1, i ∉ excl) ∧
      (GoodDraws c rng → 0 < c.nPop → c.nPop < 2 ^ 31 → ∀ i ∈ r.1, 0 ≤ i ∧ i < c.nPop) := by
  induction k generalizing excl p r with
  | zero => simp only [selectSamples] at h; cases h; simp
  | succ n ih =>
    simp only [selectSamples] at h
    obtain ⟨q, hq, h⟩ := bind_ok h
    obtain ⟨t, ht, h⟩ := bind_ok h
    cases h
    obtain ⟨a1, a2⟩ := pickSample_ok hq
    obtain ⟨b1, b2, b3, b4⟩ := ih ht
    refine ⟨by simp [b1], ?_, ?_, ?_⟩
    · rw [List.nodup_cons]
      exact ⟨fun hm => b3 _ hm (by simp), b2⟩
    · intro i hi
      rcases List.mem_cons.1 hi with rfl | hi
      · exact a1
      · exact fun hm => b3 i hi (List.mem_cons_of_mem _ hm)
    · intro hg h0 h1 i hi
      rcases List.mem_cons.1 hi with rfl | hi
      · exact a2 hg h0 h1
      · exact b4 hg h0 h1 i hi

theorem selectSamples_onlyDiverge {c : DECfg α} {rng : Nat → Nat} (hg : GoodDraws c rng) (h0 : 0 < c.nPop) (h1 : c.nPop < 2 ^ 31)
    (fuel k : Nat) (excl : List Int) (p : Nat) : OnlyDiverge (selectSamples c rng fuel k excl p) := by
  induction k generalizing excl p with
  | zero => exact onlyDiverge_ok _
  | succ n ih =>
    simp only [selectSamples]
    refine onlyDiverge_bind (pickSample_onlyDiverge hg h0 h1 _ _ _) fun a _ => ?_
    exact onlyDiverge_bind (ih _ _) fun b _ => onlyDiverge_ok _

/-- Among any `w` draws in a row, every index occurs. -/
def Covers (c : DECfg α) (rng : Nat → Nat) (w : Nat) : Prop :=
  ∀ p i : Nat, i < c.nPop → ∃ d, d < w ∧ c.toInt (randUniform (unif rng (p + d)) 0 (lit (c.nPop : ℚ))) = .ok (i : Int)

theorem pickSample_total {c : DECfg α} {rng : Nat → Nat} (hg : GoodDraws c rng) (h0 : 0 < c.nPop) (h1 : c.nPop < 2 ^ 31) {excl : List Int} {i : Nat}
    (hi : (i : Int) ∉ excl) {fuel p d : Nat} (hd : d < fuel) (hhit : c.toInt (randUniform (unif rng (p + d)) 0 (lit (c.nPop : ℚ))) = .ok (i : Int)) :
    ∃ r, pickSample c rng excl fuel p = .ok r := by
  induction fuel generalizing p d with
  | zero => omega
  | succ n ih =>
    simp only [pickSample]
    obtain ⟨j, hj, e⟩ := hg p c.nPop h0 h1
    rw [e]
    simp only [ok_bind]
    split
    · rename_i hm
      cases d with
      | zero =>
        rw [Nat.add_zero] at hhit
        rw [hhit] at e
        cases e
        exact absurd hm hi
      | succ d => exact ih (d := d) (by omega) (by rw [← hhit]; congr 3; omega)
    · exact ⟨_, rfl⟩

/-- With fewer than `m` numbers excluded, some number below `m` is not. -/
theorem exists_free {m : Nat} {excl : List Int} (h : excl.length < m) : ∃ i : Nat, i < m ∧ (i : Int) ∉ excl := by
  by_contra hc
  have h1 : ∀ i : Nat, i < m → (i : Int) ∈ excl := by
    intro i hi
    by_contra hn
    exact hc ⟨i, hi, hn⟩
  have h2 : ((List.range m).map fun i : Nat => (i : Int)) ⊆ excl := by
    intro x hx
    obtain ⟨i, hi, rfl⟩ := List.mem_map.1 hx
    exact h1 i (List.mem_range.1 hi)
  have h3 : ((List.range m).map fun i : Nat => (i : Int)).Nodup := List.Nodup.map (fun a b h => by exact_mod_cast h) List.nodup_range
  have h4 := (h3.subperm h2).length_le
  simp at h4
  omega

theorem selectSamples_total {c : DECfg α} {rng : Nat → Nat} (hg : GoodDraws c rng) (h1 : c.nPop < 2 ^ 31) {w : Nat} (hw : Covers c rng w)
    (k : Nat) (excl : List Int) (p : Nat) (hk : k + excl.length ≤ c.nPop) : ∃ r, selectSamples c rng w k excl p = .ok r := by
  induction k generalizing excl p with
  | zero => exact ⟨_, rfl⟩
  | succ n ih =>
    obtain ⟨i, hi, hf⟩ := exists_free (m := c.nPop) (excl := excl) (by omega)
    obtain ⟨d, hd, hh⟩ := hw p i hi
    obtain ⟨r, hr⟩ := pickSample_total hg (by omega) h1 hf hd hh
    obtain ⟨q, hq⟩ := ih (r.1 :: excl) r.2 (by simp; omega)
    exact ⟨(r.1 :: q.1, q.2), by simp only [selectSamples, hr, ok_bind, hq]⟩

/-! ### One candidate -/

theorem rdI_total {β : Type} {l : List β} {i : Int} (h0 : 0 ≤ i) (h : i < l.length) : ∃ x, rdI l i = .ok x := by
  unfold rdI
  rw [if_neg (by omega), rd_ok (by omega)]
  exact ⟨_, rfl⟩

theorem wrI_total {β : Type} {l : List β} {i : Int} (x : β) (h0 : 0 ≤ i) (h : i < l.length) : ∃ l', wrI l i x = .ok l' ∧ l'.length = l.length := by
  unfold wrI
  rw [if_neg (by omega), wr_ok (by omega)]
  exact ⟨_, rfl, by simp⟩

omit [FP α] in
theorem elem_total {c : DECfg α} {pop : List α} (hp : pop.length = c.nPop * c.nDim) {r n : Int} (hr : 0 ≤ r ∧ r < c.nPop)
    (hn : 0 ≤ n ∧ n < c.nDim) : ∃ x, elem c pop r n = .ok x := by
  have h1 : 0 ≤ r * c.nDim := mul_nonneg hr.1 (by omega)
  have h2 : (r + 1) * c.nDim ≤ c.nPop * c.nDim := mul_le_mul_of_nonneg_right (by omega) (by omega)
  refine rdI_total (by omega) ?_
  rw [hp]
  push_cast
  have h3 : (r + 1) * (c.nDim : Int) = r * c.nDim + c.nDim := by ring
  omega

theorem newValue_total {c : DECfg α} {st : DESt α} {rs : List Int} {n : Int} (hs : Sizes c st) (ht : st.trial.length = c.nDim)
    (hl : rs.length = nSamples c.base) (hr : ∀ i ∈ rs, 0 ≤ i ∧ i < c.nPop) (hn : 0 ≤ n ∧ n < c.nDim) : ∃ v, newValue c st rs n = .ok v := by
  have hrd : ∀ j, j < nSamples c.base → ∃ r, rd rs j = .ok r ∧ 0 ≤ r ∧ r < c.nPop := by
    intro j hj
    have hj' : j < rs.length := by omega
    exact ⟨rs[j], rd_ok hj', hr _ (List.getElem_mem hj')⟩
  have hel : ∀ r, 0 ≤ r ∧ r < (c.nPop : Int) → ∃ x, elem c st.pop r n = .ok x := fun r h => elem_total hs.pop h hn
  obtain ⟨b, hb⟩ := rdI_total (l := st.best) hn.1 (by rw [hs.best]; exact hn.2)
  obtain ⟨t, ht'⟩ := rdI_total (l := st.trial) hn.1 (by rw [ht]; exact hn.2)
  unfold newValue
  cases hbase : c.base with
  | best1 =>
    rw [hbase] at hrd
    obtain ⟨r1, e1, g1⟩ := hrd 0 (by decide)
    obtain ⟨r2, e2, g2⟩ := hrd 1 (by decide)
    obtain ⟨x1, f1⟩ := hel r1 g1
    obtain ⟨x2, f2⟩ := hel r2 g2
    simp only [e1, e2, f1, f2, hb, ok_bind]
    exact ⟨_, rfl⟩
  | rand1 =>
    rw [hbase] at hrd
    obtain ⟨r1, e1, g1⟩ := hrd 0 (by decide)
    obtain ⟨r2, e2, g2⟩ := hrd 1 (by decide)
    obtain ⟨r3, e3, g3⟩ := hrd 2 (by decide)
    obtain ⟨x1, f1⟩ := hel r1 g1
    obtain ⟨x2, f2⟩ := hel r2 g2
    obtain ⟨x3, f3⟩ := hel r3 g3
    simp only [e1, e2, e3, f1, f2, f3, ok_bind]
    exact ⟨_, rfl⟩
  | randToBest1 =>
    rw [hbase] at hrd
    obtain ⟨r1, e1, g1⟩ := hrd 0 (by decide)
    obtain ⟨r2, e2, g2⟩ := hrd 1 (by decide)
    obtain ⟨x1, f1⟩ := hel r1 g1
    obtain ⟨x2, f2⟩ := hel r2 g2
    simp only [e1, e2, f1, f2, hb, ht', ok_bind]
    exact ⟨_, rfl⟩
  | best2 =>
    rw [hbase] at hrd
    obtain ⟨r1, e1, g1⟩ := hrd 0 (by decide)
    obtain ⟨r2, e2, g2⟩ := hrd 1 (by decide)
    obtain ⟨r3, e3, g3⟩ := hrd 2 (by decide)
    obtain ⟨r4, e4, g4⟩ := hrd 3 (by decide)
    obtain ⟨x1, f1⟩ := hel r1 g1
    obtain ⟨x2, f2⟩ := hel r2 g2
    obtain ⟨x3, f3⟩ := hel r3 g3
    obtain ⟨x4, f4⟩ := hel r4 g4
    simp only [e1, e2, e3, e4, f1, f2, f3, f4, hb, ok_bind]
    exact ⟨_, rfl⟩
  | rand2 =>
    rw [hbase] at hrd
    obtain ⟨r1, e1, g1⟩ := hrd 0 (by decide)
    obtain ⟨r2, e2, g2⟩ := hrd 1 (by decide)
    obtain ⟨r3, e3, g3⟩ := hrd 2 (by decide)
    obtain ⟨r4, e4, g4⟩ := hrd 3 (by decide)
    obtain ⟨r5, e5, g5⟩ := hrd 4 (by decide)
    obtain ⟨x1, f1⟩ := hel r1 g1
    obtain ⟨x2, f2⟩ := hel r2 g2
    obtain ⟨x3, f3⟩ := hel r3 g3
    obtain ⟨x4, f4⟩ := hel r4 g4
    obtain ⟨x5, f5⟩ := hel r5 g5
    simp only [e1, e2, e3, e4, e5, f1, f2, f3, f4, f5, ok_bind]
    exact ⟨_, rfl⟩

theorem mutate_total {c : DECfg α} {st : DESt α} {rs : List Int} {n : Int} (hs : Sizes c st) (ht : st.trial.length = c.nDim)
    (hl : rs.length = nSamples c.base) (hr : ∀ i ∈ rs, 0 ≤ i ∧ i < c.nPop) (hn : 0 ≤ n ∧ n < c.nDim) :
    ∃ t, mutate c rs n st = .ok t ∧ Sizes c t ∧ t.trial.length = c.nDim := by
  obtain ⟨v, hv⟩ := newValue_total hs ht hl hr hn
  obtain ⟨w, hw, hwl⟩ := wrI_total (l := st.trial) v hn.1 (by rw [ht]; exact hn.2)
  refine ⟨{ st with trial := w }, ?_, ⟨hs.pop, hs.popE, hs.best⟩, hwl.trans ht⟩
  unfold mutate
  simp only [hv, hw, ok_bind]

omit [FP α] in
theorem next_index {c : DECfg α} (hc : SizesCfg c) (n : Int) : 0 ≤ (n + 1) % (c.nDim : Int) ∧ (n + 1) % (c.nDim : Int) < c.nDim := by
  have := hc.dim0
  exact ⟨Int.emod_nonneg _ (by omega), Int.emod_lt_of_pos _ (by omega)⟩

theorem expLoop_total {c : DECfg α} {rng : Nat → Nat} {rs : List Int} (hc : SizesCfg c) (hl : rs.length = nSamples c.base)
    (hr : ∀ i ∈ rs, 0 ≤ i ∧ i < c.nPop) (left : Nat) (n : Int) (st : DESt α) (hs : Sizes c st) (ht : st.trial.length = c.nDim)
    (hn : 0 ≤ n ∧ n < c.nDim) : ∃ t, expLoop c rng rs left n st = .ok t ∧ Sizes c t ∧ t.trial.length = c.nDim := by
  induction left generalizing n st with
  | zero => exact ⟨_, rfl, ⟨hs.pop, hs.popE, hs.best⟩, ht⟩
  | succ k ih =>
    simp only [expLoop]
    split
    · obtain ⟨t, h1, h2, h3⟩ := mutate_total (st := { st with pos := st.pos + 1 }) ⟨hs.pop, hs.popE, hs.best⟩ ht hl hr hn
      rw [h1]
      simp only [ok_bind]
      exact ih _ _ h2 h3 (next_index hc n)
    · exact ⟨_, rfl, ⟨hs.pop, hs.popE, hs.best⟩, ht⟩

theorem binLoop_total {c : DECfg α} {rng : Nat → Nat} {rs : List Int} (hc : SizesCfg c) (hl : rs.length = nSamples c.base)
    (hr : ∀ i ∈ rs, 0 ≤ i ∧ i < c.nPop) (left : Nat) (n : Int) (st : DESt α) (hs : Sizes c st) (ht : st.trial.length = c.nDim)
    (hn : 0 ≤ n ∧ n < c.nDim) : ∃ t, binLoop c rng rs left n st = .ok t ∧ Sizes c t ∧ t.trial.length = c.nDim := by
  induction left generalizing n st with
  | zero => exact ⟨_, rfl, hs, ht⟩
  | succ k ih =>
    simp only [binLoop]
    split
    · obtain ⟨t, h1, h2, h3⟩ := mutate_total (st := { st with pos := st.pos + 1 }) ⟨hs.pop, hs.popE, hs.best⟩ ht hl hr hn
      rw [h1]
      simp only [ok_bind]
      exact ih _ _ h2 h3 (next_index hc n)
    · exact ih _ _ ⟨hs.pop, hs.popE, hs.best⟩ ht (next_index hc n)

theorem loopMap_total {β : Type} (n : Nat) (f : Nat → Res β) (h : ∀ z, z < n → ∃ x, f z = .ok x) : ∃ l, loopMap n f = .ok l ∧ l.length = n := by
  induction n with
  | zero => exact ⟨[], rfl, rfl⟩
  | succ n ih =>
    obtain ⟨l, hl, hn⟩ := ih fun z hz => h z (by omega)
    obtain ⟨x, hx⟩ := h n (by omega)
    exact ⟨l ++ [x], by simp only [loopMap, hl, hx, ok_bind]; rfl, by simp [hn]⟩

theorem loopAcc_total {β σ : Type} (n : Nat) (s : σ) (f : Nat → σ → Res (β × σ)) (h : ∀ z s, z < n → ∃ x, f z s = .ok x) :
    ∃ l, loopAcc n s f = .ok l ∧ l.1.length = n := by
  induction n with
  | zero => exact ⟨([], s), rfl, rfl⟩
  | succ n ih =>
    obtain ⟨l, hl, hn⟩ := ih fun z s hz => h z s (by omega)
    obtain ⟨x, hx⟩ := h n l.2 (by omega)
    exact ⟨(l.1 ++ [x.1], x.2), by simp only [loopAcc, hl, hx, ok_bind]; rfl, by simp [hn]⟩

omit [FP α] in
theorem row_index {c : DECfg α} {k j : Nat} (hk : k < c.nPop) (hj : j < c.nDim) : k * c.nDim + j < c.nPop * c.nDim := by
  have : (k + 1) * c.nDim ≤ c.nPop * c.nDim := Nat.mul_le_mul_right _ hk
  rw [Nat.add_mul, Nat.one_mul] at this
  omega

omit [FP α] in
theorem rowOf_total {c : DECfg α} {pop : List α} (hp : pop.length = c.nPop * c.nDim) {k : Nat} (hk : k < c.nPop) :
    ∃ r, rowOf c pop k = .ok r ∧ r.length = c.nDim :=
  loopMap_total _ _ fun j hj => ⟨_, rd_ok (by rw [hp]; exact row_index hk hj)⟩

/-- Given partners, nothing else can go wrong with a candidate. -/
theorem oneCandidate_of_samples {c : DECfg α} {rng : Nat → Nat} {fuel : Nat} {energy : List α → α} (hc : SizesCfg c) (hg : GoodDraws c rng)
    {k : Nat} (hk : k < c.nPop) {st : DESt α} (hs : Sizes c st) {q : List Int × Nat}
    (hq : selectSamples c rng fuel (nSamples c.base) [(k : Int)] st.pos = .ok q) :
    ∃ t, oneCandidate c rng fuel energy k st = .ok t ∧ Sizes c t := by
  obtain ⟨q1, _, _, q4⟩ := selectSamples_ok hq
  have hr := q4 hg (by omega) hc.pop
  obtain ⟨n, hn, en⟩ := hg q.2 c.nDim hc.dim0 hc.dim
  obtain ⟨row, erow, lrow⟩ := rowOf_total hs.pop hk
  have hcross : ∃ t, crossover c rng q.1 (n : Int) { st with trial := row, pos := q.2 + 1 } = .ok t ∧ Sizes c t ∧ t.trial.length = c.nDim := by
    unfold crossover
    split
    · exact binLoop_total hc q1 hr _ _ _ ⟨hs.pop, hs.popE, hs.best⟩ lrow ⟨by omega, by omega⟩
    · exact expLoop_total hc q1 hr _ _ _ ⟨hs.pop, hs.popE, hs.best⟩ lrow ⟨by omega, by omega⟩
  obtain ⟨s1, e1, h1, l1⟩ := hcross
  have e1' : calcTrial c rng fuel k st = .ok s1 := by
    unfold calcTrial
    simp only [hq, en, erow, ok_bind]
    exact e1
  obtain ⟨old, eold, lold⟩ := rowOf_total h1.pop hk
  have hrep : ∃ s2, repair c rng old s1 = .ok s2 ∧ Sizes c s2 ∧ s2.trial.length = c.nDim := by
    obtain ⟨p, ep, lp⟩ := loopAcc_total (β := α) (σ := Nat) c.nDim s1.pos (fun j pos => do
        let t ← rd s1.trial j
        let l ← rd c.lo j
        let h ← rd c.hi j
        let o ← rd old j
        .ok (repairHi rng h o (repairLo rng l o (t, pos)))) (by
      intro j p hj
      rw [rd_ok (by omega), rd_ok (by rw [hc.lo]; exact hj), rd_ok (by rw [hc.hi]; exact hj), rd_ok (by omega)]
      exact ⟨_, rfl⟩)
    refine ⟨{ s1 with trial := p.1, pos := p.2 }, ?_, ⟨h1.pop, h1.popE, h1.best⟩, lp⟩
    unfold repair
    rw [ep]
    rfl
  obtain ⟨s2, e2, h2, l2⟩ := hrep
  have hacc : ∃ s3, accept c energy k s2 = .ok s3 ∧ Sizes c s3 := by
    unfold accept
    rw [rd_ok (by rw [h2.popE]; exact hk)]
    simp only [ok_bind]
    split
    · rw [wr_ok (by rw [h2.popE]; exact hk)]
      simp only [ok_bind]
      obtain ⟨pop, epop, lpop⟩ := forN_total c.nDim s2.pop (fun j pop => do
          let x ← rd s2.trial j
          wr pop (k * c.nDim + j) x) (fun p => p.length = c.nPop * c.nDim) h2.pop (by
        intro j p hj hp
        rw [rd_ok (by omega)]
        simp only [ok_bind]
        rw [wr_ok (by rw [hp]; exact row_index hk hj)]
        exact ⟨_, rfl, by simp [hp]⟩)
      have e : putRow c k s2.trial s2.pop = .ok pop := epop
      rw [e]
      simp only [ok_bind]
      refine ⟨_, rfl, ?_⟩
      unfold keepBest
      split
      · exact ⟨lpop, by simp [h2.popE], l2⟩
      · exact ⟨lpop, by simp [h2.popE], h2.best⟩
    · exact ⟨_, rfl, h2⟩
  obtain ⟨s3, e3, h3⟩ := hacc
  refine ⟨note s2.trial s3, ?_, ⟨h3.pop, h3.popE, h3.best⟩⟩
  unfold oneCandidate
  simp only [e1', eold, e2, e3, ok_bind]

theorem oneCandidate_onlyDiverge {c : DECfg α} {rng : Nat → Nat} {fuel : Nat} {energy : List α → α} (hc : SizesCfg c) (hg : GoodDraws c rng)
    {k : Nat} (hk : k < c.nPop) {st : DESt α} (hs : Sizes c st) :
    OnlyDiverge (oneCandidate c rng fuel energy k st) ∧ ∀ t, oneCandidate c rng fuel energy k st = .ok t → Sizes c t := by
  have h := selectSamples_onlyDiverge hg (by omega) hc.pop fuel (nSamples c.base) [(k : Int)] st.pos
  cases hq : selectSamples c rng fuel (nSamples c.base) [(k : Int)] st.pos with
  | error f =>
    have hf := h f hq
    subst hf
    have e : oneCandidate c rng fuel energy k st = .error .diverge := by
      unfold oneCandidate calcTrial
      rw [hq]
      rfl
    rw [e]
    exact ⟨fun f hf => by cases hf; rfl, fun t ht => by cases ht⟩
  | ok q =>
    obtain ⟨t, e, ht⟩ := oneCandidate_of_samples (energy := energy) hc hg hk hs hq
    rw [e]
    exact ⟨onlyDiverge_ok t, fun t' h => by cases h; exact ht⟩

theorem generationsLoop_onlyDiverge {c : DECfg α} {rng : Nat → Nat} {fuel : Nat} {energy : List α → α} {sig : Nat → Bool} (hc : SizesCfg c)
    (hg : GoodDraws c rng) (left g : Nat) (v : DEConv α) (st : DESt α) (hs : Sizes c st) :
    OnlyDiverge (generationsLoop c rng fuel energy sig left g v st) := by
  induction left generalizing g v st with
  | zero => exact onlyDiverge_ok _
  | succ n ih =>
    simp only [generationsLoop]
    obtain ⟨h1, h2⟩ := forN_onlyDiverge c.nPop st (fun k st => oneCandidate c rng fuel energy k st) (Sizes c) hs
      (fun z t hz ht => oneCandidate_onlyDiverge hc hg hz ht)
    refine onlyDiverge_bind h1 fun a ha => ?_
    split
    · exact onlyDiverge_ok _
    · split
      · exact onlyDiverge_ok _
      · exact ih _ _ _ (h2 a ha)

theorem generationsLoop_total {c : DECfg α} {rng : Nat → Nat} {w : Nat} {energy : List α → α} {sig : Nat → Bool} (hc : SizesCfg c)
    (hg : GoodDraws c rng) (hw : Covers c rng w) (hn : nSamples c.base < c.nPop) (left g : Nat) (v : DEConv α) (st : DESt α) (hs : Sizes c st) :
    ∃ r, generationsLoop c rng w energy sig left g v st = .ok r := by
  induction left generalizing g v st with
  | zero => exact ⟨_, rfl⟩
  | succ n ih =>
    simp only [generationsLoop]
    obtain ⟨s1, e1, h1⟩ := forN_total c.nPop st (fun k st => oneCandidate c rng w energy k st) (Sizes c) hs (by
      intro z t hz ht
      obtain ⟨q, hq⟩ := selectSamples_total hg hc.pop hw (nSamples c.base) [(z : Int)] t.pos (by simp; omega)
      exact oneCandidate_of_samples hc hg hz ht hq)
    have e : oneGeneration c rng w energy st = .ok s1 := e1
    rw [e]
    simp only [ok_bind]
    split
    · exact ⟨_, rfl⟩
    · split
      · exact ⟨_, rfl⟩
      · exact ih _ _ _ h1

/-- `Setup` succeeds. -/
theorem deSetup_total {c : DECfg α} {lhs : Option (Nat → List Nat)} {rng : Nat → Nat} {trial0 : List α} (hc : SizesCfg c)
    (hperm : ∀ perm, lhs = some perm → ∀ j, j < c.nDim → (perm j).length = c.nPop) : ∃ st, deSetup c lhs rng trial0 = .ok st ∧ Sizes c st := by
  have hz : ∀ z, z < c.nPop * c.nDim → z % c.nDim < c.nDim ∧ z / c.nDim < c.nPop := fun z hz =>
    ⟨Nat.mod_lt _ hc.dim0, Nat.div_lt_of_lt_mul (by rwa [Nat.mul_comm])⟩
  have hp : ∃ pop, firstPop c lhs rng = .ok pop ∧ pop.length = c.nPop * c.nDim := by
    cases lhs with
    | none =>
      refine loopMap_total _ _ fun z h => ?_
      rw [rd_ok (by rw [hc.lo]; exact (hz z h).1), rd_ok (by rw [hc.hi]; exact (hz z h).1)]
      exact ⟨_, rfl⟩
    | some perm =>
      refine loopMap_total _ _ fun z h => ?_
      rw [rd_ok (by rw [hperm perm rfl _ (hz z h).1]; exact (hz z h).2), rd_ok (by rw [hc.lo]; exact (hz z h).1),
        rd_ok (by rw [hc.hi]; exact (hz z h).1)]
      exact ⟨_, rfl⟩
  obtain ⟨pop, e, l⟩ := hp
  refine ⟨_, by unfold deSetup; rw [e]; rfl, l, by simp, by simp⟩

end

/-! ### Indices in exact arithmetic -/

/-- `(int)RandomUniform(0.0, m)` for the draw `N`. -/
theorem toInt_draw {rng : Nat → Nat} {p m : Nat} (hr : rng p < 2 ^ 32) (hm : m < 2 ^ 31) :
    XR.toInt (randUniform (unif rng p) 0 (lit (m : ℚ))) = .ok ((rng p * m / 4294967295 : Nat) : Int) := by
  have e : (randUniform (unif rng p) 0 (lit (m : ℚ)) : XR) = fin (((rng p * m : Nat) : ℝ) / ((4294967295 : Nat) : ℝ)) := by
    simp only [randUniform, unif, lit_def, one_def, zero_def]
    rw [fin_div_of_ne (by norm_num)]
    simp only [fin_sub, fin_mul, fin_add]
    congr 1
    push_cast
    ring
  rw [e]
  have h0 : (0 : ℝ) ≤ ((rng p * m : Nat) : ℝ) / ((4294967295 : Nat) : ℝ) := by positivity
  have h1 : ((rng p * m : Nat) : ℝ) / ((4294967295 : Nat) : ℝ) < 2147483648 := by
    rw [div_lt_iff₀ (by norm_num)]
    have h2 : rng p * m ≤ 4294967295 * 2147483647 := Nat.mul_le_mul (by omega) (by omega)
    have h3 : ((rng p * m : Nat) : ℝ) ≤ ((4294967295 * 2147483647 : Nat) : ℝ) := by exact_mod_cast h2
    push_cast at h3 ⊢
    linarith
  unfold XR.toInt
  simp only
  rw [if_neg (by rintro (h | h) <;> linarith), if_pos h0]
  congr 1
  rw [Int.floor_eq_iff]
  have hd := Nat.div_add_mod (rng p * m) 4294967295
  have hlt := Nat.mod_lt (rng p * m) (show 0 < 4294967295 by norm_num)
  generalize rng p * m / 4294967295 = q at *
  generalize rng p * m % 4294967295 = r at *
  have hd' : ((rng p * m : Nat) : ℝ) = 4294967295 * (q : ℝ) + (r : ℝ) := by rw [← hd]; push_cast; ring
  have hlt' : (r : ℝ) < 4294967295 := by exact_mod_cast hlt
  have hr0 : (0 : ℝ) ≤ r := by positivity
  constructor
  · rw [le_div_iff₀ (by norm_num), hd']; push_cast; linarith
  · rw [div_lt_iff₀ (by norm_num), hd']; push_cast; linarith

/-- Without the draw 2³² - 1 all indices are in range. -/
theorem goodDraws_of {c : DECfg XR} {rng : Nat → Nat} (ht : c.toInt = XR.toInt) (hr : ∀ p, rng p < 2 ^ 32 - 1) : GoodDraws c rng := by
  intro p m h0 hm
  refine ⟨rng p * m / 4294967295, ?_, ?_⟩
  · rw [Nat.div_lt_iff_lt_mul (by norm_num), Nat.mul_comm m]
    exact Nat.mul_lt_mul_of_pos_right (hr p) h0
  · rw [ht]
    exact toInt_draw (by have := hr p; omega) hm

end Imfit
