import Verif.Props.C58
import Verif.Lemmas.DreamResume

/-!
# C65: a resumed run continues the chains

If the output files of a run hold the same number of lines for every chain and each line holds a permitted position with its likelihood, a run resumed from them starts
with exactly these positions, continues with the next generation, touches only its own initialised memory, returns, and all later positions are permitted.

The claim that a run can be resumed from the files it has written is false of the code in three cases: if the earlier run was interrupted while it was writing a
generation, so that the later chains have one line less, the positions of those chains in the last generation are used without having been set; if the image
section does not begin at pixel 1 the files hold positions shifted by the image offset, which is not subtracted again; and if a longer burn-in is asked for than
in the earlier run the convergence test runs over a negative number of values.
-/

namespace Imfit

open XR

section
variable {σ α : Type} [FP α]

theorem prevAfter_same (L : Nat) (l : List Nat) (h : ∀ x ∈ l, x = L) : l.foldl prevAfter ((L : Int) - 1) = (L : Int) - 1 := by
  induction l with
  | nil => rfl
  | cons a l ih =>
    rw [List.foldl_cons, h a (by simp)]
    have : prevAfter ((L : Int) - 1) L = (L : Int) - 1 := by
      unfold prevAfter
      rw [if_neg (by omega)]
    rw [this]
    exact ih fun x hx => h x (by simp [hx])

theorem prevAfter_all {M L : Nat} (hL : L < M) {l : List Nat} (hne : l ≠ []) (h : ∀ x ∈ l, x = L) : l.foldl prevAfter (M : Int) = (L : Int) - 1 := by
  cases l with
  | nil => exact absurd rfl hne
  | cons a l =>
    rw [List.foldl_cons, h a (by simp)]
    have : prevAfter (M : Int) L = (L : Int) - 1 := by
      unfold prevAfter
      rw [if_pos (by omega)]
    rw [this]
    exact prevAfter_same L l fun x hx => h x (by simp [hx])

/-- Files with `L` lines for every chain: the lines are put into generations `0 ... L - 1` of the chains, nothing else is written, and the run goes on with
generation `L`. -/
theorem C65_restored (c : DreamCfg α) (ha : c.append = true) (hn : 0 < c.numChains) (L : Nat) (hLm : L < c.maxEvals) (fs : List (List (ChainLine α)))
    (hf : fs.length = c.numChains) (hlen : ∀ f ∈ fs, f.length = L) (s : σ) :
    ∃ st, restore c (fs.map some) (start c s) = .ok (st, (L : Int) - 1) ∧
      ∀ k i, i < c.numChains → k < c.maxEvals → st.state[k * c.numChains + i]? = some (((fs[i]?).bind (·[k]?)).map ChainLine.vals) ∧
        st.lik[k * c.numChains + i]? = some (((fs[i]?).bind (·[k]?)).map ChainLine.lik) := by
  unfold restore
  rw [if_pos ha]
  have hsz : Sized c (start c s) := ⟨by simp [start], by simp [start]⟩
  obtain ⟨⟨st, p⟩, e, h1, h2, -, -⟩ := restoreChains_sat fs 0 (c.maxEvals : Int) (start c s) hsz (by omega) (fun f hf => by rw [hlen f hf]; omega)
  have hp : p = (L : Int) - 1 := by
    rw [show p = _ from h2]
    refine prevAfter_all hLm ?_ ?_
    · intro h
      rw [List.map_eq_nil_iff] at h
      rw [h] at hf
      simp at hf
      omega
    · intro x hx
      rw [List.mem_map] at hx
      obtain ⟨f, hf', rfl⟩ := hx
      exact hlen f hf'
  rw [hp] at e
  refine ⟨st, e, ?_⟩
  intro k i hi hk
  have hcell : fileAt fs 0 k i = (fs[i]?).bind (·[k]?) := by
    unfold fileAt
    rw [if_pos (Nat.zero_le _), Nat.sub_zero]
  have s1 := h1.state k i hi
  have s2 := h1.lik k i hi
  rw [hcell] at s1 s2
  have n1 : (start c s : DreamSt σ α).state[k * c.numChains + i]? = some none := by
    simp only [start]
    rw [List.getElem?_replicate, if_pos (cellIdx_lt hi hk)]
  have n2 : (start c s : DreamSt σ α).lik[k * c.numChains + i]? = some none := by
    simp only [start]
    rw [List.getElem?_replicate, if_pos (cellIdx_lt hi (by omega))]
  cases hx : (fs[i]?).bind (·[k]?) with
  | none =>
    rw [hx] at s1 s2
    exact ⟨s1.trans n1, s2.trans n2⟩
  | some l =>
    rw [hx] at s1 s2
    exact ⟨s1, s2⟩

/-- A run resumed from such files returns, and from the first to the last generation the chains are at permitted positions with their likelihoods; the generations
in the files are unchanged, and what is written are generations `L, L + 1, ...`. What is missing: the cases of the three counterexamples below. -/
theorem C65_resume_partial (hl : CmpLaws α) (c : DreamCfg α) (hc : DreamOk c) (h2 : 2 ≤ c.numChains) (ha : c.append = true) (R : Rng σ α) (hR : Spec.GoodRng R)
    (G : Gsl α) (hG : Spec.GoodGsl G) (F : List α → α) (off : List α) (L : Nat) (hL : 0 < L) (hLm : L < c.maxEvals) (fs : List (List (ChainLine α)))
    (hf : fs.length = c.numChains) (hlen : ∀ f ∈ fs, f.length = L)
    (hline : ∀ f ∈ fs, ∀ l ∈ f, Spec.Permitted c.lock c.lo c.hi l.vals ∧ l.lik = F l.vals ∧ eqD (F l.vals) ninfty = false ∧ fle (F l.vals) (F l.vals) = true)
    (hburn : ∀ f ∈ fs, ∀ l ∈ f, l.burn = false → c.burnIn < L)
    (hpCR : ∀ f ∈ fs, ∀ l ∈ f, ∀ s, (R.multi c.nCR (c.numChains * c.loopSteps) l.pCR s).1.sum = c.numChains * c.loopSteps) (fuel : Nat) (s : σ) :
    ∃ st ex m, dream c R G F off (fs.map some) fuel s = .ok (st, ex) ∧ L ≤ m ∧ (ex = .maxIterations → m = c.maxEvals) ∧
      (∀ k i, k < m → i < c.numChains → ∃ row, st.state[k * c.numChains + i]? = some (some row) ∧ st.lik[k * c.numChains + i]? = some (some (F row)) ∧
        Spec.Permitted c.lock c.lo c.hi row) ∧
      (∀ (k i : Nat) f l, fs[i]? = some f → f[k]? = some l → st.state[k * c.numChains + i]? = some (some l.vals)) ∧
      ∀ (k : Nat) e, st.out[k]? = some e → e.1 = L + k := by
  have hV : Closed (fun _ : α => True) c R := by constructor <;> intros <;> trivial
  obtain ⟨st1, e1, hcells⟩ := C65_restored c ha hc.chains L hLm fs hf hlen s
  have hread : ReadInto c (start c s) st1 (fileAt fs 0) ∧ ∀ f l, fs.getLast? = some f → f.getLast? = some l → st1.inBurn = l.burn ∧ st1.pCR = l.pCR := by
    have hsz : Sized c (start c s) := ⟨by simp [start], by simp [start]⟩
    obtain ⟨⟨st, p⟩, e, g1, -, g3, -⟩ := restoreChains_sat fs 0 (c.maxEvals : Int) (start c s) hsz (by omega) (fun f hf => by rw [hlen f hf]; omega)
    unfold restore at e1
    rw [if_pos ha, e] at e1
    cases e1
    exact ⟨g1, g3⟩
  have hcell : ∀ k i, k < L → i < c.numChains → ∃ f l, fs[i]? = some f ∧ f[k]? = some l ∧ f ∈ fs ∧ l ∈ f := by
    intro k i hk hi
    have hi' : i < fs.length := by omega
    have hfm : fs[i] ∈ fs := List.getElem_mem hi'
    have hk' : k < fs[i].length := by rw [hlen _ hfm]; exact hk
    exact ⟨fs[i], fs[i][k], List.getElem?_eq_getElem hi', List.getElem?_eq_getElem hk', hfm, List.getElem_mem hk'⟩
  have hsame := hread.1.same
  have hsh0 := start_shape (c := c) hc s
  have hshape : ChainShape c st1 := by
    obtain ⟨s', l', b', p', e⟩ := hsame
    have hz := hread.1.sized
    rw [e] at hz ⊢
    exact ⟨hz.1, hz.2, hsh0.accept, hsh0.crm, hsh0.deltaTot, hsh0.total, hsh0.cand, hsh0.scale, hsh0.gen⟩
  have hhist : Hist (fun _ => True) c F (L * c.numChains) st1 := by
    intro q hq
    have hn := hc.chains
    have hqi : q % c.numChains < c.numChains := Nat.mod_lt _ hn
    have hqk : q / c.numChains < L := Nat.div_lt_of_lt_mul (by rw [Nat.mul_comm]; exact hq)
    have hqe : q / c.numChains * c.numChains + q % c.numChains = q := Nat.div_add_mod' q c.numChains
    obtain ⟨f, l, hfi, hlk, hfm, hlm⟩ := hcell _ _ hqk hqi
    obtain ⟨g1, g2⟩ := hcells (q / c.numChains) (q % c.numChains) hqi (by omega)
    rw [hqe, hfi] at g1 g2
    have hb : (some f).bind (fun x : List (ChainLine α) => x[q / c.numChains]?) = some l := hlk
    rw [hb] at g1 g2
    obtain ⟨p1, p2, p3, p4⟩ := hline f hfm l hlm
    refine ⟨l.vals, ⟨⟨?_, ?_⟩, p3, p4⟩, g1, ?_⟩
    · rw [p1.1, hc.lock]
    · intro j x hx
      exact ⟨trivial, fun lk a b h1 h2 h3 => p1.2 j lk a b x h1 h2 h3 hx⟩
    · rw [g2, Option.map_some, p2]
  obtain ⟨f0, hf0⟩ : ∃ f, fs.getLast? = some f := by
    cases h : fs.getLast? with
    | some f => exact ⟨f, rfl⟩
    | none =>
      rw [List.getLast?_eq_none_iff] at h
      rw [h] at hf
      simp at hf
      omega
  have hf0m : f0 ∈ fs := List.mem_of_getLast? hf0
  obtain ⟨l0, hl0⟩ : ∃ l, f0.getLast? = some l := by
    cases h : f0.getLast? with
    | some f => exact ⟨f, rfl⟩
    | none =>
      rw [List.getLast?_eq_none_iff] at h
      have := hlen f0 hf0m
      rw [h] at this
      simp at this
      omega
  have hl0m : l0 ∈ f0 := List.mem_of_getLast? hl0
  obtain ⟨hb1, hb2⟩ := hread.2 f0 l0 hf0 hl0
  have hinv : Inv (fun _ => True) c R F L st1 := by
    refine ⟨hshape, hhist, Or.inr ⟨?_, ?_⟩, ?_, ?_⟩
    · obtain ⟨s', l', b', p', e⟩ := hsame
      rw [e]
      rfl
    · rw [hb2]
      exact hpCR f0 hf0m l0 hl0m
    · intro hnb
      rw [hb1] at hnb
      have := hburn f0 hf0m l0 hl0m hnb
      obtain ⟨s', l', b', p', e⟩ := hsame
      rw [e]
      show 0 + c.burnIn < L
      omega
    · obtain ⟨s', l', b', p', e⟩ := hsame
      rw [e]
      intro row hr
      cases hr
  have hout : OutOk c F off L L st1 := by
    obtain ⟨s', l', b', p', e⟩ := hsame
    rw [e]
    refine ⟨rfl, ?_⟩
    intro k x hx
    cases hx
  obtain ⟨⟨r, b⟩, e2, m, hm, hi, ho, hbm, hfr, hpos⟩ :=
    runLoop_sat hc h2 hR hG hl hV (off := off) (c.maxEvals - L) L st1 hL (by omega) hinv hout
  have hrun : dream c R G F off (fs.map some) fuel s = .ok (r, if b then .converged else .maxIterations) := by
    unfold dream
    rw [e1, val_bind]
    show (if (L : Int) - 1 < 0 then _ else _) = _
    rw [if_neg (by omega)]
    have hfresh : fresh c R F off fuel st1 = .ok st1 := by
      unfold fresh
      rw [if_pos ha]
    show (fresh c R F off fuel st1 >>= _) = _
    rw [hfresh, val_bind]
    have hto : ((L : Int) - 1).toNat + 1 = L := by omega
    show (runLoop c R G F off (c.maxEvals - (((L : Int) - 1).toNat + 1)) (((L : Int) - 1).toNat + 1) st1 >>= _) = _
    rw [hto, e2, val_bind]
  refine ⟨r, _, L + m, hrun, by omega, ?_, ?_, ?_, ?_⟩
  · intro hex
    cases b with
    | true => cases hex
    | false =>
      have := hbm rfl
      omega
  · intro k i hk hi'
    obtain ⟨row, hP, g1, g2⟩ := hi.hist _ (cellIdx_lt hi' hk)
    exact ⟨row, g1, g2, hP.1.permitted hc⟩
  · intro k i f l hfi hlk
    have hi' : i < c.numChains := by
      rw [← hf]
      by_contra hcon
      rw [List.getElem?_eq_none (by omega)] at hfi
      cases hfi
    have hk : k < L := by
      rw [← hlen f (List.mem_of_getElem? hfi)]
      by_contra hcon
      rw [List.getElem?_eq_none (by omega)] at hlk
      cases hlk
    have := hfr (k * c.numChains + i) (cellIdx_lt hi' hk)
    show r.state[k * c.numChains + i]? = _
    rw [this, (hcells k i hi' (by omega)).1, hfi]
    show some ((f[k]?).map ChainLine.vals) = _
    rw [hlk]
    rfl
  · intro k e he
    exact (ho.2 k e he).1

/-- Files of a run that was interrupted while generation `L` was being written: the first `j` chains have `L + 1` lines and the others `L`. The resumed run takes
generation `L` to be complete, although the other chains have no position in it. -/
theorem C65_interrupted_false (c : DreamCfg α) (ha : c.append = true) (L : Nat) (hLm : L + 1 < c.maxEvals) (done todo : List (List (ChainLine α)))
    (hf : done.length + todo.length = c.numChains) (hd : done ≠ []) (h1 : ∀ f ∈ done, f.length = L + 1) (h2 : ∀ f ∈ todo, f.length = L) (s : σ) :
    ∃ st, restore c ((done ++ todo).map some) (start c s) = .ok (st, (L : Int)) ∧
      ∀ i, done.length ≤ i → i < c.numChains → getRow c st.state L i = .error .uninit := by
  unfold restore
  rw [if_pos ha]
  have hsz : Sized c (start c s) := ⟨by simp [start], by simp [start]⟩
  obtain ⟨⟨st, p⟩, e, g1, g2, -, -⟩ := restoreChains_sat (done ++ todo) 0 (c.maxEvals : Int) (start c s) hsz (by simp; omega) (fun f hf => by
    rcases List.mem_append.1 hf with h | h
    · rw [h1 f h]; omega
    · rw [h2 f h]; omega)
  have hp : p = (L : Int) := by
    rw [show p = _ from g2, List.map_append, List.foldl_append]
    have hfirst : (done.map List.length).foldl prevAfter (c.maxEvals : Int) = ((L + 1 : Nat) : Int) - 1 := by
      refine prevAfter_all hLm (by simpa using hd) ?_
      intro x hx
      rw [List.mem_map] at hx
      obtain ⟨f, hf', rfl⟩ := hx
      exact h1 f hf'
    rw [hfirst]
    have : ∀ l : List Nat, (∀ x ∈ l, x = L) → l.foldl prevAfter (((L + 1 : Nat) : Int) - 1) = (L : Int) := by
      intro l
      induction l with
      | nil =>
        intro _
        show ((L + 1 : Nat) : Int) - 1 = L
        omega
      | cons a l ih =>
        intro hl
        rw [List.foldl_cons, hl a (by simp)]
        have e0 : prevAfter (((L + 1 : Nat) : Int) - 1) L = ((L + 1 : Nat) : Int) - 1 := by
          unfold prevAfter
          rw [if_neg (by omega)]
        rw [e0]
        exact ih fun x hx => hl x (by simp [hx])
    refine this _ ?_
    intro x hx
    rw [List.mem_map] at hx
    obtain ⟨f, hf', rfl⟩ := hx
    exact h2 f hf'
  rw [hp] at e
  refine ⟨st, e, ?_⟩
  intro i hi1 hi2
  have s1 := g1.state L i hi2
  have hcell : fileAt (done ++ todo) 0 L i = none := by
    unfold fileAt
    rw [if_pos (Nat.zero_le _), Nat.sub_zero, List.getElem?_append_right hi1]
    have hlt : i - done.length < todo.length := by omega
    rw [List.getElem?_eq_getElem hlt]
    show (todo[i - done.length])[L]? = none
    rw [List.getElem?_eq_none]
    rw [h2 _ (List.getElem_mem hlt)]
  rw [hcell] at s1
  have n1 : (start c s : DreamSt σ α).state[L * c.numChains + i]? = some none := by
    simp only [start]
    rw [List.getElem?_replicate, if_pos (cellIdx_lt hi2 (by omega))]
  have s2 : st.state[L * c.numChains + i]? = some none := s1.trans n1
  unfold getRow rdU
  have : L * c.numChains + i < st.state.length := by
    by_contra hcon
    rw [List.getElem?_eq_none (by omega)] at s2
    cases s2
  obtain ⟨a, ea, hra⟩ := Sat.rd this
  rw [s2] at hra
  cases hra
  rw [ea]
  rfl

/-- The position with which a chain is resumed is what was written, which is the position plus the offset; in exact arithmetic it is a different one unless the
offset is zero. -/
theorem C65_offset_false (c : DreamCfg XR) (ha : c.append = true) (hn : 0 < c.numChains) (L : Nat) (hLm : L < c.maxEvals)
    (fs : List (List (ChainLine XR))) (hf : fs.length = c.numChains) (hlen : ∀ f ∈ fs, f.length = L) (s : σ) (i k j : Nat) (f : List (ChainLine XR))
    (l : ChainLine XR) (hfi : fs[i]? = some f) (hlk : f[k]? = some l) (row off : List XR) (hw : l.vals = List.zipWith (· + ·) row off) (x d : ℝ)
    (hx : row[j]? = some (fin x)) (hd : off[j]? = some (fin d)) (hne : d ≠ 0) :
    ∃ st, restore c (fs.map some) (start c s) = .ok (st, (L : Int) - 1) ∧ ∃ row', st.state[k * c.numChains + i]? = some (some row') ∧ row'[j]? = some (fin (x + d)) ∧
      row' ≠ row := by
  obtain ⟨st, e, hcells⟩ := C65_restored c ha hn L hLm fs hf hlen s
  have hi : i < c.numChains := by
    rw [← hf]
    by_contra hcon
    rw [List.getElem?_eq_none (by omega)] at hfi
    cases hfi
  have hk : k < L := by
    rw [← hlen f (List.mem_of_getElem? hfi)]
    by_contra hcon
    rw [List.getElem?_eq_none (by omega)] at hlk
    cases hlk
  have h1 := (hcells k i hi (by omega)).1
  rw [hfi, show (some f).bind (fun x : List (ChainLine XR) => x[k]?) = some l from hlk] at h1
  have hj : l.vals[j]? = some (fin (x + d)) := by
    rw [hw, List.getElem?_zipWith, hx, hd]
    rfl
  refine ⟨st, e, l.vals, h1, hj, ?_⟩
  intro h
  rw [h, hx] at hj
  simp only [Option.some.injEq, XR.fin.injEq] at hj
  exact hne (by linarith)

end

/-! ## Runs of the integer version -/

/-- The files written by a run of `k` generations. -/
def toyFiles (off : List Int) (k : Nat) : List (List (ChainLine Int)) :=
  let _ := toyFP
  match dream { toyCfg with maxEvals := k } toyRng toyGsl toyLik off [] 3 0 with
  | .ok r => (List.range 3).map fun i => r.1.out.map fun g => match g.2[i]? with
    | some x => ⟨x.1, x.2.1, x.2.2, [0, 0, 1]⟩
    | none => ⟨[], 0, false, []⟩
  | .error _ => []

/-- Resuming after two generations: three more are written. -/
example : let _ := toyFP
    ((dream { toyCfg with append := true } toyRng toyGsl toyLik [0, 0] ((toyFiles [0, 0] 2).map some) 3 0).toOption.map fun r =>
      (r.1.out.map Prod.fst, r.1.state.take 6)) =
      some ([2, 3, 4], [some [0, 5], some [3, 5], some [6, 5], some [0, 5], some [3, 5], some [2, 5]]) := by
  decide +kernel

/-- One line is missing from the files of the second and third chain: the resumed run uses a position that has not been set. -/
example : let _ := toyFP
    (match dream { toyCfg with append := true } toyRng toyGsl toyLik [0, 0]
      (((toyFiles [0, 0] 2).mapIdx fun i f => if i = 0 then f else f.take 1).map some) 3 0 with
      | .ok _ => false
      | .error e => decide (e = .uninit)) = true := by
  decide +kernel

/-- An image section beginning at pixel 101: the resumed chains are at 100, 103, 102, while the limits are 0 and 9. -/
example : let _ := toyFP
    ((dream { toyCfg with append := true } toyRng toyGsl toyLik [100, 0] ((toyFiles [100, 0] 2).map some) 3 0).toOption.map fun r => (r.1.state.drop 3).take 3) =
      some [some [100, 5], some [103, 5], some [102, 5]] := by
  decide +kernel

/-- A run of three generations without burn-in, resumed with a burn-in of 100 generations: the test for convergence looks at a negative number of generations. -/
theorem C65_burnin_false : let _ := toyFP
    (match dream { toyCfg with append := true, burnIn := 100, loopSteps := 1, gelmanEvals := 1 } toyRng toyGsl toyLik [0, 0] ((toyFiles [0, 0] 3).map some) 3 0 with
      | .ok _ => false
      | .error e => decide (e = .oob)) = true := by
  decide +kernel

end Imfit
