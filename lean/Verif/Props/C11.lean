import Verif.Model.Parallel
import Verif.Lemmas.Fit
import Mathlib.Tactic.Ring

/-!
# C11 — multi-threaded evaluation gives the single-threaded image
-/

namespace Imfit

variable {α σ : Type} [FP α]

/-- Private steps one after the other. -/
def runProg : List (σ → Res σ) → σ → Res σ
  | [], s => .ok s
  | f :: rest, s => do
    let s1 ← f s
    runProg rest s1

/-- What sequential execution stores in cell `c` whose old value is `old`. -/
def seqCell (J : Job α σ) (old : α) (c : Nat) : Res α := do
  let s ← runProg (J.prog c) J.s0
  pure (if J.accum then old + J.res s else J.res s)

/-- The sequential loop: every cell once, in order. -/
def seqPass (J : Job α σ) (n : Nat) (mem : List α) : Res (List α) :=
  loopMap n fun c => do
    let old ← rd mem c
    seqCell J old c

/-- Cells a thread still has to finish. -/
def Thr.own (t : Thr α σ) : List Nat := (t.work.map Work.cell).toList ++ t.todo

/-- The unfinished cell is consistent with sequential execution. -/
def WorkOK (J : Job α σ) (mem : List α) (w : Work α σ) : Prop :=
  runProg w.rest w.s = runProg (J.prog w.cell) J.s0 ∧ ∀ v, w.loaded = some v → mem[w.cell]? = some v

/-- Invariant of a pass that started from the array `mem0`. -/
structure PInv (J : Job α σ) (n : Nat) (mem0 : List α) (st : PState α σ) : Prop where
  len : st.mem.length = n
  nodup : ∀ t, (st.thr t).own.Nodup
  bound : ∀ t, ∀ c ∈ (st.thr t).own, c < n
  disj : ∀ t u c, c ∈ (st.thr t).own → c ∈ (st.thr u).own → t = u
  pending : ∀ t, ∀ c ∈ (st.thr t).own, st.mem[c]? = mem0[c]?
  finished : ∀ c, c < n → (∀ t, c ∉ (st.thr t).own) → ∃ old v, mem0[c]? = some old ∧ seqCell J old c = .ok v ∧ st.mem[c]? = some v
  work : ∀ t w, (st.thr t).work = some w → WorkOK J mem0 w

theorem own_start (T chunk n : Nat) (cells : Nat → List Nat) (mem : List α) (t : Nat) :
    ((startP T chunk n cells mem : PState α σ).thr t).own = (chunkOf T chunk t n).flatMap cells := rfl

/-- Result of one thread step. -/
theorem stepThr_inv (J : Job α σ) (n : Nat) (mem0 : List α) (h0 : mem0.length = n) (st st1 : PState α σ) (i : Nat) (h : PInv J n mem0 st)
    (hs : stepP J st i = .ok st1) : PInv J n mem0 st1 := by
  obtain ⟨hlen, hnd, hb, hd, hp, hf, hw⟩ := h
  unfold stepP at hs
  -- a step that leaves memory and own cells as they are
  have quiet : ∀ t' : Thr α σ, t'.own = (st.thr i).own → (∀ w, t'.work = some w → WorkOK J mem0 w) →
      PInv J n mem0 ⟨st.mem, Function.update st.thr i t'⟩ := by
    intro t' hown hwork
    have ho : ∀ t, ((Function.update st.thr i t') t).own = (st.thr t).own := by
      intro t
      by_cases hti : t = i
      · subst hti; simp [hown]
      · simp [Function.update_of_ne hti]
    refine ⟨hlen, ?_, ?_, ?_, ?_, ?_, ?_⟩
    · intro t; show ((Function.update st.thr i t') t).own.Nodup; rw [ho]; exact hnd t
    · intro t c hc; rw [show ((⟨st.mem, Function.update st.thr i t'⟩ : PState α σ).thr t).own = (st.thr t).own from ho t] at hc; exact hb t c hc
    · intro t u c hc hc'
      rw [show ((⟨st.mem, Function.update st.thr i t'⟩ : PState α σ).thr t).own = (st.thr t).own from ho t] at hc
      rw [show ((⟨st.mem, Function.update st.thr i t'⟩ : PState α σ).thr u).own = (st.thr u).own from ho u] at hc'
      exact hd t u c hc hc'
    · intro t c hc
      rw [show ((⟨st.mem, Function.update st.thr i t'⟩ : PState α σ).thr t).own = (st.thr t).own from ho t] at hc
      exact hp t c hc
    · intro c hc hno
      exact hf c hc fun t => by have := hno t; rwa [show ((⟨st.mem, Function.update st.thr i t'⟩ : PState α σ).thr t).own = (st.thr t).own from ho t] at this
    · intro t w htw
      by_cases hti : t = i
      · subst hti; simp only [Function.update_self] at htw; exact hwork w htw
      · simp only [Function.update_of_ne hti] at htw; exact hw t w htw
  -- a step that writes the finished cell
  have write : ∀ (w : Work α σ) (v old : α), (st.thr i).work = some w → mem0[w.cell]? = some old → seqCell J old w.cell = .ok v →
      PInv J n mem0 ⟨st.mem.set w.cell v, Function.update st.thr i ⟨(st.thr i).todo, none⟩⟩ := by
    intro w v old hiw hold hv
    have howni : (st.thr i).own = w.cell :: (st.thr i).todo := by simp [Thr.own, hiw]
    have hcn : w.cell < n := hb i w.cell (by rw [howni]; simp)
    have hnotin : w.cell ∉ (st.thr i).todo := by
      have := hnd i
      rw [howni] at this
      exact (List.nodup_cons.1 this).1
    have ho : ∀ t, ((Function.update st.thr i (⟨(st.thr i).todo, none⟩ : Thr α σ)) t).own =
        if t = i then (st.thr i).todo else (st.thr t).own := by
      intro t
      by_cases hti : t = i
      · subst hti; simp [Thr.own]
      · simp [Function.update_of_ne hti, hti]
    have hsub : ∀ t c, c ∈ ((Function.update st.thr i (⟨(st.thr i).todo, none⟩ : Thr α σ)) t).own → c ∈ (st.thr t).own ∧ c ≠ w.cell := by
      intro t c hc
      rw [ho] at hc
      by_cases hti : t = i
      · rw [if_pos hti] at hc
        subst hti
        refine ⟨by rw [howni]; simp [hc], ?_⟩
        rintro rfl
        exact hnotin hc
      · rw [if_neg hti] at hc
        refine ⟨hc, ?_⟩
        rintro rfl
        exact hti (hd t i _ hc (by rw [howni]; simp))
    refine ⟨by simpa using hlen, ?_, ?_, ?_, ?_, ?_, ?_⟩
    · intro t
      show ((Function.update st.thr i (⟨(st.thr i).todo, none⟩ : Thr α σ)) t).own.Nodup
      rw [ho]
      by_cases hti : t = i
      · rw [if_pos hti]
        have := hnd i
        rw [howni] at this
        exact (List.nodup_cons.1 this).2
      · rw [if_neg hti]; exact hnd t
    · intro t c hc
      exact hb t c (hsub t c hc).1
    · intro t u c hc hc'
      exact hd t u c (hsub t c hc).1 (hsub u c hc').1
    · intro t c hc
      obtain ⟨h1, h2⟩ := hsub t c hc
      show (st.mem.set w.cell v)[c]? = mem0[c]?
      rw [List.getElem?_set_ne (Ne.symm h2)]
      exact hp t c h1
    · intro c hc hno
      by_cases hcw : c = w.cell
      · subst hcw
        exact ⟨old, v, hold, hv, by show (st.mem.set w.cell v)[w.cell]? = _; rw [List.getElem?_set_self (by omega)]⟩
      · obtain ⟨old', v', h1, h2, h3⟩ := hf c hc (by
          intro t ht
          apply hno t
          show c ∈ ((Function.update st.thr i (⟨(st.thr i).todo, none⟩ : Thr α σ)) t).own
          rw [ho]
          by_cases hti : t = i
          · subst hti
            rw [if_pos rfl]
            rw [howni] at ht
            rcases List.mem_cons.1 ht with h | h
            · exact absurd h hcw
            · exact h
          · rw [if_neg hti]; exact ht)
        refine ⟨old', v', h1, h2, ?_⟩
        show (st.mem.set w.cell v)[c]? = _
        rw [List.getElem?_set_ne (Ne.symm hcw)]
        exact h3
    · intro t w' htw
      by_cases hti : t = i
      · subst hti; simp only [Function.update_self] at htw; cases htw
      · simp only [Function.update_of_ne hti] at htw; exact hw t w' htw
  cases hwk : (st.thr i).work with
  | none =>
    cases htd : (st.thr i).todo with
    | nil =>
      have : stepThr J st.mem (st.thr i) = .ok (st.mem, st.thr i) := by simp [stepThr, hwk, htd]
      rw [this, ok_bind] at hs
      have := Except.ok.inj hs
      subst this
      exact quiet _ rfl (fun w hw' => hw i w hw')
    | cons c rest =>
      have : stepThr J st.mem (st.thr i) = .ok (st.mem, ⟨rest, some ⟨c, J.prog c, J.s0, none⟩⟩) := by simp [stepThr, hwk, htd]
      rw [this, ok_bind] at hs
      have := Except.ok.inj hs
      subst this
      refine quiet _ (by simp [Thr.own, hwk, htd]) ?_
      intro w hw'
      simp only [Option.some.injEq] at hw'
      subst hw'
      exact ⟨rfl, fun v hv => by cases hv⟩
  | some w =>
    obtain ⟨hw1, hw2⟩ := hw i w hwk
    have howni : (st.thr i).own = w.cell :: (st.thr i).todo := by simp [Thr.own, hwk]
    have hcn : w.cell < n := hb i w.cell (by rw [howni]; simp)
    cases hrest : w.rest with
    | cons f rest =>
      have e : stepThr J st.mem (st.thr i) = (f w.s >>= fun s => .ok (st.mem, ⟨(st.thr i).todo, some { w with rest := rest, s := s }⟩)) := by
        simp only [stepThr, hwk, hrest]; rfl
      rw [e] at hs
      cases hfs : f w.s with
      | error e => rw [hfs] at hs; cases hs
      | ok s =>
        rw [hfs, ok_bind, ok_bind] at hs
        have := Except.ok.inj hs
        subst this
        refine quiet _ (by simp [Thr.own, hwk]) ?_
        intro w' hw'
        simp only [Option.some.injEq] at hw'
        subst hw'
        refine ⟨?_, hw2⟩
        rw [← hw1, hrest]
        simp only [runProg, hfs, ok_bind]
    | nil =>
      have e : stepThr J st.mem (st.thr i) = finishCell J st.mem (st.thr i).todo w := by
        simp only [stepThr, hwk, hrest]
      rw [e] at hs
      rw [hrest] at hw1
      simp only [runProg] at hw1
      have hold : mem0[w.cell]? = some (mem0[w.cell]'(by omega)) := List.getElem?_eq_getElem (by omega)
      unfold finishCell at hs
      cases hacc : J.accum with
      | true =>
        rw [hacc, if_pos rfl] at hs
        cases hl : w.loaded with
        | none =>
          rw [hl] at hs
          simp only at hs
          rw [rd_ok (by omega)] at hs
          simp only [ok_bind, pure_eq_ok] at hs
          have := Except.ok.inj hs
          subst this
          refine quiet _ (by simp [Thr.own, hwk]) ?_
          intro w' hw'
          simp only [Option.some.injEq] at hw'
          subst hw'
          refine ⟨by simp only [hrest, runProg]; exact hw1, ?_⟩
          intro v hv
          simp only [Option.some.injEq] at hv
          subst hv
          have := hp i w.cell (by rw [howni]; simp)
          simp only
          rw [← this]
          exact List.getElem?_eq_getElem (by omega)
        | some v =>
          rw [hl] at hs
          simp only at hs
          rw [wr_ok (by omega)] at hs
          simp only [ok_bind, pure_eq_ok] at hs
          have := Except.ok.inj hs
          subst this
          have hv := hw2 v hl
          refine write w _ v hwk hv ?_
          unfold seqCell
          rw [← hw1, ok_bind, hacc, if_pos rfl]
          rfl
      | false =>
        rw [hacc, if_neg (by simp)] at hs
        rw [wr_ok (by omega)] at hs
        simp only [ok_bind, pure_eq_ok] at hs
        have := Except.ok.inj hs
        subst this
        refine write w _ _ hwk hold ?_
        unfold seqCell
        rw [← hw1, ok_bind, hacc, if_neg (by simp)]
        rfl

theorem runP_inv (J : Job α σ) (n : Nat) (mem0 : List α) (h0 : mem0.length = n) (sched : List Nat) (st st1 : PState α σ)
    (h : PInv J n mem0 st) (hs : runP J sched st = .ok st1) : PInv J n mem0 st1 := by
  induction sched generalizing st with
  | nil => simp only [runP, Except.ok.injEq] at hs; subst hs; exact h
  | cons i rest ih =>
    simp only [runP] at hs
    cases h1 : stepP J st i with
    | error e => rw [h1] at hs; cases hs
    | ok st2 =>
      rw [h1, ok_bind] at hs
      exact ih st2 (stepThr_inv J n mem0 h0 st st2 i h h1) hs

/-- The iterations' cells partition the array. -/
structure CoversCells (N n : Nat) (cells : Nat → List Nat) : Prop where
  bound : ∀ k, k < N → ∀ c ∈ cells k, c < n
  nodup : ∀ k, k < N → (cells k).Nodup
  disj : ∀ k l, k < N → l < N → ∀ c, c ∈ cells k → c ∈ cells l → k = l
  cover : ∀ c, c < n → ∃ k, k < N ∧ c ∈ cells k

theorem mem_chunkOf {T chunk t n k : Nat} : k ∈ chunkOf T chunk t n ↔ k < n ∧ (k / chunk) % T = t := by
  simp [chunkOf]

theorem startP_inv (J : Job α σ) (T chunk N n : Nat) (hT : 0 < T) (cells : Nat → List Nat) (hc : CoversCells N n cells) (mem0 : List α)
    (h0 : mem0.length = n) : PInv J n mem0 (startP T chunk N cells mem0) := by
  have hmem : ∀ t c, c ∈ ((startP T chunk N cells mem0 : PState α σ).thr t).own ↔ ∃ k, k < N ∧ (k / chunk) % T = t ∧ c ∈ cells k := by
    intro t c
    rw [own_start]
    simp only [List.mem_flatMap, mem_chunkOf]
    constructor
    · rintro ⟨k, ⟨h1, h2⟩, h3⟩; exact ⟨k, h1, h2, h3⟩
    · rintro ⟨k, h1, h2, h3⟩; exact ⟨k, ⟨h1, h2⟩, h3⟩
  refine ⟨h0, ?_, ?_, ?_, ?_, ?_, ?_⟩
  · intro t
    rw [own_start, List.nodup_flatMap]
    refine ⟨fun k hk => hc.nodup k (mem_chunkOf.1 hk).1, ?_⟩
    have hnd : (chunkOf T chunk t N).Nodup := List.Nodup.filter _ List.nodup_range
    refine List.Nodup.pairwise_of_forall_ne hnd ?_
    intro k hk l hl hkl c h1 h2
    exact hkl (hc.disj k l (mem_chunkOf.1 hk).1 (mem_chunkOf.1 hl).1 c h1 h2)
  · intro t c hc'
    obtain ⟨k, h1, _, h3⟩ := (hmem t c).1 hc'
    exact hc.bound k h1 c h3
  · intro t u c h1 h2
    obtain ⟨k, k1, k2, k3⟩ := (hmem t c).1 h1
    obtain ⟨l, l1, l2, l3⟩ := (hmem u c).1 h2
    have := hc.disj k l k1 l1 c k3 l3
    subst this
    rw [← k2, ← l2]
  · intro t c _; rfl
  · intro c hcn hno
    obtain ⟨k, k1, k2⟩ := hc.cover c hcn
    exact absurd ((hmem _ c).2 ⟨k, k1, rfl, k2⟩) (hno _)
  · intro t w hw; cases hw

theorem loopMap_of_forall {β : Type} (n : Nat) (f : Nat → Res β) (l : List β) (hl : l.length = n)
    (h : ∀ c (hc : c < l.length), f c = .ok l[c]) : loopMap n f = .ok l := by
  cases l with
  | nil => simp only [List.length_nil] at hl; subst hl; rfl
  | cons d t =>
    rw [loopMap_ok n f (fun c => (d :: t).getD c d)]
    · rw [← hl, ← eq_range_map_getD]
    · intro c hc
      rw [h c (by omega), List.getD_eq_getElem?_getD, List.getElem?_eq_getElem (by omega), Option.getD_some]

theorem loopMap_get {β : Type} (n : Nat) (f : Nat → Res β) (l : List β) (h : loopMap n f = .ok l) (c : Nat) (hc : c < n) :
    ∃ v, f c = .ok v := by
  induction n generalizing l with
  | zero => omega
  | succ n ih =>
    simp only [loopMap] at h
    cases h1 : loopMap n f with
    | error e => rw [h1] at h; cases h
    | ok t =>
      rw [h1, ok_bind] at h
      cases h2 : f n with
      | error e => rw [h2] at h; cases h
      | ok b =>
        by_cases hcn : c = n
        · subst hcn; exact ⟨b, h2⟩
        · exact ih t h1 (by omega)

/-- If a parallel pass ends, the array is the one the sequential loop gives (which does not fault). -/
theorem C11_pass (J : Job α σ) (T chunk N n : Nat) (hT : 0 < T) (cells : Nat → List Nat) (hc : CoversCells N n cells) (mem0 : List α)
    (h0 : mem0.length = n) (sched : List Nat) (st : PState α σ) (hrun : runP J sched (startP T chunk N cells mem0) = .ok st)
    (hdone : st.done) : seqPass J n mem0 = .ok st.mem := by
  have hinv := runP_inv J n mem0 h0 sched _ st (startP_inv J T chunk N n hT cells hc mem0 h0) hrun
  unfold seqPass
  refine loopMap_of_forall n _ st.mem hinv.len ?_
  intro c hcl
  obtain ⟨old, v, h1, h2, h3⟩ := hinv.finished c (by rw [← hinv.len]; exact hcl) (by
    intro t
    obtain ⟨d1, d2⟩ := hdone t
    simp [Thr.own, d1, d2])
  have hc0 : c < mem0.length := by rw [h0, ← hinv.len]; exact hcl
  rw [rd_ok hc0, ok_bind]
  rw [List.getElem?_eq_getElem hc0] at h1
  rw [List.getElem?_eq_getElem hcl] at h3
  simp only [Option.some.injEq] at h1 h3
  rw [h1, h2, h3]

/-- If the sequential loop does not fault, no schedule makes the parallel pass fault. -/
theorem C11_no_fault (J : Job α σ) (T chunk N n : Nat) (hT : 0 < T) (cells : Nat → List Nat) (hc : CoversCells N n cells) (mem0 out : List α)
    (h0 : mem0.length = n) (hseq : seqPass J n mem0 = .ok out) (sched : List Nat) :
    ∃ st, runP J sched (startP T chunk N cells mem0) = .ok st := by
  have hprog : ∀ c, c < n → ∃ s, runProg (J.prog c) J.s0 = .ok s := by
    intro c hcn
    obtain ⟨v, hv⟩ := loopMap_get n _ out hseq c hcn
    rw [rd_ok (by omega), ok_bind] at hv
    unfold seqCell at hv
    cases h : runProg (J.prog c) J.s0 with
    | error e => rw [h] at hv; cases hv
    | ok s => exact ⟨s, rfl⟩
  have step : ∀ st i, PInv J n mem0 st → ∃ st1, stepP J st i = .ok st1 := by
    intro st i hinv
    have key : ∃ p, stepThr J st.mem (st.thr i) = .ok p := by
      unfold stepThr
      cases hwk : (st.thr i).work with
      | none =>
        cases htd : (st.thr i).todo with
        | nil => exact ⟨_, rfl⟩
        | cons c rest => exact ⟨_, rfl⟩
      | some w =>
        have howni : (st.thr i).own = w.cell :: (st.thr i).todo := by simp [Thr.own, hwk]
        have hcn : w.cell < n := hinv.bound i w.cell (by rw [howni]; simp)
        have hcl : w.cell < st.mem.length := by rw [hinv.len]; exact hcn
        obtain ⟨hw1, _⟩ := hinv.work i w hwk
        cases hrest : w.rest with
        | cons f rest =>
          simp only [hrest]
          obtain ⟨s, hs⟩ := hprog w.cell hcn
          rw [← hw1, hrest] at hs
          simp only [runProg] at hs
          cases hfs : f w.s with
          | error e => rw [hfs] at hs; cases hs
          | ok s' => exact ⟨_, rfl⟩
        | nil =>
          simp only [hrest]
          unfold finishCell
          cases J.accum with
          | true =>
            rw [if_pos rfl]
            cases w.loaded with
            | none => simp only; rw [rd_ok hcl]; exact ⟨_, rfl⟩
            | some v => simp only; rw [wr_ok hcl]; exact ⟨_, rfl⟩
          | false => rw [if_neg (by simp), wr_ok hcl]; exact ⟨_, rfl⟩
    obtain ⟨p, hp⟩ := key
    exact ⟨_, by unfold stepP; rw [hp]; rfl⟩
  have all : ∀ sched st, PInv J n mem0 st → ∃ st1, runP J sched st = .ok st1 := by
    intro sched
    induction sched with
    | nil => intro st _; exact ⟨st, rfl⟩
    | cons i rest ih =>
      intro st hinv
      obtain ⟨st1, h1⟩ := step st i hinv
      obtain ⟨st2, h2⟩ := ih st1 (stepThr_inv J n mem0 h0 st st1 i hinv h1)
      exact ⟨st2, by simp only [runP, h1, ok_bind, h2]⟩
  exact all sched _ (startP_inv J T chunk N n hT cells hc mem0 h0)

/-! ## Termination -/

/-- Steps needed for one cell. -/
def cellCost (J : Job α σ) (c : Nat) : Nat := 1 + (J.prog c).length + (if J.accum then 2 else 1)

/-- Steps a thread still needs. -/
def remaining (J : Job α σ) (t : Thr α σ) : Nat :=
  (t.todo.map (cellCost J)).sum +
    match t.work with
    | none => 0
    | some w => w.rest.length + (if J.accum then (if w.loaded.isSome then 1 else 2) else 1)

theorem stepThr_remaining (J : Job α σ) (mem : List α) (t : Thr α σ) (p : List α × Thr α σ) (hok : stepThr J mem t = .ok p)
    (hl : ∀ w, t.work = some w → w.rest ≠ [] → w.loaded = none) :
    remaining J p.2 = remaining J t - 1 ∧ (∀ w, p.2.work = some w → w.rest ≠ [] → w.loaded = none) := by
  unfold stepThr at hok
  cases hwk : t.work with
  | none =>
    rw [hwk] at hok
    cases htd : t.todo with
    | nil =>
      simp only [htd, Except.ok.injEq] at hok
      subst hok
      exact ⟨by simp [remaining, hwk, htd], fun w hw => by rw [hwk] at hw; cases hw⟩
    | cons c rest =>
      simp only [htd, Except.ok.injEq] at hok
      subst hok
      refine ⟨?_, fun w hw _ => ?_⟩
      · simp only [remaining, hwk, htd, List.map_cons, List.sum_cons, cellCost, Option.isSome_none, Bool.false_eq_true, if_false]
        omega
      · simp only [Option.some.injEq] at hw
        subst hw
        rfl
  | some w =>
    rw [hwk] at hok
    cases hrest : w.rest with
    | cons f rest =>
      simp only [hrest] at hok
      cases hfs : f w.s with
      | error e => rw [hfs] at hok; cases hok
      | ok s =>
        rw [hfs, ok_bind] at hok
        have := Except.ok.inj hok
        subst this
        have hnone := hl w hwk (by rw [hrest]; simp)
        refine ⟨?_, fun w' hw' _ => ?_⟩
        · simp only [remaining, hwk, hrest, List.length_cons, hnone]
          omega
        · simp only [Option.some.injEq] at hw'
          subst hw'
          exact hnone
    | nil =>
      simp only [hrest] at hok
      unfold finishCell at hok
      cases hacc : J.accum with
      | true =>
        rw [hacc, if_pos rfl] at hok
        cases hld : w.loaded with
        | none =>
          simp only [hld] at hok
          cases hrd : rd mem w.cell with
          | error e => rw [hrd] at hok; cases hok
          | ok v =>
            rw [hrd, ok_bind] at hok
            have := Except.ok.inj hok
            subst this
            refine ⟨?_, fun w' hw' hne => ?_⟩
            · simp [remaining, hwk, hrest, hacc, hld]
            · simp only [Option.some.injEq] at hw'
              subst hw'
              exact absurd hrest hne
        | some v =>
          simp only [hld] at hok
          cases hwr : wr mem w.cell (v + J.res w.s) with
          | error e => rw [hwr] at hok; cases hok
          | ok m =>
            rw [hwr, ok_bind] at hok
            have := Except.ok.inj hok
            subst this
            exact ⟨by simp [remaining, hwk, hrest, hacc, hld], fun w' hw' => by cases hw'⟩
      | false =>
        rw [hacc, if_neg (by simp)] at hok
        cases hwr : wr mem w.cell (J.res w.s) with
        | error e => rw [hwr] at hok; cases hok
        | ok m =>
          rw [hwr, ok_bind] at hok
          have := Except.ok.inj hok
          subst this
          exact ⟨by simp [remaining, hwk, hrest, hacc], fun w' hw' => by cases hw'⟩

theorem runP_remaining (J : Job α σ) (sched : List Nat) (st st1 : PState α σ) (hok : runP J sched st = .ok st1)
    (hl : ∀ t w, (st.thr t).work = some w → w.rest ≠ [] → w.loaded = none) (t : Nat) :
    remaining J (st1.thr t) = remaining J (st.thr t) - sched.count t := by
  induction sched generalizing st with
  | nil => simp only [runP, Except.ok.injEq] at hok; subst hok; simp
  | cons i rest ih =>
    simp only [runP, stepP] at hok
    cases h1 : stepThr J st.mem (st.thr i) with
    | error e => rw [h1] at hok; cases hok
    | ok p =>
      simp only [h1, ok_bind, pure_eq_ok] at hok
      obtain ⟨hr, hl'⟩ := stepThr_remaining J st.mem (st.thr i) p h1 (hl i)
      have := ih ⟨p.1, Function.update st.thr i p.2⟩ hok (by
        intro u w hu
        by_cases hui : u = i
        · subst hui; simp only [Function.update_self] at hu; exact hl' w hu
        · simp only [Function.update_of_ne hui] at hu; exact hl u w hu)
      rw [this]
      by_cases hti : t = i
      · subst hti
        simp only [Function.update_self, List.count_cons_self]
        omega
      · simp only [Function.update_of_ne hti]
        rw [List.count_cons_of_ne (Ne.symm hti)]

/-- Every schedule that gives each thread enough turns ends the pass. -/
theorem C11_ends (J : Job α σ) (T chunk N n : Nat) (hT : 0 < T) (cells : Nat → List Nat) (hc : CoversCells N n cells) (mem0 out : List α)
    (h0 : mem0.length = n) (hseq : seqPass J n mem0 = .ok out) (sched : List Nat)
    (hfair : ∀ t, t < T → (((chunkOf T chunk t N).flatMap cells).map (cellCost J)).sum ≤ sched.count t) :
    ∃ st, runP J sched (startP T chunk N cells mem0) = .ok st ∧ st.done := by
  obtain ⟨st, hst⟩ := C11_no_fault J T chunk N n hT cells hc mem0 out h0 hseq sched
  refine ⟨st, hst, ?_⟩
  intro t
  have hr := runP_remaining J sched _ st hst (by intro t w hw; cases hw) t
  have hz : remaining J (st.thr t) = 0 := by
    rw [hr]
    have e : remaining J ((startP T chunk N cells mem0 : PState α σ).thr t) = (((chunkOf T chunk t N).flatMap cells).map (cellCost J)).sum := by
      simp [remaining, startP]
    rw [e]
    by_cases ht : t < T
    · have := hfair t ht; omega
    · have : chunkOf T chunk t N = [] := by
        rw [List.eq_nil_iff_forall_not_mem]
        intro k hk
        have := (mem_chunkOf.1 hk).2
        have := Nat.mod_lt (k / chunk) hT
        omega
      simp [this]
  unfold remaining at hz
  have h1 : ((st.thr t).todo.map (cellCost J)).sum = 0 := by omega
  constructor
  · cases htd : (st.thr t).todo with
    | nil => rfl
    | cons c rest =>
      rw [htd] at h1
      simp only [List.map_cons, List.sum_cons, cellCost] at h1
      omega
  · cases hwk : (st.thr t).work with
    | none => rfl
    | some w =>
      rw [hwk] at hz
      simp only at hz
      split at hz
      · split at hz <;> omega
      · omega

/-! ## The image passes -/

theorem covers_pixels (cols n : Nat) : CoversCells n n (pixelCells cols) := by
  have h : ∀ k, pixelCells cols k = [k] := fun k => by unfold pixelCells; rw [Nat.div_add_mod']
  refine ⟨?_, ?_, ?_, ?_⟩
  · intro k hk c hc; rw [h] at hc; simp at hc; omega
  · intro k hk; rw [h]; simp
  · intro k l _ _ c h1 h2; rw [h] at h1 h2; simp at h1 h2; omega
  · intro c hc; exact ⟨c, hc, by rw [h]; simp⟩

theorem covers_rows (cols rows : Nat) : CoversCells rows (cols * rows) (rowCells cols) := by
  have h : ∀ i c, c ∈ rowCells cols i ↔ ∃ j, j < cols ∧ i * cols + j = c := by
    intro i c; simp [rowCells]
  refine ⟨?_, ?_, ?_, ?_⟩
  · intro i hi c hc
    obtain ⟨j, hj, rfl⟩ := (h i c).1 hc
    have h1 : (i + 1) * cols ≤ rows * cols := Nat.mul_le_mul_right _ hi
    have h2 : (i + 1) * cols = i * cols + cols := by ring
    have h3 : cols * rows = rows * cols := Nat.mul_comm _ _
    omega
  · intro i _
    unfold rowCells
    exact List.nodup_range.map fun a b hab => by simpa using hab
  · intro k l _ _ c h1 h2
    obtain ⟨j, hj, e1⟩ := (h k c).1 h1
    obtain ⟨j', hj', e2⟩ := (h l c).1 h2
    have d1 : c / cols = k := by
      rw [← e1, Nat.mul_comm, Nat.mul_add_div (by omega), Nat.div_eq_of_lt hj, Nat.add_zero]
    have d2 : c / cols = l := by
      rw [← e2, Nat.mul_comm, Nat.mul_add_div (by omega), Nat.div_eq_of_lt hj', Nat.add_zero]
    omega
  · intro c hc
    have hcp : 0 < cols := by
      rcases Nat.eq_zero_or_pos cols with h0 | h0
      · subst h0; simp at hc
      · exact h0
    refine ⟨c / cols, Nat.div_lt_of_lt_mul hc, (h _ c).2 ⟨c % cols, Nat.mod_lt _ hcp, Nat.div_add_mod' c cols⟩⟩

theorem runProg_pixelSum (want : Bool) (x y : α) (fns : List (FnObj α)) (s : KS α) :
    runProg (fns.map fun o s => pixelStep want x y s o) s = pixelSum want x y fns s := by
  induction fns generalizing s with
  | nil => rfl
  | cons o rest ih =>
    simp only [List.map_cons, runProg, pixelSum]
    cases pixelStep want x y s o with
    | error e => rfl
    | ok t => exact ih t

theorem loopMap_congr {β : Type} (n : Nat) (f g : Nat → Res β) (h : ∀ c, c < n → f c = g c) : loopMap n f = loopMap n g := by
  induction n with
  | zero => rfl
  | succ n ih =>
    simp only [loopMap]
    rw [ih fun c hc => h c (by omega), h n (by omega)]

theorem seqPass_fill (X Y : Nat → α) (fns : List (FnObj α)) (n : Nat) (mem0 : List α) (h0 : mem0.length = n) :
    seqPass (kahanJob false false X Y fns) n mem0 = fillImage n X Y fns := by
  unfold seqPass fillImage
  refine loopMap_congr n _ _ ?_
  intro c hc
  rw [rd_ok (by omega), ok_bind]
  simp only [seqCell, kahanJob, runProg_pixelSum]
  cases pixelSum false (X c) (Y c) fns ⟨0, 0⟩ <;> rfl

theorem seqPass_points (X Y : Nat → α) (fns : List (FnObj α)) (n : Nat) (mem0 : List α) (h0 : mem0.length = n) :
    seqPass (kahanJob true true X Y fns) n mem0 = addPoints n X Y fns mem0 := by
  unfold seqPass addPoints
  refine loopMap_congr n _ _ ?_
  intro c hc
  rw [rd_ok (by omega), ok_bind]
  simp only [seqCell, kahanJob, runProg_pixelSum]
  cases pixelSum true (X c) (Y c) fns ⟨0, 0⟩ <;> rfl

theorem seqPass_single (X Y : Nat → α) (o : FnObj α) (n : Nat) (mem0 : List α) (h0 : mem0.length = n) :
    seqPass (singleJob X Y o) n mem0 = loopMap n fun k => fnValue o (X k) (Y k) := by
  unfold seqPass
  refine loopMap_congr n _ _ ?_
  intro c hc
  rw [rd_ok (by omega), ok_bind]
  simp only [seqCell, singleJob, runProg]
  cases fnValue o (X c) (Y c) <;> rfl

/-! ## The whole image -/

/-- Threads and chunk size in force (`SetMaxThreads`, `SetOMPChunkSize`). -/
structure Omp where
  threads : Nat
  chunk : Nat

/-- `out` is a possible result of the parallel pass `J` over `N` iterations, under some schedule, on the array `mem`. -/
def ParPass (om : Omp) (J : Job α σ) (N : Nat) (cells : Nat → List Nat) (mem out : List α) : Prop :=
  ∃ sched st, runP J sched (startP om.threads om.chunk N cells mem) = .ok st ∧ st.done ∧ st.mem = out

/-- Possible results of one oversampled region computed in parallel; `buf` is what the region's buffer holds before. -/
def ParRegion (om : Omp) (r : Region α) (main : List α) (fns : List (FnObj α)) (out : List α × List (FnObj α)) : Prop :=
  ∃ buf v1 v3, buf.length = r.geom.n ∧
    ParPass om (kahanJob false false (regionX r) (regionY r) fns) r.geom.n (pixelCells r.geom.cols) buf v1 ∧
    (applyConv r.conv v1).length = r.geom.n ∧
    ParPass om (kahanJob true true (regionX r) (regionY r) (setRegion r fns)) r.geom.n (pixelCells r.geom.cols) (applyConv r.conv v1) v3 ∧
    ∃ m, downsample v3 r.geom main r.main r.x1 r.y1 r.scale = .ok m ∧ out = (m, setRegion r fns)

/-- All regions. -/
def ParRegions (om : Omp) : List (Region α) → List α → List (FnObj α) → List α × List (FnObj α) → Prop
  | [], main, fns, out => out = (main, fns)
  | r :: rest, main, fns, out => ∃ p, ParRegion om r main fns p ∧ ParRegions om rest p.1 p.2 out

/-- Possible results of the point-source step. -/
def ParPoints (om : Omp) (m : Img α) (fns : List (FnObj α)) (img : List α) (out : List α × List (FnObj α)) : Prop :=
  if m.points then
    img.length = m.geom.n ∧ ∃ v, ParPass om (kahanJob true true (mainX m.geom) (mainY m.geom) (setInterp m.interp fns)) m.geom.n
      (pixelCells m.geom.cols) img v ∧ out = (v, setInterp m.interp fns)
  else out = (img, fns)

/-- Possible results of `CreateModelImage` on several threads. -/
def ParModelImage (om : Omp) (m : Img α) (params : List α) (m' : Img α) : Prop :=
  ∃ r v1 p q, setupFns params (m.fns.zip m.starts) ⟨0, 0, 0⟩ = .ok r ∧ m.modelVec.length = m.geom.n ∧
    ParPass om (kahanJob false false (mainX m.geom) (mainY m.geom) r.1) m.geom.n (pixelCells m.geom.cols) m.modelVec v1 ∧
    ParPoints om m r.1 (applyConv m.conv v1) p ∧ ParRegions om m.regions p.1 p.2 q ∧
    m' = { m with fns := q.2, modelVec := q.1, computed := true }

theorem parPass_seq (om : Omp) (hT : 0 < om.threads) (J : Job α σ) (N n : Nat) (cells : Nat → List Nat) (hc : CoversCells N n cells)
    (mem out : List α) (h0 : mem.length = n) (h : ParPass om J N cells mem out) : seqPass J n mem = .ok out := by
  obtain ⟨sched, st, h1, h2, rfl⟩ := h
  exact C11_pass J om.threads om.chunk N n hT cells hc mem h0 sched st h1 h2

theorem parRegion_seq (om : Omp) (hT : 0 < om.threads) (r : Region α) (main : List α) (fns : List (FnObj α)) (out : List α × List (FnObj α))
    (h : ParRegion om r main fns out) : computeRegion r main fns = .ok out := by
  obtain ⟨buf, v1, v3, hb, h1, hl, h2, m, h3, rfl⟩ := h
  have e1 := parPass_seq om hT _ _ _ _ (covers_pixels r.geom.cols r.geom.n) buf v1 hb h1
  rw [seqPass_fill _ _ _ _ _ hb] at e1
  have e2 := parPass_seq om hT _ _ _ _ (covers_pixels r.geom.cols r.geom.n) _ v3 hl h2
  rw [seqPass_points _ _ _ _ _ hl] at e2
  unfold computeRegion
  rw [e1, ok_bind]
  simp only [e2, ok_bind, h3]
  rfl

theorem parRegions_seq (om : Omp) (hT : 0 < om.threads) (rs : List (Region α)) (main : List α) (fns : List (FnObj α))
    (out : List α × List (FnObj α)) (h : ParRegions om rs main fns out) : computeRegions rs main fns = .ok out := by
  induction rs generalizing main fns with
  | nil => simp only [ParRegions] at h; subst h; rfl
  | cons r rest ih =>
    obtain ⟨p, h1, h2⟩ := h
    simp only [computeRegions, parRegion_seq om hT r main fns p h1, ok_bind]
    exact ih p.1 p.2 h2

/-- C11. Whatever the number of threads, the chunk size and the interleaving of all passes (main image, point sources, every
oversampled region), the state after `CreateModelImage` — the image included, bit for bit, for every arithmetic — is the
one of the sequential evaluation. -/
theorem C11_model_image (om : Omp) (hT : 0 < om.threads) (m m' : Img α) (params : List α) (h : ParModelImage om m params m') :
    createModelImage m params = .ok m' := by
  obtain ⟨r, v1, p, q, hset, hl, h1, h2, h3, rfl⟩ := h
  have e1 := parPass_seq om hT _ _ _ _ (covers_pixels m.geom.cols m.geom.n) _ v1 hl h1
  rw [seqPass_fill _ _ _ _ _ hl] at e1
  have e2 : pointStep m r.1 (applyConv m.conv v1) = .ok p := by
    unfold pointStep
    unfold ParPoints at h2
    cases hp : m.points with
    | true =>
      rw [hp, if_pos rfl] at h2
      obtain ⟨hl2, v, h4, rfl⟩ := h2
      have := parPass_seq om hT _ _ _ _ (covers_pixels m.geom.cols m.geom.n) _ v hl2 h4
      rw [seqPass_points _ _ _ _ _ hl2] at this
      rw [if_pos rfl, this]
      rfl
    | false =>
      rw [hp, if_neg (by simp)] at h2
      rw [if_neg (by simp), h2]
  unfold createModelImage
  rw [hset, ok_bind]
  simp only [e1, ok_bind, e2, parRegions_seq om hT _ _ _ _ h3]
  rfl

/-- The single-function image (row-wise parallel loop): same statement for its pass. -/
theorem C11_single_image (om : Omp) (hT : 0 < om.threads) (g : Geom) (o : FnObj α) (mem out : List α) (h0 : mem.length = g.n)
    (h : ParPass om (singleJob (mainX g) (mainY g) o) g.rows (rowCells g.cols) mem out) :
    loopMap g.n (fun k => fnValue o (mainX g k) (mainY g k)) = .ok out := by
  have := parPass_seq om hT _ _ g.n _ (covers_rows g.cols g.rows) mem out h0 h
  rwa [seqPass_single _ _ _ _ _ h0] at this

/-- Example: two threads, chunk size 1, three pixels, one constant function, an interleaved schedule that starts with the second thread;
the hypotheses are met and the run ends. -/
example : ∃ st, runP (kahanJob false false (fun _ => (XR.fin 0 : XR)) (fun _ => XR.fin 0)
      [⟨⟨0, false, fun _ _ _ _ _ => XR.fin 2⟩, [], XR.fin 0, XR.fin 0, none, XR.fin 1, XR.fin 1⟩])
    [1, 0, 0, 1, 0, 1, 0, 0, 0] (startP 2 1 3 (pixelCells 3) [XR.nan, XR.nan, XR.nan]) = .ok st ∧ st.done := by
  refine ⟨_, rfl, ?_⟩
  intro t
  rcases t with _ | _ | t
  · exact ⟨rfl, rfl⟩
  · exact ⟨rfl, rfl⟩
  · have h : chunkOf 2 1 (t + 2) 3 = [] := by
      rw [List.eq_nil_iff_forall_not_mem]
      intro k hk
      have := (mem_chunkOf.1 hk).2
      have := Nat.mod_lt (k / 1) (show 0 < 2 by decide)
      omega
    constructor
    · show (chunkOf 2 1 (t + 2) 3).flatMap (pixelCells 3) = []
      rw [h]; rfl
    · rfl

end Imfit
