import Verif.Model.SharedParams
import Verif.Props.C75Turned
import Verif.Lemmas.DE

/-!
# C11 for the three-dimensional functions

The seven functions that integrate along the line of sight keep the address of the array of the current pixel in a member of the shared function object. The image is
independent of the schedule if no two threads are inside such a function at the same time, in particular with a single thread. Otherwise a pixel can get the value
of another pixel, and an array can be read after its stack frame is gone.
-/

namespace Imfit

open Spec XR MeasureTheory

variable {π σ α : Type}

/-- The integrator fed with one and the same array. -/
def LosJob.fold (J : LosJob π σ α) (p : π) : Nat → σ
  | 0 => J.s0
  | k + 1 => J.ev k p (J.fold p k)

/-- The value of a pixel computed alone. -/
def LosJob.alone (J : LosJob π σ α) (c : Nat) : α := J.res (J.fold (J.pars c) J.evals)

/-- All threads have reached the end of the loop. -/
def LosState.done (st : LosState π σ α) : Prop := ∀ t, (st.thr t).todo = [] ∧ (st.thr t).pc = none

/-- No thread does a step while another one is inside the function. -/
def Exclusive (J : LosJob π σ α) : List Nat → LosState π σ α → Prop
  | [], _ => True
  | t :: rest, st => (∀ u, u ≠ t → (st.thr u).pc = none) ∧ ∀ st1, losStep J st t = .ok st1 → Exclusive J rest st1

/-- The pixel a thread is working on. -/
def LosPc.cell : LosPc σ → Nat
  | .filled c => c
  | .stored c => c
  | .copied c _ _ _ => c

/-- Pixels a thread has not finished. -/
def LosThr.own (t : LosThr σ) : List Nat := (t.pc.map LosPc.cell).toList ++ t.todo

/-- A thread inside the function has its own array, and the address it uses is that of its own array. -/
def LosPc.good (J : LosJob π σ α) (st : LosState π σ α) (t : Nat) : LosPc σ → Prop
  | .filled c => st.frame t = some (J.pars c)
  | .stored c => st.frame t = some (J.pars c) ∧ st.ptr = some t
  | .copied c u k s => st.frame t = some (J.pars c) ∧ u = t ∧ k ≤ J.evals ∧ s = J.fold (J.pars c) k

structure LosInv (J : LosJob π σ α) (n : Nat) (st : LosState π σ α) : Prop where
  len : st.mem.length = n
  own : ∀ t c, c ∈ (st.thr t).own → c < n
  pc : ∀ t p, (st.thr t).pc = some p → p.good J st t
  fin : ∀ c, c < n → (∀ t, c ∉ (st.thr t).own) → st.mem[c]? = some (J.alone c)

/-- Changing the state of the thread `t`, with all other threads outside. -/
theorem LosInv.step {J : LosJob π σ α} {n : Nat} {st st1 : LosState π σ α} (h : LosInv J n st) (t : Nat) (q : LosThr σ) (ho : ∀ u, u ≠ t → (st.thr u).pc = none)
    (ht : st1.thr = Function.update st.thr t q) (hlen : st1.mem.length = n) (hown : ∀ c ∈ q.own, c ∈ (st.thr t).own) (hpc : ∀ p, q.pc = some p → p.good J st1 t)
    (hfin : ∀ c, c < n → c ∉ q.own → (st1.mem[c]? = some (J.alone c) ∨ c ∉ (st.thr t).own ∧ st1.mem[c]? = st.mem[c]?)) : LosInv J n st1 := by
  refine ⟨hlen, ?_, ?_, ?_⟩
  · intro u c hc
    rw [ht] at hc
    by_cases hu : u = t
    · subst hu
      rw [Function.update_self] at hc
      exact h.own u c (hown c hc)
    · rw [Function.update_of_ne hu] at hc
      exact h.own u c hc
  · intro u p hp
    rw [ht] at hp
    by_cases hu : u = t
    · subst hu
      rw [Function.update_self] at hp
      exact hpc p hp
    · rw [Function.update_of_ne hu, ho u hu] at hp
      cases hp
  · intro c hc hn
    have hq : c ∉ q.own := by
      have := hn t
      rwa [ht, Function.update_self] at this
    rcases hfin c hc hq with h1 | ⟨h1, h2⟩
    · exact h1
    · rw [h2]
      refine h.fin c hc fun u => ?_
      by_cases hu : u = t
      · subst hu; exact h1
      · have := hn u
        rwa [ht, Function.update_of_ne hu] at this

theorem losStep_inv {J : LosJob π σ α} {n : Nat} {st : LosState π σ α} (h : LosInv J n st) (t : Nat) (ho : ∀ u, u ≠ t → (st.thr u).pc = none) :
    ∃ st1, losStep J st t = .ok st1 ∧ LosInv J n st1 := by
  unfold losStep
  cases hp : (st.thr t).pc with
  | none =>
    cases hd : (st.thr t).todo with
    | nil => exact ⟨st, rfl, h⟩
    | cons c rest =>
      have he : (st.thr t).own = c :: rest := by simp [LosThr.own, hp, hd]
      refine ⟨_, rfl, h.step t ⟨rest, some (.filled c)⟩ ho rfl h.len (fun x hx => ?_) ?_ fun x _ hx => Or.inr ⟨?_, rfl⟩⟩
      · rw [he]; simpa [LosThr.own, LosPc.cell] using hx
      · rintro p ⟨⟩
        exact Function.update_self ..
      · rw [he]; simpa [LosThr.own, LosPc.cell] using hx
  | some pc =>
    have hg := h.pc t pc hp
    have he : (st.thr t).own = pc.cell :: (st.thr t).todo := by simp [LosThr.own, hp]
    cases pc with
    | filled c =>
      refine ⟨_, rfl, h.step t ⟨(st.thr t).todo, some (.stored c)⟩ ho rfl h.len (fun x hx => ?_) ?_ fun x _ hx => Or.inr ⟨?_, rfl⟩⟩
      · rw [he]; simpa [LosThr.own, LosPc.cell] using hx
      · rintro p ⟨⟩
        exact ⟨hg, rfl⟩
      · rw [he]; simpa [LosThr.own, LosPc.cell] using hx
    | stored c =>
      obtain ⟨g1, g2⟩ := hg
      simp only [g2]
      refine ⟨_, rfl, h.step t ⟨(st.thr t).todo, some (.copied c t 0 J.s0)⟩ ho rfl h.len (fun x hx => ?_) ?_ fun x _ hx => Or.inr ⟨?_, rfl⟩⟩
      · rw [he]; simpa [LosThr.own, LosPc.cell] using hx
      · rintro p ⟨⟩
        exact ⟨g1, rfl, Nat.zero_le _, rfl⟩
      · rw [he]; simpa [LosThr.own, LosPc.cell] using hx
    | copied c u k s =>
      obtain ⟨g1, rfl, g3, g4⟩ := hg
      by_cases hk : k < J.evals
      · simp only [if_pos hk, g1]
        refine ⟨_, rfl, h.step u ⟨(st.thr u).todo, some (.copied c u (k + 1) (J.ev k (J.pars c) s))⟩ ho rfl h.len (fun x hx => ?_) ?_ fun x _ hx => Or.inr ⟨?_, rfl⟩⟩
        · rw [he]; simpa [LosThr.own, LosPc.cell] using hx
        · rintro p ⟨⟩
          exact ⟨g1, rfl, hk, by rw [g4]; rfl⟩
        · rw [he]; simpa [LosThr.own, LosPc.cell] using hx
      · have hkn : k = J.evals := by omega
        have hc : c < n := h.own u c (by rw [he]; simp [LosPc.cell])
        simp only [if_neg hk, wr_ok (show c < st.mem.length by rw [h.len]; exact hc)]
        refine ⟨_, rfl, h.step u ⟨(st.thr u).todo, none⟩ ho rfl (by simp [h.len]) (fun x hx => ?_) ?_ fun x hx hxo => ?_⟩
        · rw [he]; simp only [LosThr.own, Option.map_none, Option.toList_none, List.nil_append] at hx; exact List.mem_cons_of_mem _ hx
        · rintro p ⟨⟩
        · simp only [LosThr.own, Option.map_none, Option.toList_none, List.nil_append] at hxo
          by_cases hxc : x = c
          · left
            subst hxc
            show (st.mem.set x (J.res s))[x]? = _
            rw [List.getElem?_set_self (by rw [h.len]; exact hx), g4, hkn]
            rfl
          · right
            refine ⟨by rw [he]; simp [LosPc.cell, hxc, hxo], ?_⟩
            show (st.mem.set c (J.res s))[x]? = _
            rw [List.getElem?_set_ne (fun hh => hxc hh.symm)]

theorem losStart_inv (J : LosJob π σ α) (T chunk n : Nat) (mem : List α) (hm : mem.length = n) : LosInv J n (losStart T chunk n mem) := by
  refine ⟨hm, ?_, ?_, ?_⟩
  · intro t c hc
    simp only [losStart, LosThr.own, Option.map_none, Option.toList_none, List.nil_append, List.mem_filter, List.mem_range] at hc
    exact hc.1
  · intro t p hp
    cases hp
  · intro c hc hn
    refine absurd ?_ (hn (c / chunk % T))
    simp [losStart, LosThr.own, hc]

/-- The image computed pixel by pixel by one thread. -/
def LosJob.image (J : LosJob π σ α) (n : Nat) : List α := (List.range n).map J.alone

theorem losRun_exclusive (J : LosJob π σ α) (n : Nat) (sched : List Nat) (st : LosState π σ α) (h : LosInv J n st) (he : Exclusive J sched st) :
    ∃ st1, losRun J sched st = .ok st1 ∧ LosInv J n st1 := by
  induction sched generalizing st with
  | nil => exact ⟨st, rfl, h⟩
  | cons t rest ih =>
    obtain ⟨st1, h1, h2⟩ := losStep_inv h t he.1
    obtain ⟨st2, h3, h4⟩ := ih st1 h2 (he.2 st1 h1)
    exact ⟨st2, by unfold losRun; rw [h1]; exact h3, h4⟩

theorem LosInv.image {J : LosJob π σ α} {n : Nat} {st : LosState π σ α} (h : LosInv J n st) (hd : st.done) : st.mem = J.image n := by
  refine List.ext_getElem? fun c => ?_
  by_cases hc : c < n
  · rw [h.fin c hc (fun t => by simp [LosThr.own, hd t])]
    simp [LosJob.image, hc]
  · rw [List.getElem?_eq_none (by rw [h.len]; omega), List.getElem?_eq_none (by simp [LosJob.image]; omega)]

/-- C11, partial: if no thread does a step while another one is inside the function, nothing faults, and when the loop is over each pixel has the value computed
for it alone. Missing: schedules in which threads are inside the function at the same time, see `C11_shared_integrand_false`. -/
theorem C11_line_of_sight_partial (J : LosJob π σ α) (T chunk n : Nat) (mem : List α) (hm : mem.length = n) (sched : List Nat)
    (he : Exclusive J sched (losStart T chunk n mem)) : ∃ st, losRun J sched (losStart T chunk n mem) = .ok st ∧ (st.done → st.mem = J.image n) := by
  obtain ⟨st, h1, h2⟩ := losRun_exclusive J n sched _ (losStart_inv J T chunk n mem hm) he
  exact ⟨st, h1, h2.image⟩

/-- Two pixels, two threads, one after the other. -/
example (integ : (XR → XR) → XR → XR → XR) (f : LosFn XR) (X Y : Nat → XR) (a b : XR) :
    ∃ st, losRun (losJob integ f X Y) [0, 0, 0, 0, 0, 1, 1, 1, 1, 1] (losStart 2 1 2 [a, b]) = .ok st ∧ st.mem = [losValue integ f (X 0) (Y 0), losValue integ f (X 1) (Y 1)] :=
  ⟨_, rfl, rfl⟩

theorem exclusive_single (J : LosJob π σ α) (sched : List Nat) (st : LosState π σ α) (h : ∀ u, u ≠ 0 → (st.thr u).pc = none ∧ (st.thr u).todo = []) :
    (∀ t ∈ sched, t = 0) → Exclusive J sched st := by
  induction sched generalizing st with
  | nil => exact fun _ => trivial
  | cons t rest ih =>
    intro hs
    obtain rfl : t = 0 := hs t (by simp)
    refine ⟨fun u hu => (h u hu).1, fun st1 h1 => ih st1 (fun u hu => ?_) fun x hx => hs x (List.mem_cons_of_mem _ hx)⟩
    have hk : st1.thr u = st.thr u := by
      unfold losStep at h1
      split at h1
      · split at h1
        · cases h1; rfl
        · cases h1; exact Function.update_of_ne hu _ _
      · cases h1; exact Function.update_of_ne hu _ _
      · split at h1
        · cases h1
        · cases h1; exact Function.update_of_ne hu _ _
      · split at h1
        · split at h1
          · cases h1
          · cases h1; exact Function.update_of_ne hu _ _
        · obtain ⟨m, -, hm⟩ := bind_ok h1
          cases hm
          exact Function.update_of_ne hu _ _
    rw [hk]
    exact h u hu

/-- C11, partial: with a single thread the image of a three-dimensional function is the sequential one. -/
theorem C11_single_thread_partial (J : LosJob π σ α) (chunk n k : Nat) (mem : List α) (hm : mem.length = n) :
    ∃ st, losRun J (List.replicate k 0) (losStart 1 chunk n mem) = .ok st ∧ (st.done → st.mem = J.image n) :=
  C11_line_of_sight_partial J 1 chunk n mem hm _ (exclusive_single J _ _ (fun u hu => ⟨rfl, by simp [losStart, Nat.mod_one, hu.symm]⟩)
    fun _ ht => List.eq_of_mem_replicate ht)

/-- One thread and two pixels. -/
example (integ : (XR → XR) → XR → XR → XR) (f : LosFn XR) (X Y : Nat → XR) (a b : XR) :
    ∃ st, losRun (losJob integ f X Y) (List.replicate 10 0) (losStart 1 5 2 [a, b]) = .ok st ∧ st.mem = [losValue integ f (X 0) (Y 0), losValue integ f (X 1) (Y 1)] :=
  ⟨_, rfl, rfl⟩

/-- C11 is false of the three-dimensional functions: for a disk seen face-on, with two threads, there is a schedule after which the first pixel has the value of the
second one, which is a different value; and a schedule in which a thread reads an array that no longer exists. -/
theorem C11_shared_integrand_false : ∃ (p : List XR) (f : LosFn XR) (v0 v1 : ℝ), LFun.expDisk.setup defaultDesc p 0 (fin 0) (fin 0) = .ok f ∧
    (losJob exactInteg f (fun c => fin c) (fun _ => fin 0)).image 2 = [fin v0, fin v1] ∧ v1 < v0 ∧
    (∃ (sched : List Nat) (st : LosState (XR × XR) XR XR), losRun (losJob exactInteg f (fun c => fin c) (fun _ => fin 0)) sched (losStart 2 1 2 [fin 0, fin 0]) = .ok st ∧
      st.done ∧ st.mem = [fin v1, fin v1]) ∧
    ∃ sched : List Nat, losRun (losJob exactInteg f (fun c => fin c) (fun _ => fin 0)) sched (losStart 2 1 2 [fin 0, fin 0]) = .error .null := by
  have hp : LFun.expDisk.Physical [0, 0, 1, 1, 1, 1] := ⟨one_pos, one_pos, one_pos⟩
  set p : List ℝ := [0, 0, 1, 1, 1, 1] with hpd
  have hv := fun x y => los_value_exact .expDisk p hp trivial [] [] 0 0 x y
  simp only [List.nil_append, List.append_nil, List.length_nil, sub_zero] at hv
  obtain ⟨f, hf⟩ : ∃ f, LFun.expDisk.setup defaultDesc (p.map fin) 0 (fin 0) (fin 0) = .ok f := by
    have := hv 0 0
    unfold LFun.value at this
    cases hs : LFun.expDisk.setup defaultDesc (p.map fin) 0 (fin 0) (fin 0) with
    | ok f => exact ⟨f, rfl⟩
    | error e => rw [hs] at this; cases this
  have hl : ∀ x y : ℝ, losValue exactInteg f (fin x) (fin y) = fin (∫ s in (-(LFun.expDisk.range p))..(LFun.expDisk.range p), ray (LFun.expDisk.coded p) (nodes p) (tilt p) x y s) := by
    intro x y
    have := hv x y
    unfold LFun.value at this
    rw [hf] at this
    exact Except.ok.inj this
  have ht : tilt p = 0 := by
    show (0 : ℝ) * degree = 0
    exact zero_mul _
  have hr : LFun.expDisk.range p = 20 := by
    show (20 : ℝ) * 1 = 20
    norm_num
  have hpt : ∀ x s : ℝ, ray (LFun.expDisk.coded p) (nodes p) 0 x 0 s = Real.exp (-|x|) * sechCode 1 1 (|s|) := by
    intro x s
    have e : along (nodes p) x 0 ^ 2 + across (nodes p) x 0 ^ 2 = x ^ 2 := by
      have e := Real.sin_sq_add_cos_sq (nodes p)
      unfold along across
      linear_combination x ^ 2 * e
    unfold ray
    simp only [hpd, LFun.coded, Real.cos_zero, Real.sin_zero, mul_one, mul_zero, add_zero, zero_sub, abs_neg, one_mul, div_one]
    rw [← hpd, e, Real.sqrt_sq_eq_abs]
  have hpos : ∀ x : ℝ, ∀ s, 0 < ray (LFun.expDisk.coded p) (nodes p) 0 x 0 s := by
    intro x s
    rw [hpt]
    refine mul_pos (Real.exp_pos _) ?_
    unfold sechCode
    split
    · positivity
    · exact Real.rpow_pos_of_pos (div_pos one_pos (Real.cosh_pos _)) _
  set I : ℝ → ℝ := fun x => ∫ s in (-20 : ℝ)..20, ray (LFun.expDisk.coded p) (nodes p) 0 x 0 s with hI
  have hl' : ∀ x : ℝ, losValue exactInteg f (fin x) (fin 0) = fin (I x) := by
    intro x
    rw [hl, ht, hr]
  have h0 : 0 < I 0 := intervalIntegral.intervalIntegral_pos_of_pos (coded_ray_integrable .expDisk p hp _ _ _ _ _ trivial) (hpos 0) (by norm_num)
  have h1 : I 1 = Real.exp (-1) * I 0 := by
    rw [hI]
    simp only [hpt, abs_zero, neg_zero, Real.exp_zero, one_mul, abs_one]
    rw [intervalIntegral.integral_const_mul]
  have hlt : I 1 < I 0 := by
    rw [h1]
    have := Real.exp_lt_one_iff.2 (show (-1 : ℝ) < 0 by norm_num)
    nlinarith
  have e0 : losValue exactInteg f (fin ((0 : Nat) : ℝ)) (fin 0) = fin (I 0) := by rw [Nat.cast_zero]; exact hl' 0
  have e1 : losValue exactInteg f (fin ((1 : Nat) : ℝ)) (fin 0) = fin (I 1) := by rw [Nat.cast_one]; exact hl' 1
  refine ⟨p.map fin, f, I 0, I 1, hf, ?_, hlt, ⟨[0, 1, 0, 1, 0, 0, 0, 1, 1, 1], _, rfl, ?_, ?_⟩, [0, 0, 1, 1, 0, 1, 1, 1, 0], rfl⟩
  · show [losValue exactInteg f (fin ((0 : Nat) : ℝ)) (fin 0), losValue exactInteg f (fin ((1 : Nat) : ℝ)) (fin 0)] = _
    rw [e0, e1]
  · intro t
    match t with
    | 0 => exact ⟨rfl, rfl⟩
    | 1 => exact ⟨rfl, rfl⟩
    | t + 2 =>
      refine ⟨?_, rfl⟩
      show (List.range 2).filter (fun k => (k / 1) % 2 = t + 2) = []
      simp [List.range_succ]
  · show [losValue exactInteg f (fin ((1 : Nat) : ℝ)) (fin 0), losValue exactInteg f (fin ((1 : Nat) : ℝ)) (fin 0)] = _
    rw [e1]

end Imfit
