import Mathlib.Analysis.Complex.ExponentialBounds
import Mathlib.MeasureTheory.Measure.Lebesgue.Basic
import Verif.Props.C58

/-!
# C61: chains move by the Metropolis rule

In exact arithmetic a proposal with log-likelihood `a` is accepted by a chain at log-likelihood `b` exactly if the uniform number drawn is below `exp (a - b)`, hence with
probability `min 1 (exp (a - b))`; these probabilities satisfy detailed balance. A proposal whose likelihood is NaN or minus infinity is never accepted. An
accepted chain takes the proposal with its likelihood, a rejected one keeps its position with its likelihood; no other chain or generation changes.
Throughout a run no chain is ever at a position whose likelihood is not a number.
-/

namespace Imfit

open XR MeasureTheory

/-- The test of the code is the Metropolis test. -/
theorem C61_rule {σ : Type} (R : Rng σ XR) (a b u : ℝ) (s : σ) (hu : (R.unif s).1 = fin u) (h0 : 0 ≤ u) (h1 : u < 1) :
    (acceptTest R (fin a) (fin b) s).1 = true ↔ u < Real.exp (a - b) := by
  have hne : eqD (fin a) (ninfty : XR) = false := by
    show (fle (fin a) (-(1 / 0)) && fle (-(1 / 0)) (fin a)) = false
    rw [zero_def, one_def, fin_div_zero, infSign_pos (by norm_num)]
    rfl
  unfold acceptTest
  rw [hne, if_neg (by decide), fle_fin]
  by_cases hab : b ≤ a
  · rw [if_pos (by simpa using hab)]
    have : 1 ≤ Real.exp (a - b) := Real.one_le_exp (by linarith)
    exact ⟨fun _ => by linarith, fun _ => rfl⟩
  · rw [if_neg (by simpa using hab)]
    show flt (flog (R.unif s).1) (fin a - fin b) = true ↔ _
    rw [hu, fin_sub]
    rcases h0.eq_or_lt with rfl | hpos
    · rw [flog_fin, if_neg (lt_irrefl _), if_pos rfl]
      exact ⟨fun _ => Real.exp_pos _, fun _ => rfl⟩
    · rw [flog_fin_of_pos hpos, flt_fin, decide_eq_true_eq, Real.log_lt_iff_lt_exp hpos]

/-- The probability of acceptance: the length of the set of uniform numbers in `[0, 1)` for which the proposal is accepted. -/
theorem C61_probability {σ : Type} (R : ℝ → Rng σ XR) (s : σ) (hR : ∀ u, ((R u).unif s).1 = fin u) (a b : ℝ) :
    volume {u : ℝ | u ∈ Set.Ico 0 1 ∧ (acceptTest (R u) (fin a) (fin b) s).1 = true} = ENNReal.ofReal (min 1 (Real.exp (a - b))) := by
  have : {u : ℝ | u ∈ Set.Ico 0 1 ∧ (acceptTest (R u) (fin a) (fin b) s).1 = true} = Set.Ico 0 (min 1 (Real.exp (a - b))) := by
    ext u
    constructor
    · rintro ⟨⟨h0, h1⟩, h⟩
      exact ⟨h0, lt_min h1 ((C61_rule (R u) a b u s (hR u) h0 h1).1 h)⟩
    · rintro ⟨h0, h1⟩
      have h1' := lt_min_iff.1 h1
      exact ⟨⟨h0, h1'.1⟩, (C61_rule (R u) a b u s (hR u) h0 h1'.1).2 h1'.2⟩
  rw [this, Real.volume_Ico, sub_zero]

/-- Detailed balance of the acceptance probabilities with respect to the density `exp` of the log-likelihood. -/
theorem C61_balance (a b : ℝ) : Real.exp b * min 1 (Real.exp (a - b)) = Real.exp a * min 1 (Real.exp (b - a)) := by
  rcases le_total a b with h | h
  · rw [min_eq_right (Real.exp_le_one_iff.2 (by linarith)), min_eq_left (Real.one_le_exp (by linarith)), ← Real.exp_add, mul_one]
    ring_nf
  · rw [min_eq_left (Real.one_le_exp (by linarith)), min_eq_right (Real.exp_le_one_iff.2 (by linarith)), ← Real.exp_add, mul_one]
    ring_nf

/-- A proposal without a number as likelihood is never accepted. -/
theorem C61_reject {σ α : Type} [FP α] (hL : CmpLaws α) (R : Rng σ α) (new prev : α) (s : σ) (h : eqD new ninfty = true ∨ fle new new = false) :
    (acceptTest R new prev s).1 = false := by
  cases hb : (acceptTest R new prev s).1 with
  | false => rfl
  | true =>
    obtain ⟨h1, h2⟩ := acceptTest_num hL R new prev s hb
    rcases h with h | h
    · rw [h] at h1; cases h1
    · rw [h] at h2; cases h2

example {σ : Type} (R : Rng σ XR) (s : σ) : (acceptTest R nan (fin 3) s).1 = false := C61_reject cmpLaws_XR R _ _ s (Or.inr rfl)

/-- A worse proposal is accepted with the number 1/8 if it is worse by 2, since `exp (-2) > 1/8`; with a number above `exp (-2)` it is not. -/
example {σ : Type} (R : Rng σ XR) (s : σ) (hu : (R.unif s).1 = fin (1 / 8)) : (acceptTest R (fin (-5)) (fin (-3)) s).1 = true := by
  refine (C61_rule R (-5) (-3) (1 / 8) s hu (by norm_num) (by norm_num)).2 ?_
  rw [show (-5 : ℝ) - -3 = -2 by norm_num, Real.exp_neg, one_div]
  have : Real.exp 2 < 8 := by
    have h := Real.exp_one_lt_d9
    rw [show (2 : ℝ) = 1 + 1 by norm_num, Real.exp_add]
    nlinarith [Real.exp_pos 1]
  exact inv_strictAnti₀ (Real.exp_pos 2) this

section
variable {σ α : Type} [FP α]

/-- What the acceptance step does to chain `i` in generation `t`, given the likelihood `v` of the proposal `new` and `w` of the present position `old`: the new
position and likelihood are those of the proposal or those before; no other cell is touched. -/
theorem C61_step (c : DreamCfg α) (R : Rng σ α) (st : DreamSt σ α) (t i : Nat) (new old : List α) (v w : α)
    (hacc : i < st.accept.length) (hp : st.prop[i]? = some new)
    (hv : st.lik[t * c.numChains + i]? = some (some v)) (hw : st.lik[(t - 1) * c.numChains + i]? = some (some w))
    (ho : st.state[(t - 1) * c.numChains + i]? = some (some old)) (hs : t * c.numChains + i < st.state.length) :
    ∃ st', acceptChain c R t i st = .ok st' ∧
      st'.state[t * c.numChains + i]? = some (some (if (acceptTest R v w st.rng).1 then new else old)) ∧
      st'.lik[t * c.numChains + i]? = some (some (if (acceptTest R v w st.rng).1 then v else w)) ∧
      st'.accept[i]? = some (acceptTest R v w st.rng).1 ∧
      ∀ q, q ≠ t * c.numChains + i → st'.state[q]? = st.state[q]? ∧ st'.lik[q]? = st.lik[q]? := by
  have hlt : t * c.numChains + i < st.lik.length := by
    by_contra h
    rw [List.getElem?_eq_none (by omega)] at hv
    cases hv
  unfold acceptChain
  rw [show getLik c st.lik t i = .ok v from rdU_sat hv, val_bind, show getLik c st.lik (t - 1) i = .ok w from rdU_sat hw, val_bind]
  dsimp only
  rw [show wr st.accept i (acceptTest R v w st.rng).1 = .ok (st.accept.set i (acceptTest R v w st.rng).1) from (Sat.wr hacc).elim fun x hx => by rw [hx.1, hx.2],
    val_bind]
  have hpl : i < st.prop.length := by
    by_contra h
    rw [List.getElem?_eq_none (by omega)] at hp
    cases hp
  unfold settle
  cases hb : (acceptTest R v w st.rng).1 with
  | true =>
    rw [if_pos rfl]
    obtain ⟨row, e1, hrow⟩ := Sat.rd hpl
    rw [hp] at hrow
    cases hrow
    show ∃ st', (rd st.prop i >>= _) = _ ∧ _
    rw [e1, val_bind]
    obtain ⟨s', e2, rfl⟩ := Sat.wr (a := some new) hs
    show ∃ st', (wr st.state (t * c.numChains + i) (some new) >>= _) = _ ∧ _
    rw [e2, val_bind]
    refine ⟨_, rfl, List.getElem?_set_self hs, hv, ?_, fun q hq => ⟨List.getElem?_set_ne (Ne.symm hq), rfl⟩⟩
    exact List.getElem?_set_self hacc
  | false =>
    rw [if_neg (by decide)]
    show ∃ st', (getRow c st.state (t - 1) i >>= _) = _ ∧ _
    rw [show getRow c st.state (t - 1) i = .ok old from rdU_sat ho, val_bind]
    obtain ⟨s', e2, rfl⟩ := Sat.wr (a := some old) hs
    show ∃ st', (wr st.state (t * c.numChains + i) (some old) >>= _) = _ ∧ _
    rw [e2, val_bind]
    show ∃ st', (getLik c st.lik (t - 1) i >>= _) = _ ∧ _
    rw [show getLik c st.lik (t - 1) i = .ok w from rdU_sat hw, val_bind]
    obtain ⟨l', e3, rfl⟩ := Sat.wr (a := some w) hlt
    show ∃ st', (wr st.lik (t * c.numChains + i) (some w) >>= _) = _ ∧ _
    rw [e3, val_bind]
    refine ⟨_, rfl, List.getElem?_set_self hs, List.getElem?_set_self hlt, ?_,
      fun q hq => ⟨List.getElem?_set_ne (Ne.symm hq), List.getElem?_set_ne (Ne.symm hq)⟩⟩
    exact List.getElem?_set_self hacc

/-- No chain is ever at a position whose likelihood is not a number, although the likelihood function may well be NaN elsewhere. -/
theorem C61_number (hL : CmpLaws α) (c : DreamCfg α) (hc : DreamOk c) (h2 : 2 ≤ c.numChains) (hm : 0 < c.maxEvals) (ha : c.append = false) (R : Rng σ α)
    (hR : Spec.GoodRng R) (G : Gsl α) (hG : Spec.GoodGsl G) (F : List α → α) (off : List α) (files : List (Option (List (ChainLine α)))) (fuel : Nat) (s : σ)
    (st : DreamSt σ α) (h : dream c R G F off files fuel s = .ok (st, .maxIterations)) (k i : Nat) (hk : k < c.maxEvals) (hi : i < c.numChains) :
    ∃ row v, st.state[k * c.numChains + i]? = some (some row) ∧ st.lik[k * c.numChains + i]? = some (some v) ∧ v = F row ∧ eqD v ninfty = false ∧
      fle v v = true := by
  obtain ⟨m, -, -, h3, h4⟩ := (dream_may hc h2 hR hG hL (closed_all c R) hm ha files fuel s).get h
  rcases h4 with ⟨-, e, -⟩ | h4
  · obtain ⟨row, hP, e1, e2⟩ := h3.hist _ (cellIdx_lt hi (show k < m by omega))
    exact ⟨row, F row, e1, e2, rfl, hP.2⟩
  · cases h4.1

end

end Imfit
