import Verif.Props.C58

/-!
# C64: the initial positions form a Latin hypercube

For each free parameter the interval between its limits is divided into as many equal parts as there are chains, and each part holds the initial value of exactly one
chain. In exact arithmetic, for a generator whose uniform numbers lie in `[0, 1)` and a likelihood that is a number at the positions.
-/

namespace Imfit

open XR

/-- `x` lies in part `k` of `n` equal parts of the interval from `a` to `b`. -/
def Spec.InPart (n : Nat) (a b : ℝ) (k : Nat) (x : ℝ) : Prop := a + k * ((b - a) / n) ≤ x ∧ x ≤ a + (k + 1) * ((b - a) / n) ∧ (a < b → x < a + (k + 1) * ((b - a) / n))

/-- What is asked of the value of parameter `j` of chain `i`. -/
def Strat (c : DreamCfg XR) (samples : List (List Nat)) (i j : Nat) (x : XR) : Prop :=
  ∀ a b, c.lock[j]? = some false → c.lo[j]? = some (fin a) → c.hi[j]? = some (fin b) →
    ∃ p k r, samples[j]? = some p ∧ p[i]? = some k ∧ x = fin r ∧ Spec.InPart c.numChains a b k r

section
variable {σ : Type}

theorem clamp_fin {a b x : ℝ} (h1 : a ≤ x) (h2 : x ≤ b) : clamp (fin a) (fin b) (fin x) = fin x := by
  unfold clamp
  rw [flt_fin, flt_fin, if_neg (by simpa using h1), if_neg (by simpa using h2)]

theorem initValue_strat {c : DreamCfg XR} (hc : DreamOk c) {R : Rng σ XR} (hu : ∀ s, ∃ u : ℝ, (R.unif s).1 = fin u ∧ 0 ≤ u ∧ u < 1) {samples : List (List Nat)}
    (hsm : samples.length = c.nvar) (hsl : ∀ p ∈ samples, p.Perm (List.range c.numChains)) {i j : Nat} (hi : i < c.numChains) (hj : j < c.nvar) (s : σ) :
    Sat (initValue c R samples i j s) fun r => Strat c samples i j r.1 := by
  unfold initValue
  refine Sat.bind (Sat.rd (by rw [hc.lock]; exact hj)) ?_
  intro l hl
  refine Sat.bind (Sat.rd (by rw [hc.lo]; exact hj)) ?_
  intro lo hlo
  refine Sat.bind (Sat.rd (by rw [hc.hi]; exact hj)) ?_
  intro hi' hhi
  cases l with
  | true =>
    rw [if_pos rfl]
    refine Sat.ok ?_
    intro a b h
    rw [hl] at h
    cases h
  | false =>
    rw [if_neg (by decide)]
    refine Sat.bind (Sat.rd (by rw [hsm]; exact hj)) ?_
    intro p hp
    have hperm := hsl p (List.mem_of_getElem? hp)
    have hpl : p.length = c.numChains := by rw [hperm.length_eq]; simp
    refine Sat.bind (Sat.rd (by rw [hpl]; exact hi)) ?_
    intro k hk
    have hkn : k < c.numChains := by
      have := hperm.subset (List.mem_of_getElem? hk)
      simpa using this
    refine Sat.ok ?_
    intro a b _ ha hb
    rw [hlo] at ha
    rw [hhi] at hb
    cases ha
    cases hb
    have hab : a ≤ b := by
      have := hc.ordered j _ _ hlo hhi
      rw [flt_fin] at this
      simpa using this
    obtain ⟨u, e, h0, h1⟩ := hu s
    have hn : (0 : ℝ) < c.numChains := by exact_mod_cast hc.chains
    have hval : fin a + lit (k : ℚ) * (fin b - fin a) / lit (c.numChains : ℚ) + (fin b - fin a) / lit (c.numChains : ℚ) * (R.unif s).1 =
        (fin (a + k * ((b - a) / c.numChains) + (b - a) / c.numChains * u) : XR) := by
      rw [e, lit_def, lit_def, fin_sub, fin_mul, fin_div_of_ne (by simpa using hn.ne'), fin_div_of_ne (by simpa using hn.ne'), fin_mul, fin_add, fin_add]
      congr 1
      simp only [Rat.cast_natCast]
      ring
    set w := (b - a) / c.numChains with hw
    have hw0 : 0 ≤ w := div_nonneg (by linarith) hn.le
    have hnw : c.numChains * w = b - a := by rw [hw]; field_simp
    have hk1 : ((k : ℝ) + 1) ≤ c.numChains := by exact_mod_cast hkn
    have hk0 : (0 : ℝ) ≤ k := Nat.cast_nonneg k
    have l1 : a + k * w ≤ a + k * w + w * u := by nlinarith
    have l2 : a + k * w + w * u ≤ a + (k + 1) * w := by nlinarith
    have l3 : a + (k + 1) * w ≤ b := by nlinarith
    have l0 : a ≤ a + k * w := by nlinarith
    refine ⟨p, k, a + k * w + w * u, hp, hk, ?_, l1, l2, ?_⟩
    · show clamp (fin a) (fin b) (_) = _
      rw [hval, clamp_fin (by linarith) (by linarith)]
    · intro hlt
      have : 0 < w := div_pos (by linarith) hn
      show a + k * w + w * u < a + (k + 1) * w
      nlinarith

theorem outside_pos {c : DreamCfg XR} (hc : DreamOk c) {V : XR → Prop} {row : List XR} (hP : Pos V c row) (all : Bool) : outside c all row = .ok false := by
  unfold outside
  rw [loopMap_ok c.nvar _ (fun _ => false) ?_, val_bind]
  · congr 1
    simp
  · intro j hj
    obtain ⟨l, e1, hl⟩ := Sat.rd (l := c.lock) (i := j) (by rw [hc.lock]; exact hj)
    obtain ⟨x, e2, hx⟩ := Sat.rd (l := row) (i := j) (by rw [hP.1]; exact hj)
    obtain ⟨a, e3, ha⟩ := Sat.rd (l := c.lo) (i := j) (by rw [hc.lo]; exact hj)
    obtain ⟨b, e4, hb⟩ := Sat.rd (l := c.hi) (i := j) (by rw [hc.hi]; exact hj)
    rw [e1, val_bind, e2, val_bind, e3, val_bind, e4, val_bind]
    obtain ⟨h1, h2, -⟩ := (hP.2 j x hx).2 l a b hl ha hb
    rw [h1, h2]
    simp

/-- Each part of each parameter's interval holds the initial value of exactly one chain: there is a list `p` of all the parts `0 ... n - 1` in some order, and the
value of chain `i` lies in part `p[i]`. -/
theorem C64_latin (c : DreamCfg XR) (hc : DreamOk c) (R : Rng σ XR) (hR : Spec.GoodRng R) (hu : ∀ s, ∃ u : ℝ, (R.unif s).1 = fin u ∧ 0 ≤ u ∧ u < 1)
    (F : List XR → XR) (hF : NumberLik F) (fuel : Nat) (s : σ) :
    ∃ rows s', dreamInit c R F (fuel + 1) s = .ok (rows, s') ∧ rows.length = c.numChains ∧
      ∀ (j : Nat) a b, c.lock[j]? = some false → c.lo[j]? = some (fin a) → c.hi[j]? = some (fin b) →
        ∃ p : List Nat, p.Perm (List.range c.numChains) ∧ ∀ (i : Nat) k, p[i]? = some k →
          ∃ row x, rows[i]? = some (row, F row) ∧ row[j]? = some (fin x) ∧ Spec.InPart c.numChains a b k x := by
  have hV : Closed (fun _ : XR => True) c R := by constructor <;> intros <;> trivial
  have hmain : Sat (dreamInit c R F (fuel + 1) s) fun r => ∃ samples : List (List Nat), samples.length = c.nvar ∧
      (∀ p ∈ samples, p.Perm (List.range c.numChains)) ∧ r.1.length = c.numChains ∧
      ∀ (i : Nat) x, r.1[i]? = some x → x.2 = F x.1 ∧ x.1.length = c.nvar ∧ ∀ (j : Nat) y, x.1[j]? = some y → Strat c samples i j y := by
    unfold dreamInit
    refine Sat.bind (samples_sat hR s) ?_
    rintro ⟨sm, s1⟩ ⟨hsm, hsl⟩
    have hsl' : ∀ p ∈ sm, p.length = c.numChains := fun p hp => by rw [(hsl p hp).length_eq]; simp
    have hrows : Sat (initRows c R sm s1) fun r => r.1.length = c.numChains ∧ ∀ (i : Nat) row, r.1[i]? = some row →
        Pos (fun _ => True) c row ∧ ∀ (j : Nat) y, row[j]? = some y → Strat c sm i j y := by
      unfold initRows
      refine (Sat.loopAcc (Q := fun i row => Pos (fun _ => True) c row ∧ ∀ (j : Nat) y, row[j]? = some y → Strat c sm i j y) (I := fun _ _ => True)
        trivial ?_).mono ?_
      · intro i s hi _
        refine (Sat.loopAcc (Q := fun j y => PosAt (fun _ => True) c j y ∧ Strat c sm i j y) (I := fun _ _ => True) trivial ?_).mono ?_
        · intro j s hj _
          obtain ⟨r, e1, h1⟩ := initValue_sat hc cmpLaws_XR hV hi hj hsm hsl' s
          obtain ⟨r', e2, h2⟩ := initValue_strat hc hu hsm hsl hi hj s
          rw [e1] at e2
          cases e2
          exact ⟨r, e1, ⟨h1, h2⟩, trivial⟩
        · rintro ⟨row, s⟩ ⟨⟨hl, hq⟩, -⟩
          exact ⟨⟨⟨hl, fun j x hx => (hq j x hx).1⟩, fun j y hy => (hq j y hy).2⟩, trivial⟩
      · rintro ⟨rows, s⟩ ⟨⟨hl, hq⟩, -⟩
        exact ⟨hl, hq⟩
    refine Sat.bind hrows ?_
    rintro ⟨rows, s2⟩ ⟨hrl, hr⟩
    refine (Sat.loopAcc (Q := fun i (x : List XR × XR) => x.2 = F x.1 ∧ x.1.length = c.nvar ∧ ∀ (j : Nat) y, x.1[j]? = some y → Strat c sm i j y)
      (I := fun _ _ => True) trivial ?_).mono ?_
    · rintro i ⟨s3, cl⟩ hi -
      refine Sat.bind (Sat.rd (l := rows) (by rw [hrl]; exact hi)) ?_
      intro row hrow
      obtain ⟨hP, hst⟩ := hr i row hrow
      have hfl : firstLik c F row = .ok (F row, [row]) := by
        unfold firstLik
        rw [outside_pos hc hP, val_bind]
        rfl
      rw [hfl, val_bind]
      have hrd : redraw c R F (fuel + 1) (row, F row, s3, [row] ++ cl) = .ok (row, F row, s3, [row] ++ cl) := by
        unfold redraw
        rw [if_neg (by simp [(hF row).1, (hF row).2])]
      rw [show redraw c R F (fuel + 1) (row, (F row, [row]).1, (s3, cl).1, (F row, [row]).2 ++ (s3, cl).2) = .ok (row, F row, s3, [row] ++ cl) from hrd, val_bind]
      exact Sat.ok ⟨⟨rfl, hP.1, hst⟩, trivial⟩
    · rintro ⟨l, s3⟩ ⟨⟨hl, hq⟩, -⟩
      exact ⟨sm, hsm, hsl, hl, hq⟩
  obtain ⟨⟨rows, s'⟩, e, samples, hsm, hsl, hl, hq⟩ := hmain
  refine ⟨rows, s', e, hl, ?_⟩
  intro j a b hlock hlo hhi
  have hj : j < c.nvar := by
    rw [← hc.lock]
    by_contra hcon
    rw [List.getElem?_eq_none (by omega)] at hlock
    cases hlock
  obtain ⟨p, hp⟩ : ∃ p, samples[j]? = some p := ⟨_, List.getElem?_eq_getElem (by omega)⟩
  have hperm := hsl p (List.mem_of_getElem? hp)
  refine ⟨p, hperm, ?_⟩
  intro i k hk
  have hi : i < rows.length := by
    rw [hl]
    have : p.length = c.numChains := by rw [hperm.length_eq]; simp
    rw [← this]
    by_contra hcon
    rw [List.getElem?_eq_none (by omega)] at hk
    cases hk
  obtain ⟨x, hx⟩ : ∃ x, rows[i]? = some x := ⟨_, List.getElem?_eq_getElem hi⟩
  obtain ⟨h1, h2, h3⟩ := hq i x hx
  obtain ⟨y, hy⟩ : ∃ y, x.1[j]? = some y := ⟨_, List.getElem?_eq_getElem (by omega)⟩
  obtain ⟨p', k', r, e1, e2, e3, e4⟩ := h3 j y hy a b hlock hlo hhi
  rw [hp] at e1
  cases e1
  rw [hk] at e2
  cases e2
  exact ⟨x.1, r, by rw [hx, ← h1], by rw [hy, e3], e4⟩

end

/-- The middle of the second of four parts of the interval from 10 to 18. -/
example : Spec.InPart 4 10 18 1 13 := by
  unfold Spec.InPart
  norm_num

end Imfit
