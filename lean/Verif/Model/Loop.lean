import Verif.Model.Res
import Mathlib.Data.List.Range

/-!
# Loops

`loopMap n f` is `for (z = 0; z < n; z++) out[z] = f(z)`.
`loopAcc n s f` is the same loop with an accumulator `s` updated in each turn.
`forN n s f` is a loop that only updates `s`.
A fault in any turn stops the loop with that fault.
-/

namespace Imfit

/-- `for (z = 0; z < n; z++) out[z] = f(z);` -/
def loopMap {β : Type} : Nat → (Nat → Res β) → Res (List β)
  | 0, _ => .ok []
  | n + 1, f => do
      let l ← loopMap n f
      let b ← f n
      pure (l ++ [b])

/-- `for (z = 0; z < n; z++) { out[z] = ..; s = ..; }` -/
def loopAcc {β σ : Type} : Nat → σ → (Nat → σ → Res (β × σ)) → Res (List β × σ)
  | 0, s, _ => .ok ([], s)
  | n + 1, s, f => do
      let p ← loopAcc n s f
      let q ← f n p.2
      pure (p.1 ++ [q.1], q.2)

/-- `for (z = 0; z < n; z++) s = f(z, s);` -/
def forN {σ : Type} : Nat → σ → (Nat → σ → Res σ) → Res σ
  | 0, s, _ => .ok s
  | n + 1, s, f => do
      let s' ← forN n s f
      f n s'

theorem loopMap_ok {β : Type} (n : Nat) (f : Nat → Res β) (g : Nat → β)
    (h : ∀ z, z < n → f z = .ok (g z)) : loopMap n f = .ok ((List.range n).map g) := by
  induction n with
  | zero => rfl
  | succ n ih =>
    have h1 := ih (fun z hz => h z (by omega))
    simp only [loopMap, h1, h n (by omega), List.range_succ, List.map_append]
    rfl

theorem loopAcc_ok {β σ : Type} (n : Nat) (s : σ) (f : Nat → σ → Res (β × σ))
    (g : Nat → β) (acc : Nat → σ) (h0 : acc 0 = s)
    (h : ∀ z, z < n → f z (acc z) = .ok (g z, acc (z + 1))) :
    loopAcc n s f = .ok ((List.range n).map g, acc n) := by
  induction n with
  | zero => simp [loopAcc, h0]
  | succ n ih =>
    have h1 := ih (fun z hz => h z (by omega))
    simp only [loopAcc, h1, List.range_succ, List.map_append]
    show (f n (acc n) >>= _) = _
    rw [h n (by omega)]; rfl

theorem forN_ok {σ : Type} (n : Nat) (s : σ) (f : Nat → σ → Res σ) (acc : Nat → σ)
    (h0 : acc 0 = s) (h : ∀ z, z < n → f z (acc z) = .ok (acc (z + 1))) :
    forN n s f = .ok (acc n) := by
  induction n with
  | zero => simp [forN, h0]
  | succ n ih =>
    have h1 := ih (fun z hz => h z (by omega))
    simp only [forN, h1]
    exact h n (by omega)

/-- Loop invariant rule. -/
theorem forN_inv {σ : Type} (n : Nat) (s s' : σ) (f : Nat → σ → Res σ) (I : Nat → σ → Prop)
    (h0 : I 0 s) (hstep : ∀ z t t', z < n → I z t → f z t = .ok t' → I (z + 1) t')
    (h : forN n s f = .ok s') : I n s' := by
  induction n generalizing s' with
  | zero => simp [forN] at h; subst h; exact h0
  | succ n ih =>
    simp only [forN] at h
    cases h1 : forN n s f with
    | error e => rw [h1] at h; cases h
    | ok t =>
      rw [h1] at h
      have hI := ih t (fun z a b hz => hstep z a b (by omega)) h1
      exact hstep n t s' (by omega) hI h

theorem loopMap_length {β : Type} {n : Nat} {f : Nat → Res β} {l : List β}
    (h : loopMap n f = .ok l) : l.length = n := by
  induction n generalizing l with
  | zero => simp [loopMap] at h; subst h; rfl
  | succ n ih =>
    simp only [loopMap] at h
    cases h1 : loopMap n f with
    | error e => rw [h1] at h; cases h
    | ok t =>
      rw [h1] at h
      cases h2 : f n with
      | error e => simp only [h2] at h; cases h
      | ok b =>
        simp only [h2] at h
        cases h
        simp [ih h1]

theorem rd_range_map {β : Type} {n z : Nat} (g : Nat → β) (h : z < n) :
    rd ((List.range n).map g) z = .ok (g z) := by
  rw [rd_ok (by simpa using h)]
  simp

/-- A list is the table of its own entries. -/
theorem eq_range_map_getD {β : Type} (l : List β) (d : β) :
    l = (List.range l.length).map (fun z => l.getD z d) := by
  apply List.ext_getElem
  · simp
  · intro i h1 h2
    simp [List.getD_eq_getElem?_getD, h1]

theorem rd_getD {β : Type} {l : List β} {z : Nat} (d : β) (h : z < l.length) :
    rd l z = .ok (l.getD z d) := by
  rw [rd_ok h]; simp [List.getD_eq_getElem?_getD, h]

end Imfit
