import Verif.Model.Loop

/-!
# Total correctness

`Sat x Q`: the call `x` returns a value and the value satisfies `Q`. Rules for sequences and loops.
-/

namespace Imfit

/-- The call returns normally and its value satisfies `Q`. -/
def Sat {β : Type} (x : Res β) (Q : β → Prop) : Prop := ∃ a, x = .ok a ∧ Q a

theorem val_bind {β γ : Type} (a : β) (f : β → Res γ) : (Except.ok a >>= f) = f a := rfl

namespace Sat

variable {β γ σ : Type}

theorem ok {Q : β → Prop} {a : β} (h : Q a) : Sat (.ok a) Q := ⟨a, rfl, h⟩

theorem mono {x : Res β} {Q Q' : β → Prop} (h : Sat x Q) (hq : ∀ a, Q a → Q' a) : Sat x Q' := by
  obtain ⟨a, h1, h2⟩ := h
  exact ⟨a, h1, hq a h2⟩

theorem bind {x : Res β} {f : β → Res γ} {Q : β → Prop} {Q' : γ → Prop} (h : Sat x Q) (hf : ∀ a, Q a → Sat (f a) Q') : Sat (x >>= f) Q' := by
  obtain ⟨a, rfl, h2⟩ := h
  exact hf a h2

theorem get {x : Res β} {Q : β → Prop} {a : β} (h : Sat x Q) (ha : x = .ok a) : Q a := by
  obtain ⟨b, h1, h2⟩ := h
  rw [h1] at ha
  cases ha
  exact h2

theorem rd {l : List β} {i : Nat} (h : i < l.length) : Sat (rd l i) fun a => l[i]? = some a := by
  rw [rd_ok h]
  exact ok (by simp [h])

theorem wr {l : List β} {i : Nat} {a : β} (h : i < l.length) : Sat (wr l i a) fun l' => l' = l.set i a := by
  rw [wr_ok h]
  exact ok rfl

theorem loopMap {n : Nat} {f : Nat → Res β} {Q : Nat → β → Prop} (h : ∀ z, z < n → Sat (f z) (Q z)) :
    Sat (loopMap n f) fun l => l.length = n ∧ ∀ z a, l[z]? = some a → Q z a := by
  induction n with
  | zero => exact ok ⟨rfl, by simp⟩
  | succ n ih =>
    unfold Imfit.loopMap
    refine bind (ih fun z hz => h z (by omega)) ?_
    rintro l ⟨hl, hq⟩
    refine bind (h n (by omega)) ?_
    intro b hb
    refine ok ⟨by simp [hl], ?_⟩
    intro z a hz
    by_cases hzn : z < l.length
    · rw [List.getElem?_append_left hzn] at hz
      exact hq z a hz
    · rw [List.getElem?_append_right (by omega)] at hz
      rcases Nat.lt_or_ge 0 (z - l.length) with h1 | h1
      · rw [List.getElem?_eq_none (by simp; omega)] at hz
        cases hz
      · have : z = n := by omega
        subst this
        have h0 : z - l.length = 0 := by omega
        rw [h0] at hz
        simp at hz
        exact hz ▸ hb

theorem loopAcc {n : Nat} {s : σ} {f : Nat → σ → Res (β × σ)} {Q : Nat → β → Prop} {I : Nat → σ → Prop} (h0 : I 0 s)
    (h : ∀ z s, z < n → I z s → Sat (f z s) fun r => Q z r.1 ∧ I (z + 1) r.2) :
    Sat (loopAcc n s f) fun r => (r.1.length = n ∧ ∀ z a, r.1[z]? = some a → Q z a) ∧ I n r.2 := by
  induction n with
  | zero => exact ok ⟨⟨rfl, by simp⟩, h0⟩
  | succ n ih =>
    unfold Imfit.loopAcc
    refine bind (ih fun z s hz => h z s (by omega)) ?_
    rintro ⟨l, s1⟩ ⟨⟨hl, hq⟩, hi⟩
    refine bind (h n s1 (by omega) hi) ?_
    rintro ⟨b, s2⟩ ⟨hb, hi2⟩
    refine ok ⟨⟨by simpa using hl, ?_⟩, hi2⟩
    intro z a hz
    by_cases hzn : z < l.length
    · have hz' : (l ++ [b])[z]? = some a := hz
      rw [List.getElem?_append_left hzn] at hz'
      exact hq z a hz'
    · have hz' : (l ++ [b])[z]? = some a := hz
      rw [List.getElem?_append_right (by omega)] at hz'
      rcases Nat.lt_or_ge 0 (z - l.length) with h1 | h1
      · rw [List.getElem?_eq_none (by simp; omega)] at hz'
        cases hz'
      · have hl' : l.length = n := hl
        have : z = n := by omega
        subst this
        have h0 : z - l.length = 0 := by omega
        rw [h0] at hz'
        simp at hz'
        exact hz' ▸ hb

theorem forN {n : Nat} {s : σ} {f : Nat → σ → Res σ} {I : Nat → σ → Prop} (h0 : I 0 s)
    (h : ∀ z s, z < n → I z s → Sat (f z s) (I (z + 1))) : Sat (forN n s f) (I n) := by
  induction n with
  | zero => exact ok h0
  | succ n ih =>
    unfold Imfit.forN
    exact bind (ih fun z s hz => h z s (by omega)) fun s1 hi => h n s1 (by omega) hi

theorem foldlM {l : List β} {f : σ → β → Res σ} {I : σ → Prop} (s : σ) (h0 : I s) (h : ∀ s b, b ∈ l → I s → Sat (f s b) I) :
    Sat (l.foldlM f s) I := by
  induction l generalizing s with
  | nil => exact ok h0
  | cons b l ih =>
    rw [List.foldlM_cons]
    exact bind (h s b (by simp) h0) fun s1 hi => ih s1 hi fun s b hb => h s b (by simp [hb])

end Sat

/-- The call returns a value that satisfies `Q`, or does not end. -/
def May {β : Type} (x : Res β) (Q : β → Prop) : Prop := x = .error .diverge ∨ Sat x Q

namespace May

variable {β γ σ : Type}

theorem sat {x : Res β} {Q : β → Prop} (h : Sat x Q) : May x Q := Or.inr h

theorem mono {x : Res β} {Q Q' : β → Prop} (h : May x Q) (hq : ∀ a, Q a → Q' a) : May x Q' := h.imp_right fun h => h.mono hq

theorem bind {x : Res β} {f : β → Res γ} {Q : β → Prop} {Q' : γ → Prop} (h : May x Q) (hf : ∀ a, Q a → May (f a) Q') : May (x >>= f) Q' := by
  rcases h with rfl | ⟨a, rfl, h2⟩
  · exact Or.inl rfl
  · exact hf a h2

theorem loopAcc {n : Nat} {s : σ} {f : Nat → σ → Res (β × σ)} {Q : Nat → β → Prop} {I : Nat → σ → Prop} (h0 : I 0 s)
    (h : ∀ z s, z < n → I z s → May (f z s) fun r => Q z r.1 ∧ I (z + 1) r.2) :
    May (loopAcc n s f) fun r => (r.1.length = n ∧ ∀ z a, r.1[z]? = some a → Q z a) ∧ I n r.2 := by
  induction n with
  | zero => exact sat (Sat.ok ⟨⟨rfl, by simp⟩, h0⟩)
  | succ n ih =>
    unfold Imfit.loopAcc
    refine bind (ih fun z s hz => h z s (by omega)) ?_
    rintro ⟨l, s1⟩ ⟨⟨hl, hq⟩, hi⟩
    refine bind (h n s1 (by omega) hi) ?_
    rintro ⟨b, s2⟩ ⟨hb, hi2⟩
    refine sat (Sat.ok ⟨⟨by simpa using hl, ?_⟩, hi2⟩)
    intro z a hz
    have hz' : (l ++ [b])[z]? = some a := hz
    have hl' : l.length = n := hl
    by_cases hzn : z < l.length
    · rw [List.getElem?_append_left hzn] at hz'
      exact hq z a hz'
    · rw [List.getElem?_append_right (by omega)] at hz'
      rcases Nat.lt_or_ge 0 (z - l.length) with h1 | h1
      · rw [List.getElem?_eq_none (by simp; omega)] at hz'
        cases hz'
      · have : z = n := by omega
        subst this
        have h0 : z - l.length = 0 := by omega
        rw [h0] at hz'
        simp at hz'
        exact hz' ▸ hb

theorem error {x : Res β} {Q : β → Prop} {e : Fault} (h : May x Q) (he : x = .error e) : e = .diverge := by
  rcases h with h | ⟨a, h, -⟩
  · rw [h] at he
    cases he
    rfl
  · rw [h] at he
    cases he

theorem get {x : Res β} {Q : β → Prop} {a : β} (h : May x Q) (ha : x = .ok a) : Q a := by
  rcases h with h | h
  · rw [h] at ha
    cases ha
  · exact h.get ha

end May

end Imfit
