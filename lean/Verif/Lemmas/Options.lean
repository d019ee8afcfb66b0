import Verif.Spec.Options
import Verif.Props.C35
import Verif.Props.C36
import Mathlib.Tactic.IntervalCases

/-!
# Options: lemmas
-/

namespace Imfit

open Spec

variable {α σ : Type}

/-! ## Numbers -/

theorem notANumber_digit (k : NumKind) (hk : k ≠ .posInt) (c : Char) (s : Str) (h : c.isDigit = true) : notANumber k (c :: s) = false := by
  have h1 : c ≠ '-' := digit_ne h (by decide)
  have h2 : c ≠ '.' := digit_ne h (by decide)
  cases k <;> simp_all [notANumber]

theorem notANumber_unsigned (t : Str) (h : IsUnsigned t) : notANumber .posReal t = false ∧ notANumber .anyReal t = false := by
  obtain ⟨a, b, e, rfl, ha, hb, -⟩ := h
  cases a with
  | cons c a => exact ⟨notANumber_digit _ (by decide) _ _ (ha c (by simp)), notANumber_digit _ (by decide) _ _ (ha c (by simp))⟩
  | nil =>
    rcases hb with ⟨-, hb⟩ | ⟨d, rfl, hd, hb⟩
    · exact absurd rfl hb
    · cases d with
      | nil => simp at hb
      | cons c d =>
        have := notANumber_digit .anyInt (by decide) c (d ++ e) (hd c (by simp))
        have hne : ¬ ('.' = '-') := by decide
        rw [List.nil_append, List.cons_append, List.cons_append]
        constructor
        · rw [notANumber, if_neg hne, if_pos rfl, this]
        · rw [notANumber, if_neg hne, if_pos rfl, this]

theorem notANumber_real (t : Str) (h : IsReal t) : notANumber .anyReal t = false := by
  rcases h with h | ⟨u, rfl, h⟩
  · exact (notANumber_unsigned t h).2
  · simp only [notANumber, if_true, (notANumber_unsigned u h).2]

theorem wholeVal_repr (n : Nat) : wholeVal (Nat.repr n).toList = n := by
  rw [wholeVal, Nat.toList_repr, Nat.ofDigitChars_toDigits (by decide) (by decide)]

theorem atol_repr (n : Nat) (h : n ≤ 9223372036854775807) : atol (Nat.repr n).toList = .ok n := by
  have hdig := repr_digit n
  have hval : digitsVal 0 (Nat.repr n).toList = n := by
    rw [digitsVal_eq, Nat.toList_repr]; exact Nat.ofDigitChars_toDigits (by decide) (by decide)
  cases hs : (Nat.repr n).toList with
  | nil => exact absurd hs (repr_ne_nil n)
  | cons c cs =>
    rw [hs] at hdig hval
    have hc := hdig c (by simp)
    have h1 : isSpaceC c = false := by
      simp only [Char.isDigit, Bool.and_eq_true, decide_eq_true_eq] at hc
      have h48 : 48 ≤ c.toNat := hc.1
      simp only [isSpaceC, Bool.or_eq_false_iff, Bool.and_eq_false_iff, decide_eq_false_iff_not]
      constructor
      · have : c ≠ ' ' := digit_ne (hdig c (by simp)) (by decide)
        simpa using this
      · right; omega
    have h2 : signSplit (c :: cs) = (false, c :: cs) := by
      have e1 : c ≠ '-' := digit_ne hc (by decide)
      have e2 : c ≠ '+' := digit_ne hc (by decide)
      unfold signSplit
      split
      · rename_i heq; exact absurd (List.cons.inj heq).1 e1
      · rename_i heq; exact absurd (List.cons.inj heq).1 e2
      · rfl
    have h3 : (c :: cs).takeWhile Char.isDigit = c :: cs := List.takeWhile_eq_self_iff.2 (by simpa using hdig)
    have h4 : (c :: cs).dropWhile isSpaceC = c :: cs := by simp [h1]
    simp only [atol, h4, h2, h3, hval, Bool.false_eq_true, if_false]
    rw [if_pos ⟨by omega, by omega⟩]

theorem toDigits_head (n : Nat) (h : 1 ≤ n) : (Nat.toDigits 10 n).head? ≠ some '0' := by
  induction n using Nat.strongRecOn with
  | ind n ih =>
    rw [Nat.toDigits_eq_if (by decide)]
    split
    · rename_i hl
      have : ∀ m : Fin 10, 1 ≤ m.1 → Nat.digitChar m.1 ≠ '0' := by decide
      simpa using this ⟨n, hl⟩ h
    · rename_i hl
      have := ih (n / 10) (by omega) (by omega)
      rw [List.head?_append_of_ne_nil _ Nat.toDigits_ne_nil]
      exact this

theorem repr_first (n : Nat) (h : 1 ≤ n) : notANumber .posInt (Nat.repr n).toList = false := by
  cases hs : (Nat.repr n).toList with
  | nil => exact absurd hs (repr_ne_nil n)
  | cons c cs =>
    have hc := repr_digit n c (by simp [hs])
    have h0 : c ≠ '0' := by
      rintro rfl
      rw [Nat.toList_repr] at hs
      exact toDigits_head n h (by simp [hs])
    simp [notANumber, hc, h0]

theorem longToInt_id (z : Int) (h1 : -2147483648 ≤ z) (h2 : z ≤ 2147483647) : longToInt z = z := by
  unfold longToInt
  rw [Int.bmod_eq_of_le] <;> omega

theorem asInt_whole (set : Int → σ → σ) (t : Str) (h : IsWhole 2147483647 t) : asInt .posInt set t = .ok (set (wholeVal t)) := by
  obtain ⟨n, h1, h2, rfl⟩ := h
  simp only [asInt, repr_first n h1, Bool.false_eq_true, if_false, atoi_repr n h2, ok_bind, wholeVal_repr]

theorem asLong_whole (set : Int → σ → σ) (t : Str) (h : IsWhole 9223372036854775807 t) : asLong .posInt set t = .ok (set (wholeVal t)) := by
  obtain ⟨n, h1, h2, rfl⟩ := h
  simp only [asLong, repr_first n h1, Bool.false_eq_true, if_false, atol_repr n h2, ok_bind, wholeVal_repr]

theorem whole_bounds {m : Nat} {t : Str} (h : IsWhole m t) : 1 ≤ wholeVal t ∧ wholeVal t ≤ m := by
  obtain ⟨n, h1, h2, rfl⟩ := h
  rw [wholeVal_repr]
  omega

theorem isWhole_mono {m k : Nat} {t : Str} (hk : m ≤ k) (h : IsWhole m t) : IsWhole k t := by
  obtain ⟨n, h1, h2, h3⟩ := h
  exact ⟨n, h1, h2.trans hk, h3⟩

theorem readScales_whole (ts : List Str) (h : ∀ t ∈ ts, IsWhole 2147483647 t) : readScales ts = .ok (ts.map wholeVal) := by
  induction ts with
  | nil => rfl
  | cons t ts ih =>
    obtain ⟨n, h1, h2, rfl⟩ := h t (by simp)
    simp only [readScales, repr_first n h1, Bool.false_eq_true, if_false, atoi_repr n h2, ok_bind, ih fun t ht => h t (by simp [ht]), List.map_cons, wholeVal_repr]

/-! ## What the parser tells -/

/-- The parser reports what is given. -/
structure Reports (ds : List Decl) (p : CLine) (g : CmdGiven) : Prop where
  flag : ∀ n, (owner ds n).isSome → p.flagSet n = .ok (g.flag n)
  set : ∀ n, (owner ds n).isSome → p.optionSet n = .ok (!(g.values n).isEmpty)
  count : ∀ n, (owner ds n).isSome → p.nTargets n = .ok (g.values n).length
  target : ∀ n, (owner ds n).isSome → ∀ j (h : j < (g.values n).length), p.target n j = .ok (some (g.values n)[j])
  args : p.args = g.args

theorem cmd_reports (ds : List Decl) (prog : Str) (as : List Str) (hp : ∀ a ∈ as, Plain a) :
    (meaning ds true none as = none → ∃ q, parseCommandLine (parser ds true) (prog :: as) = .ok (-1, q)) ∧
    ∀ es, meaning ds true none as = some es →
      ∃ q, parseCommandLine (parser ds true) (prog :: as) = .ok (0, q) ∧ q.empty = as.isEmpty ∧ Reports ds q (cmdGiven ds es) := by
  obtain ⟨r, q, e1, e2, e3, e4⟩ := C36_partial ds true prog as hp
  constructor
  · intro h
    rw [e3 h] at e1
    exact ⟨q, e1⟩
  · intro es h
    obtain ⟨h0, h1, h2⟩ := e4 es h
    subst h0
    refine ⟨q, e1, e2, ?_, ?_, ?_, ?_, h2⟩
    all_goals
      intro n hn
      obtain ⟨i, hi⟩ := Option.isSome_iff_exists.1 hn
      obtain ⟨g1, g2, g3, g4⟩ := h1 n i hi
    · rw [g1]; simp [cmdGiven, hi]
    · rw [g2]; simp [cmdGiven, hi]
    · rw [g3]; simp [cmdGiven, hi]
    · intro j hj
      have hv : (cmdGiven ds es).values n = valuesOf i es := by simp [cmdGiven, hi]
      rw [hv] at hj
      rw [g4 j hj]
      simp [hv]

theorem onFlag_eq {ds : List Decl} {p : CLine} {g : CmdGiven} (v : Reports ds p g) (n : String) (hn : (owner ds n.toList).isSome) (f : σ → σ) (o : σ) :
    onFlag p n.toList f o = .ok (bif g.has n then f o else o) := by
  unfold onFlag
  rw [v.flag _ hn, ok_bind]
  cases h : g.has n <;> simp [CmdGiven.has] at h <;> simp [h]

theorem exitFlag_eq {ds : List Decl} {p : CLine} {g : CmdGiven} (v : Reports ds p g) (n : String) (hn : (owner ds n.toList).isSome) (o : σ) :
    exitFlag p n.toList o = if g.has n then .error .exit else .ok o := by
  unfold exitFlag
  rw [v.flag _ hn, ok_bind]
  rfl

theorem onOption_eq {ds : List Decl} {p : CLine} {g : CmdGiven} (v : Reports ds p g) (n : String) (hn : (owner ds n.toList).isSome)
    (f : Str → Res (σ → σ)) (o : σ) :
    onOption p n.toList f o = match g.first n with
      | none => .ok o
      | some t => f t >>= fun u => .ok (u o) := by
  unfold onOption
  rw [v.set _ hn, ok_bind]
  cases h : g.values n.toList with
  | nil => simp [CmdGiven.first, h]
  | cons t ts =>
    have := v.target _ hn 0 (by simp [h])
    simp only [h, List.getElem_cons_zero] at this
    simp only [CmdGiven.first, h, List.head?_cons, List.isEmpty_cons, Bool.not_false, if_true, firstTarget, this, ok_bind, pure_eq_ok, Option.getD_some]

theorem allTargets_eq {ds : List Decl} {p : CLine} {g : CmdGiven} (v : Reports ds p g) (n : String) (hn : (owner ds n.toList).isSome) :
    allTargets p n.toList = .ok (g.every n) := by
  unfold allTargets
  rw [v.count _ hn, ok_bind, loopMap_ok _ _ fun i => ((g.values n.toList)[i]?).getD []]
  · congr 1
    refine List.ext_getElem (by simp [CmdGiven.every]) fun i h1 h2 => ?_
    simp only [List.length_map, List.length_range] at h1
    simp [CmdGiven.every, h1]
  · intro i hi
    rw [v.target _ hn i hi]
    simp [ok_bind, pure_eq_ok, hi]

theorem onQueue_eq {ds : List Decl} {p : CLine} {g : CmdGiven} (v : Reports ds p g) (n : String) (hn : (owner ds n.toList).isSome)
    (f : List Str → Res (σ → σ)) (o : σ) :
    onQueue p n.toList f o = if g.every n = [] then .ok o else f (g.every n) >>= fun u => .ok (u o) := by
  unfold onQueue
  rw [v.set _ hn, ok_bind, allTargets_eq v n hn]
  cases h : g.values n.toList <;> simp [CmdGiven.every, h, ok_bind]

/-! ## Runs of steps -/

theorem steps_ok (ss : List (σ → Res (σ))) (us : List (σ → σ)) (h : List.Forall₂ (fun s u => ∀ o, s o = .ok (u o)) ss us)
    (o : σ) : ss.foldlM (fun o s => s o) o = .ok (us.foldl (fun o u => u o) o) := by
  induction h generalizing o with
  | nil => rfl
  | cons h _ ih =>
    rw [List.foldlM_cons, h, ok_bind, ih]
    rfl

theorem steps_error (ss : List (σ → Res (σ))) (s : σ → Res (σ)) (hs : s ∈ ss) (h : ∀ o r, s o ≠ .ok r) (o r : σ) :
    ss.foldlM (fun o s => s o) o ≠ .ok r := by
  induction ss generalizing o with
  | nil => simp at hs
  | cons a ss ih =>
    rw [List.foldlM_cons]
    intro e
    cases ha : a o with
    | error f => rw [ha] at e; cases e
    | ok o' =>
      rw [ha, ok_bind] at e
      rcases List.mem_cons.1 hs with rfl | hs
      · exact h _ _ ha
      · exact ih hs _ e

/-! ## Updates -/

theorem onFlag_upd {ds : List Decl} {p : CLine} {g : CmdGiven} (v : Reports ds p g) (n : String) (f u : σ → σ) (hn : (owner ds n.toList).isSome)
    (h : ∀ o, (bif g.has n then f o else o) = u o) (o : σ) : onFlag p n.toList f o = .ok (u o) := by rw [onFlag_eq v n hn, h]

theorem exitFlag_upd {ds : List Decl} {p : CLine} {g : CmdGiven} (v : Reports ds p g) (n : String) (hn : (owner ds n.toList).isSome) (h : g.has n = false) (o : σ) :
    exitFlag p n.toList o = .ok (id o) := by rw [exitFlag_eq v n hn, h]; rfl

/-- An option whose value is always accepted. -/
theorem onOption_upd {ds : List Decl} {p : CLine} {g : CmdGiven} (v : Reports ds p g) (n : String) (f : Str → Res (σ → σ)) (k : Str → σ → σ)
    (u : σ → σ) (hn : (owner ds n.toList).isSome) (hf : ∀ t ∈ g.first n, f t = .ok (k t))
    (h : ∀ o, ((g.first n).map fun t => k t o).getD o = u o) (o : σ) : onOption p n.toList f o = .ok (u o) := by
  rw [onOption_eq v n hn, ← h]
  cases hg : g.first n with
  | none => rfl
  | some t => simp only [hf t (by simp [hg]), ok_bind]; rfl

theorem onQueue_upd {ds : List Decl} {p : CLine} {g : CmdGiven} (v : Reports ds p g) (n : String) (f : List Str → Res (σ → σ)) (k : List Str → σ → σ)
    (u : σ → σ) (hn : (owner ds n.toList).isSome) (hf : f (g.every n) = .ok (k (g.every n)))
    (h : ∀ o, (if g.every n = [] then o else k (g.every n) o) = u o) (o : σ) : onQueue p n.toList f o = .ok (u o) := by
  rw [onQueue_eq v n hn, ← h]
  split
  · rfl
  · rw [hf, ok_bind]

macro "owned" : tactic => `(tactic| decide +kernel)

/-- The program goes on, or ends with a message, or an integer is too large. -/
def Orderly {β : Type} (r : Res β) : Prop := (∃ o, r = .ok o) ∨ r = .error .exit ∨ r = .error .overflow

theorem steps_orderly (ss : List (σ → Res (σ))) (h : ∀ s ∈ ss, ∀ o, Orderly (s o)) (o : σ) : Orderly (ss.foldlM (fun o s => s o) o) := by
  induction ss generalizing o with
  | nil => exact .inl ⟨o, rfl⟩
  | cons s ss ih =>
    rw [List.foldlM_cons]
    rcases h s (by simp) o with ⟨r, hr⟩ | hr | hr
    · rw [hr, ok_bind]; exact ih (fun s hs => h s (by simp [hs])) r
    · rw [hr]; exact .inr (.inl rfl)
    · rw [hr]; exact .inr (.inr rfl)

theorem orderly_bind {β γ : Type} (r : Res β) (f : β → γ) (h : Orderly r) : Orderly (r >>= fun b => .ok (f b)) := by
  rcases h with ⟨b, rfl⟩ | rfl | rfl
  · exact .inl ⟨f b, rfl⟩
  · exact .inr (.inl rfl)
  · exact .inr (.inr rfl)

theorem atol_total (s : Str) : (∃ z, atol s = .ok z) ∨ atol s = .error .overflow := by
  unfold atol
  dsimp only
  by_cases h : -9223372036854775808 ≤ (if (signSplit (s.dropWhile isSpaceC)).1 then -(digitsVal 0 ((signSplit (s.dropWhile isSpaceC)).2.takeWhile Char.isDigit) : Int)
      else (digitsVal 0 ((signSplit (s.dropWhile isSpaceC)).2.takeWhile Char.isDigit) : Int)) ∧
      (if (signSplit (s.dropWhile isSpaceC)).1 then -(digitsVal 0 ((signSplit (s.dropWhile isSpaceC)).2.takeWhile Char.isDigit) : Int)
      else (digitsVal 0 ((signSplit (s.dropWhile isSpaceC)).2.takeWhile Char.isDigit) : Int)) ≤ 9223372036854775807
  · exact .inl ⟨_, if_pos h⟩
  · exact .inr (if_neg h)

theorem asReal_orderly (num : Str → α) (k : NumKind) (set : α → σ → σ) (t : Str) : Orderly (asReal num k set t) := by
  unfold asReal
  split
  · exact .inr (.inl rfl)
  · exact .inl ⟨_, rfl⟩

theorem asInt_orderly (k : NumKind) (set : Int → σ → σ) (t : Str) : Orderly (asInt k set t) := by
  unfold asInt
  split
  · exact .inr (.inl rfl)
  · exact orderly_bind _ set ((atoi_total t).elim .inl fun h => .inr (.inr h))

theorem asLong_orderly (k : NumKind) (set : Int → σ → σ) (t : Str) : Orderly (asLong k set t) := by
  unfold asLong
  split
  · exact .inr (.inl rfl)
  · exact orderly_bind _ set ((atol_total t).elim .inl fun h => .inr (.inr h))

theorem readScales_orderly (ts : List Str) : Orderly (readScales ts) := by
  induction ts with
  | nil => exact .inl ⟨[], rfl⟩
  | cons t ts ih =>
    unfold readScales
    split
    · exact .inr (.inl rfl)
    · rcases atoi_total t with ⟨z, hz⟩ | hz
      · rw [hz, ok_bind]; exact orderly_bind _ (z :: ·) ih
      · rw [hz]; exact .inr (.inr rfl)

section
variable {ds : List Decl} {p : CLine} {g : CmdGiven} (v : Reports ds p g)
include v

theorem onFlag_orderly (n : String) (f : σ → σ) (hn : (owner ds n.toList).isSome) (o : σ) : Orderly (onFlag p n.toList f o) :=
  .inl ⟨_, onFlag_eq v n hn f o⟩

theorem exitFlag_orderly (n : String) (hn : (owner ds n.toList).isSome) (o : σ) : Orderly (exitFlag p n.toList o) := by
  rw [exitFlag_eq v n hn]
  split
  · exact .inr (.inl rfl)
  · exact .inl ⟨_, rfl⟩

theorem onOption_orderly (n : String) (f : Str → Res (σ → σ)) (hn : (owner ds n.toList).isSome) (hf : ∀ t, Orderly (f t)) (o : σ) :
    Orderly (onOption p n.toList f o) := by
  rw [onOption_eq v n hn]
  cases g.first n with
  | none => exact .inl ⟨_, rfl⟩
  | some t => exact orderly_bind _ (fun u => u o) (hf t)

theorem onQueue_orderly (n : String) (f : List Str → Res (σ → σ)) (hn : (owner ds n.toList).isSome) (hf : ∀ t, Orderly (f t)) (o : σ) :
    Orderly (onQueue p n.toList f o) := by
  rw [onQueue_eq v n hn]
  split
  · exact .inl ⟨_, rfl⟩
  · exact orderly_bind _ (fun u => u o) (hf _)

end

theorem digit_mem {c : Char} (h : c.isDigit = true) : c ∈ "0123456789".toList := by
  simp only [Char.isDigit, Bool.and_eq_true, decide_eq_true_eq] at h
  have h1 : 48 ≤ c.toNat := h.1
  have h2 : c.toNat ≤ 57 := h.2
  have h3 : c = Char.ofNat c.toNat := (Char.ofNat_toNat c).symm
  generalize c.toNat = k at h1 h2 h3
  subst h3
  interval_cases k <;> decide

theorem notPosInt (t : Str) (h : ¬ ∃ c s, t = c :: s ∧ c ∈ "123456789".toList) : notANumber .posInt t = true := by
  cases t with
  | nil => rfl
  | cons c s =>
    by_contra hc
    simp only [notANumber, Bool.not_eq_true, Bool.not_eq_false', Bool.and_eq_true, bne_iff_ne] at hc
    have := digit_mem hc.1
    rw [show "0123456789".toList = '0' :: "123456789".toList from by decide, List.mem_cons] at this
    exact h ⟨c, s, rfl, this.resolve_left hc.2⟩

theorem notPosReal (t : Str) (h : ¬ ∃ c s, t = c :: s ∧ (c = '.' ∨ c ∈ "0123456789".toList)) : notANumber .posReal t = true := by
  cases t with
  | nil => rfl
  | cons c s =>
    rw [notANumber]
    split
    · rfl
    · split
      · rename_i hc; exact absurd ⟨c, s, rfl, .inl hc⟩ h
      · by_contra hc
        exact h ⟨c, s, rfl, .inr (digit_mem (by simpa using hc))⟩

theorem notAnyReal (t : Str) (h : ¬ ∃ c s, t = c :: s ∧ (c = '.' ∨ c = '-' ∨ c ∈ "0123456789".toList)) : notANumber .anyReal t = true := by
  cases t with
  | nil => rfl
  | cons c s =>
    rw [notANumber]
    split
    · rename_i hc; exact absurd ⟨c, s, rfl, .inr (.inl hc)⟩ h
    · split
      · rename_i hc; exact absurd ⟨c, s, rfl, .inl hc⟩ h
      · by_contra hc
        exact h ⟨c, s, rfl, .inr (.inr (digit_mem (by simpa using hc)))⟩

theorem readScales_bad (ts : List Str) (t : Str) (ht : t ∈ ts) (h : notANumber .posInt t = true) (zs : List Int) : readScales ts ≠ .ok zs := by
  induction ts generalizing zs with
  | nil => simp at ht
  | cons a ts ih =>
    intro e
    rw [readScales] at e
    split at e
    · cases e
    · rename_i ha
      rcases List.mem_cons.1 ht with rfl | ht
      · exact ha h
      · cases hz : atoi a with
        | error f => rw [hz] at e; cases e
        | ok z =>
          rw [hz, ok_bind] at e
          cases hr : readScales ts with
          | error f => rw [hr] at e; cases e
          | ok r => exact ih ht r hr

theorem onOption_bad {ds : List Decl} {p : CLine} {g : CmdGiven} (v : Reports ds p g) (n : String) (f : Str → Res (σ → σ)) (hn : (owner ds n.toList).isSome)
    (t : Str) (ht : t ∈ g.first n) (hf : ∀ r, f t ≠ .ok r) (o r : σ) : onOption p n.toList f o ≠ .ok r := by
  rw [onOption_eq v n hn, Option.mem_def.1 ht]
  intro e
  dsimp only at e
  cases hr : f t with
  | error x => rw [hr] at e; cases e
  | ok u => exact hf u hr

theorem step_bad (ss : List (σ → Res (σ))) (k : Nat) (s : σ → Res (σ)) (hs : ss[k]? = some s) (h : ∀ o r, s o ≠ .ok r)
    (o r : σ) : ss.foldlM (fun o s => s o) o ≠ .ok r := steps_error ss s (List.mem_of_getElem? hs) h o r

end Imfit
