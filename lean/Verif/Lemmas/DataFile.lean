import Verif.Model.ReadProfile
import Verif.Spec.DataFile
import Verif.Lemmas.Text
import Verif.Lemmas.BootErr

/-!
# Lemmas about reading files with columns
-/

namespace Imfit

open Spec

variable {α σ : Type}

theorem fileLines_nl (s : Str) : fileLines ('\n' :: s) = [] :: fileLines s := by simp [fileLines]

theorem takeLine_cons {t l : Str} {ls : List Str} (h : fileLines t = l :: ls) {n : Nat} (hn : l.length < n) :
    (∃ t', t = l ++ '\n' :: t' ∧ fileLines t' = ls ∧ takeLine n t = (l ++ ['\n'], t', false)) ∨ (t = l ∧ ls = [] ∧ l ≠ [] ∧ takeLine n t = (l, [], true)) := by
  induction t generalizing l ls n with
  | nil => simp [fileLines] at h
  | cons c s ih =>
    obtain ⟨n, rfl⟩ : ∃ k, n = k + 1 := ⟨n - 1, by omega⟩
    by_cases hc : c = '\n'
    · subst hc
      rw [fileLines_nl] at h
      obtain ⟨rfl, rfl⟩ := List.cons.inj h
      exact Or.inl ⟨s, rfl, rfl, by simp [takeLine]⟩
    · unfold fileLines at h
      rw [if_neg hc] at h
      cases hs : fileLines s with
      | nil =>
        rw [hs] at h
        obtain ⟨rfl, rfl⟩ := List.cons.inj h
        have hs' : s = [] := by
          cases s with
          | nil => rfl
          | cons d s =>
            unfold fileLines at hs
            split at hs
            · cases hs
            · split at hs <;> cases hs
        subst hs'
        refine Or.inr ⟨rfl, rfl, by simp, ?_⟩
        simp only [List.length_singleton] at hn
        obtain ⟨m, rfl⟩ : ∃ k, n = k + 1 := ⟨n - 1, by omega⟩
        simp [takeLine, hc]
      | cons l' ls' =>
        rw [hs] at h
        obtain ⟨rfl, rfl⟩ := List.cons.inj h
        simp only [List.length_cons] at hn
        rcases ih hs (show l'.length < n by omega) with ⟨t', h1, h2, h3⟩ | ⟨h1, h2, h3, h4⟩
        · refine Or.inl ⟨t', by rw [h1]; rfl, h2, ?_⟩
          simp [takeLine, hc, h3]
        · refine Or.inr ⟨by rw [h1], h2, by simp, ?_⟩
          simp [takeLine, hc, h4]

theorem fileLines_eq_nil {t : Str} (h : fileLines t = []) : t = [] := by
  cases t with
  | nil => rfl
  | cons d s =>
    unfold fileLines at h
    split at h
    · cases h
    · split at h <;> cases h

/-- With lines that fit into the buffer the loop goes over the lines of the file. -/
theorem readLoop_lines (step : σ → Str → Res σ) (hs : ∀ s l, step s (l ++ ['\n']) = step s l) {t : Str} (ht : ∀ l ∈ fileLines t, l.length < 1022) (s : σ) {fuel : Nat}
    (hf : t.length + 1 ≤ fuel) : readLoop step fuel ⟨t, false, false⟩ s = (fileLines t).foldlM step s := by
  induction fuel generalizing t s with
  | zero => omega
  | succ k ih =>
    have hmax : MAXLINE - 1 - 1 = 1022 := rfl
    cases h : fileLines t with
    | nil =>
      rw [fileLines_eq_nil h]
      have hg : fgets (MAXLINE - 1) ⟨[], false, false⟩ = (none, ⟨[], true, false⟩) := by
        unfold fgets
        rw [hmax]
        simp [takeLine]
      unfold readLoop
      simp only [hg]
      cases k <;> simp [readLoop, pure, Except.pure]
    | cons l ls =>
      have hl : l.length < 1022 := ht l (by rw [h]; exact List.mem_cons_self)
      rcases takeLine_cons h hl with ⟨t', h1, h2, h3⟩ | ⟨h1, h2, h3, h4⟩
      · have hg : fgets (MAXLINE - 1) ⟨t, false, false⟩ = (some (l ++ ['\n']), ⟨t', false, false⟩) := by
          unfold fgets
          rw [hmax]
          simp [h3]
        unfold readLoop
        simp only [hg, hs, Bool.false_eq_true, if_false, List.foldlM_cons]
        have hlen : t'.length + 1 ≤ k := by
          rw [h1] at hf
          simp only [List.length_append, List.length_cons] at hf
          omega
        cases step s l with
        | error e => rfl
        | ok s' =>
          simp only [ok_bind]
          rw [ih (t := t') (fun x hx => ht x (by rw [h, ← h2]; exact List.mem_cons_of_mem _ hx)) s' hlen, h2]
      · have hg : fgets (MAXLINE - 1) ⟨t, false, false⟩ = (some l, ⟨[], true, false⟩) := by
          unfold fgets
          rw [hmax]
          simp [h4, h3]
        unfold readLoop
        simp only [hg, Bool.false_eq_true, if_false, List.foldlM_cons, h2, List.foldlM_nil]
        cases step s l with
        | error e => rfl
        | ok s' => cases k <;> simp [readLoop, ok_bind, pure, Except.pure]

theorem takeLine_long (a b : Str) (ha : '\n' ∉ a) : takeLine a.length (a ++ b) = (a, b, false) := by
  induction a with
  | nil => simp [takeLine]
  | cons c a ih =>
    simp only [List.mem_cons, not_or] at ha
    simp [takeLine, ih ha.2, Ne.symm ha.1]

/-- A line that does not fit into the buffer is seen as two. -/
theorem readLoop_long (step : σ → Str → Res σ) (a b : Str) (ha : '\n' ∉ a) (hl : a.length = 1022) (s : σ) (fuel : Nat) (fails : Bool) :
    readLoop step (fuel + 1) ⟨a ++ b, false, fails⟩ s = (do let s ← step s a; readLoop step fuel ⟨b, false, fails⟩ s) := by
  have hg : fgets (MAXLINE - 1) ⟨a ++ b, false, fails⟩ = (some a, ⟨b, false, fails⟩) := by
    unfold fgets
    rw [show MAXLINE - 1 - 1 = a.length from hl.symm]
    simp [takeLine_long a b ha]
  conv_lhs => unfold readLoop
  simp only [hg, Bool.false_eq_true, if_false]

theorem takeLine_rest (n : Nat) (t : Str) (h : (takeLine n t).2.2 = false) : (takeLine n t).2.1.length + (takeLine n t).1.length = t.length := by
  induction n generalizing t with
  | zero => simp [takeLine]
  | succ n ih =>
    cases t with
    | nil => simp [takeLine] at h
    | cons c s =>
      unfold takeLine at h ⊢
      split at h <;> rename_i hc
      · simp [hc]
      · simp only [hc, if_false, List.length_cons]
        have := ih s h
        omega

theorem takeLine_ne (n : Nat) (hn : 0 < n) (t : Str) (h : (takeLine n t).2.2 = false) : 0 < (takeLine n t).1.length := by
  obtain ⟨n, rfl⟩ : ∃ k, n = k + 1 := ⟨n - 1, by omega⟩
  cases t with
  | nil => simp [takeLine] at h
  | cons c s =>
    unfold takeLine
    split <;> simp

/-- What one pass leaves of the file: less, or the end. -/
theorem fgets_next (t : Str) :
    (∃ l, fgets (MAXLINE - 1) ⟨t, false, false⟩ = (l, ⟨[], true, false⟩)) ∨
      ∃ l t', fgets (MAXLINE - 1) ⟨t, false, false⟩ = (some l, ⟨t', false, false⟩) ∧ t'.length < t.length := by
  have hmax : MAXLINE - 1 - 1 = 1022 := rfl
  cases h : (takeLine 1022 t).2.2 with
  | true =>
    refine Or.inl ⟨if (takeLine 1022 t).1 = [] then none else some (takeLine 1022 t).1, ?_⟩
    unfold fgets
    rw [hmax]
    simp only [h, if_true, Bool.false_eq_true, if_false]
  | false =>
    refine Or.inr ⟨(takeLine 1022 t).1, (takeLine 1022 t).2.1, ?_, ?_⟩
    · unfold fgets
      rw [hmax]
      simp only [h, Bool.false_eq_true, if_false]
    · have := takeLine_rest 1022 t h
      have := takeLine_ne 1022 (by norm_num) t h
      omega

/-- Reading a file of any text ends; it keeps an invariant of the loop or ends the program. -/
theorem readLoop_inv (step : σ → Str → Res σ) (P : σ → Prop) (h : ∀ s l, P s → (∃ s', step s l = .ok s' ∧ P s') ∨ step s l = .error .exit) (t : Str) (s : σ) (hs : P s)
    {fuel : Nat} (hf : t.length + 1 ≤ fuel) :
    (∃ s', readLoop step fuel ⟨t, false, false⟩ s = .ok s' ∧ P s') ∨ readLoop step fuel ⟨t, false, false⟩ s = .error .exit := by
  induction fuel generalizing t s with
  | zero => omega
  | succ k ih =>
    have hend : ∀ s', readLoop step k ⟨[], true, false⟩ s' = .ok s' := by
      intro s'
      cases k <;> simp [readLoop]
    unfold readLoop
    rcases fgets_next t with ⟨l, hg⟩ | ⟨l, t', hg, hlt⟩
    · simp only [hg, Bool.false_eq_true, if_false]
      cases l with
      | none => exact Or.inl ⟨s, hend s, hs⟩
      | some l =>
        rcases h s l hs with ⟨s', h1, h2⟩ | h1
        · exact Or.inl ⟨s', by simp only [h1, ok_bind, hend], h2⟩
        · exact Or.inr (by simp only [h1, error_bind])
    · simp only [hg, Bool.false_eq_true, if_false]
      rcases h s l hs with ⟨s', h1, h2⟩ | h1
      · simp only [h1, ok_bind]
        exact ih t' s' h2 (by omega)
      · exact Or.inr (by simp only [h1, error_bind])

/-- A file that cannot be read to its end: the loop goes on for ever, or ends the program. -/
theorem readLoop_fails (step : σ → Str → Res σ) (h : ∀ s l, ∃ s', step s l = .ok s') (t : Str) (s : σ) (fuel : Nat) : readLoop step fuel ⟨t, false, true⟩ s = .error .diverge := by
  induction fuel generalizing t s with
  | zero => rfl
  | succ k ih =>
    unfold readLoop
    have hg : ∃ l t', fgets (MAXLINE - 1) ⟨t, false, true⟩ = (l, ⟨t', false, true⟩) := by
      unfold fgets
      simp only [if_true]
      split
      · exact ⟨_, _, rfl⟩
      · exact ⟨_, _, rfl⟩
    obtain ⟨l, t', hg⟩ := hg
    simp only [hg, Bool.false_eq_true, if_false]
    cases l with
    | none => exact ih t' s
    | some l =>
      obtain ⟨s', h1⟩ := h s l
      simp only [h1, ok_bind]
      exact ih t' s'

theorem isComment_snoc (l : Str) : isComment (l ++ ['\n']) = isComment l := by
  cases l with
  | nil => rfl
  | cons c l => rfl

theorem isComment_eq (l : Str) : (decide (l.head? ≠ some '#')) = !isComment l := by
  unfold isComment
  cases h : l.head? with
  | none => rfl
  | some c => by_cases hc : c = '#' <;> simp [hc]

/-- The row as its columns. -/
def storePieces (num : Str → α) (s : Rows α) (p : List Str) : Res (Rows α) :=
  if p.length ≤ 1 then .error .exit
  else if s.errs.isSome ∧ p.length < 3 then .error .exit
  else if s.mask.isSome ∧ p.length < 4 then .error .exit
  else do
    let t ← rd p 0
    let xs ← wrI s.xs s.j (num t)
    let t ← rd p 1
    let ys ← wrI s.ys s.j (num t)
    let errs ← setCol num s.errs p 2 s.j
    let mask ← setCol num s.mask p 3 s.j
    pure { s with xs := xs, ys := ys, errs := errs, mask := mask }

theorem tokens_short (d : Char → Bool) (l : Str) (h : (l.dropWhile d).any d = false) : (tokens d l).length ≤ 1 := by
  have e : tokens d l = tokens d (l.dropWhile d) := by
    conv_lhs => rw [← List.takeWhile_append_dropWhile (p := d) (l := l)]
    exact tokens_delims d _ _ fun c hc => List.mem_takeWhile_imp hc
  rw [e]
  by_cases hn : l.dropWhile d = []
  · rw [hn, tokens_nil]; simp
  · rw [tokens_single d _ (fun c hc => by simpa using List.any_eq_false.1 h c hc) hn]; simp

theorem storeDataRow_eq (num : Str → α) (s : Rows α) (l : Str) : storeDataRow num s l = storePieces num s (tokens isBlank l) := by
  unfold storeDataRow
  rw [splitString_eq]
  simp only [ok_bind]
  by_cases h : (l.dropWhile isBlank).any isBlank = true
  · simp only [h, if_true]
    rfl
  · simp only [h]
    have := tokens_short isBlank l (by simpa using h)
    unfold storePieces
    rw [if_pos this, if_pos (by simp)]

theorem readRow_snoc (num : Str → α) (a b : Int) (s : Rows α) (l : Str) : readRow num a b s (l ++ ['\n']) = readRow num a b s l := by
  unfold readRow
  simp only [isComment_snoc, storeDataRow_eq, tokens_snoc_delim isBlank l '\n' rfl]

/-- One row of the file. -/
def dataStep (num : Str → α) (a b : Int) (s : Rows α) (p : List Str) : Res (Rows α) :=
  if a ≤ s.i + 1 ∧ s.i + 1 ≤ b then storePieces num { s with i := s.i + 1, j := s.j + 1 } p else .ok { s with i := s.i + 1 }

theorem foldlM_rows (num : Str → α) (a b : Int) (ls : List Str) (s : Rows α) :
    ls.foldlM (readRow num a b) s = ((ls.filter fun l => decide (l.head? ≠ some '#')).map (tokens isBlank)).foldlM (dataStep num a b) s := by
  induction ls generalizing s with
  | nil => rfl
  | cons l ls ih =>
    have h1 : readRow num a b s l = if isComment l then .ok s else dataStep num a b s (tokens isBlank l) := by
      unfold readRow dataStep
      simp only [storeDataRow_eq]
    rw [List.foldlM_cons, List.filter_cons, isComment_eq, h1]
    cases h : isComment l with
    | true =>
      simp only [if_true, ok_bind, Bool.not_true, Bool.false_eq_true, if_false]
      exact ih s
    | false =>
      simp only [Bool.false_eq_true, if_false, Bool.not_false, if_true, List.map_cons, List.foldlM_cons]
      cases dataStep num a b s (tokens isBlank l) with
      | error e => rfl
      | ok s' =>
        simp only [ok_bind]
        exact ih s'

theorem foldlM_count (ls : List Str) (c : Nat) :
    ls.foldlM (fun c l => (.ok (if isComment l then c else c + 1) : Res Nat)) c = .ok (c + (ls.filter fun l => decide (l.head? ≠ some '#')).length) := by
  induction ls generalizing c with
  | nil => rfl
  | cons l ls ih =>
    rw [List.foldlM_cons, List.filter_cons, isComment_eq, ok_bind, ih]
    cases isComment l with
    | true => simp
    | false => simp; omega

/-- The lines fit into the buffer. -/
def ShortLines (t : Str) : Prop := ∀ l ∈ fileLines t, l.length < 1022

theorem countDataLines_eq {t : Str} (h : ShortLines t) : countDataLines (some ⟨t, false⟩) = .ok (dataRows t).length := by
  unfold countDataLines onLines
  simp only
  rw [readLoop_lines _ (fun s l => by rw [isComment_snoc]) h 0 (by omega), foldlM_count]
  simp [dataRows]

theorem readDataFile_eq {t : Str} (h : ShortLines t) (num : Str → α) (a b : Int) (xs ys : List α) (errs mask : Option (List α)) :
    readDataFile num (some ⟨t, false⟩) a b xs ys errs mask = (dataRows t).foldlM (dataStep num a b) ⟨-1, -1, xs, ys, errs, mask⟩ := by
  unfold readDataFile onLines
  simp only
  rw [readLoop_lines _ (readRow_snoc num a b) h _ (by omega), foldlM_rows]
  rfl

theorem foldlM_states {β : Type} (f : σ → β → Res σ) (R : List β) (S : Nat → σ) (h : ∀ k (hk : k < R.length), f (S k) R[k] = .ok (S (k + 1))) :
    R.foldlM f (S 0) = .ok (S R.length) := by
  induction R generalizing S with
  | nil => rfl
  | cons r R ih =>
    have h0 : f (S 0) r = .ok (S 1) := h 0 (by simp)
    rw [List.foldlM_cons, h0, ok_bind]
    exact ih (fun k => S (k + 1)) fun k hk => h (k + 1) (by simpa using hk)

/-- The first `k` rows have been read. -/
def stored [FP α] (num : Str → α) (t : Str) (a k c : Nat) (z : Nat) : α := if a + z < k then num (cell t (a + z) c) else 0

theorem wrI_tabAt {n z : Nat} {j : Int} (g : Nat → α) (v : α) (hj : j = z) (h : z < n) : wrI (tab n g) j v = .ok (tab n fun i => if i = z then v else g i) := by
  subst hj
  unfold wrI
  rw [if_neg (by omega)]
  simpa using wr_tab g v h

theorem cell_eq {t : Str} {r k : Nat} (hr : r < (dataRows t).length) (hk : k < ((dataRows t)[r]).length) : rd ((dataRows t)[r]) k = .ok (cell t r k) := by
  rw [rd_ok hk]
  unfold cell
  simp [hr, hk]

theorem stored_step [FP α] (num : Str → α) (t : Str) (a k c m : Nat) (ha : a ≤ k) :
    (tab m fun z => if z = k - a then num (cell t k c) else stored num t a k c z) = tab m (stored num t a (k + 1) c) := by
  refine tab_congr fun z hz => ?_
  unfold stored
  by_cases h : z = k - a
  · subst h
    rw [if_pos rfl, if_pos (by omega), show a + (k - a) = k by omega]
  · rw [if_neg h]
    by_cases h2 : a + z < k
    · rw [if_pos h2, if_pos (by omega)]
    · rw [if_neg h2, if_neg (by omega)]

/-- Columns needed. -/
def needCols (useErrors useMask : Bool) : Nat := if useMask then 4 else if useErrors then 3 else 2

/-- The rows `a` to `b` of the file. -/
theorem readRows_eq [FP α] {t : Str} (h : ShortLines t) (num : Str → α) {a b : Nat} (hab : a ≤ b) (hb : b < (dataRows t).length) (e m : Bool)
    (hc : ∀ r (hr : r < (dataRows t).length), a ≤ r → r ≤ b → needCols e m ≤ ((dataRows t)[r]).length) :
    readDataFile num (some ⟨t, false⟩) a b (List.replicate (b - a + 1) 0) (List.replicate (b - a + 1) 0) (if e then some (List.replicate (b - a + 1) 0) else none)
        (if m then some (List.replicate (b - a + 1) 0) else none) =
      .ok ⟨(dataRows t).length - 1, b - a, tab (b - a + 1) fun z => num (cell t (a + z) 0), tab (b - a + 1) fun z => num (cell t (a + z) 1),
        if e then some (tab (b - a + 1) fun z => num (cell t (a + z) 2)) else none, if m then some (tab (b - a + 1) fun z => num (cell t (a + z) 3)) else none⟩ := by
  rw [readDataFile_eq h]
  set M := b - a + 1 with hM
  let T : Nat → Nat → List α := fun k c => tab M (stored num t a k c)
  let S : Nat → Rows α := fun k => ⟨(k : Int) - 1, ((min k (b + 1) - a : Nat) : Int) - 1, T k 0, T k 1, if e then some (T k 2) else none, if m then some (T k 3) else none⟩
  have hT0 : ∀ c, T 0 c = List.replicate M 0 := by
    intro c
    rw [replicate_eq_tab]
    exact tab_congr fun z _ => by simp [stored]
  have h0 : (⟨-1, -1, List.replicate M 0, List.replicate M 0, if e then some (List.replicate M 0) else none, if m then some (List.replicate M 0) else none⟩ : Rows α) = S 0 := by
    simp [S, hT0]
  have hTn : ∀ c, T (dataRows t).length c = tab M fun z => num (cell t (a + z) c) := by
    intro c
    exact tab_congr fun z hz => by simp only [stored]; rw [if_pos (by omega)]
  rw [h0, foldlM_states (dataStep num a b) (dataRows t) S]
  · simp only [S, hTn]
    have : min (dataRows t).length (b + 1) = b + 1 := by omega
    rw [this, show ((b + 1 - a : Nat) : Int) - 1 = (b : Int) - a by omega]
  · intro k hk
    unfold dataStep
    by_cases hr : a ≤ k ∧ k ≤ b
    · have hcol := hc k hk hr.1 hr.2
      have hn0 : 2 ≤ needCols e m := by unfold needCols; split <;> [omega; (split <;> omega)]
      have hi : ((a : Int) ≤ (S k).i + 1 ∧ (S k).i + 1 ≤ b) := by simp only [S]; omega
      rw [if_pos hi]
      unfold storePieces
      rw [if_neg (by omega), if_neg, if_neg]
      · have hj : (S k).j + 1 = ((k - a : Nat) : Int) := by simp only [S]; omega
        have hkM : k - a < M := by omega
        have hcell : ∀ c, c < ((dataRows t)[k]).length → rd ((dataRows t)[k]) c = .ok (cell t k c) := fun c hc => cell_eq hk hc
        have hw : ∀ c, wrI (T k c) ((S k).j + 1) (num (cell t k c)) = .ok (T (k + 1) c) := by
          intro c
          rw [wrI_tabAt _ _ hj hkM, stored_step num t a k c M hr.1]
        simp only
        rw [hcell 0 (by omega), ok_bind, show (S k).xs = T k 0 from rfl, hw 0, ok_bind, hcell 1 (by omega), ok_bind, show (S k).ys = T k 1 from rfl, hw 1, ok_bind]
        have hset : ∀ (f : Bool) c, (f = true → c < ((dataRows t)[k]).length) →
            setCol num (if f then some (T k c) else none) ((dataRows t)[k]) c ((S k).j + 1) = .ok (if f then some (T (k + 1) c) else none) := by
          intro f c hf
          cases f with
          | false => rfl
          | true =>
            simp only [if_true, setCol]
            rw [hcell c (hf rfl), ok_bind, hw c]
            rfl
        rw [show (S k).errs = (if e then some (T k 2) else none) from rfl, show (S k).mask = (if m then some (T k 3) else none) from rfl]
        rw [hset e 2 fun he => by subst he; simp [needCols] at hcol; split at hcol <;> omega, ok_bind, hset m 3 fun hm => by subst hm; simp [needCols] at hcol; omega, ok_bind]
        simp only [S]
        have h1 : ((k : Int) - 1 + 1) = ((k + 1 : Nat) : Int) - 1 := by omega
        have h2 : ((min k (b + 1) - a : Nat) : Int) - 1 + 1 = ((min (k + 1) (b + 1) - a : Nat) : Int) - 1 := by omega
        rw [h1, h2]
        rfl
      · rintro ⟨hm, hlt⟩
        have : m = true := by
          cases m with
          | true => rfl
          | false => simp [S] at hm
        subst this
        simp [needCols] at hcol
        omega
      · rintro ⟨he, hlt⟩
        have : e = true := by
          cases e with
          | true => rfl
          | false => simp [S] at he
        subst this
        simp [needCols] at hcol
        split at hcol <;> omega
    · have hi : ¬ ((a : Int) ≤ (S k).i + 1 ∧ (S k).i + 1 ≤ b) := by simp only [S]; omega
      rw [if_neg hi]
      have hT : ∀ c, T k c = T (k + 1) c := by
        intro c
        refine tab_congr fun z hz => ?_
        unfold stored
        by_cases h2 : a + z < k
        · rw [if_pos h2, if_pos (by omega)]
        · rw [if_neg h2, if_neg (by omega)]
      have h1 : ((k : Int) - 1 + 1) = ((k + 1 : Nat) : Int) - 1 := by omega
      have h2 : ((min k (b + 1) - a : Nat) : Int) - 1 = ((min (k + 1) (b + 1) - a : Nat) : Int) - 1 := by omega
      simp only [S, hT, h1, h2]

end Imfit
