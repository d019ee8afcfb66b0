import Verif.Lemmas.DataFile
import Verif.Lemmas.DESafe
import Verif.Lemmas.ProfileRun

/-!
# C104: the data files of `profilefit`

`profilefit` reads the rows of its data file in two passes, one that counts the rows and one that stores the columns. For files whose lines fit into the buffer (less than 1022
characters), the stored values are the columns of the rows asked for, in order. For any text whatever nothing is written beyond the arrays: the values are stored or the program ends.

It fails in these cases.

* A line with 1023 or more characters is seen as two lines. The rest of a long comment is a row of data.
* `--x1` and `--x2` are documented to count rows from 1, and so do the messages, but they are used from 0: with `--x1 1` the first row is lost, and `--x2 n` with the number `n` of rows in the
  file is refused.
* A single row is refused, although the message says that the last row may be the first row.
* A PSF with more rows than the data is refused, by a test of the wrong variable.
* A blank line, also at the end of the file, is a row without data and ends the program.
* Something that can be opened but not read, such as a directory, makes the program run for ever.
* The number of start values in the configuration file is not compared with the number of parameters: with too few of them the program reads beyond them.
-/

namespace Imfit

open Spec XR

variable {α : Type}

theorem countInt_small {n : Nat} (h : n < 2 ^ 31) : countInt n = n := by
  unfold countInt Int.bmod
  norm_num at h ⊢
  omega

theorem countRows_eq {t : Str} (h : ShortLines t) (h1 : 1 ≤ (dataRows t).length) (h2 : (dataRows t).length ≤ 1000000) :
    countRows (some ⟨t, false⟩) = .ok ((dataRows t).length : Int) := by
  unfold countRows
  rw [countDataLines_eq h, ok_bind, countInt_small (lt_of_le_of_lt h2 (by norm_num)), if_neg]
  · rfl
  · unfold MAX_N_DATA_VALS
    omega

/-- The rows from the option values `--x1 a` and `--x2 b`, counted from 0. -/
theorem C104_rows_partial [FP α] (num : Str → α) (t : Str) (h : ShortLines t) (hN : (dataRows t).length ≤ 1000000) (x1 x2 : Option Int) (a b : Nat)
    (ha : (x1 = none ∧ a = 0) ∨ x1 = some (a : Int)) (hb : (x2 = none ∧ b + 1 = (dataRows t).length) ∨ x2 = some (b : Int)) (hab : a < b) (hbN : b < (dataRows t).length)
    (e m : Bool) (hc : ∀ r (hr : r < (dataRows t).length), a ≤ r → r ≤ b → needCols e m ≤ ((dataRows t)[r]).length) :
    readProfile num (some ⟨t, false⟩) x1 x2 e m =
      .ok ⟨b - a + 1, tab (b - a + 1) fun z => num (cell t (a + z) 0), tab (b - a + 1) fun z => num (cell t (a + z) 1),
        if e then some (tab (b - a + 1) fun z => num (cell t (a + z) 2)) else none, if m then some (tab (b - a + 1) fun z => num (cell t (a + z) 3)) else none⟩ := by
  unfold readProfile
  rw [countRows_eq h (by omega) hN, ok_bind]
  have hr : rowRange (dataRows t).length x1 x2 = .ok ((a : Int), (b : Int)) := by
    unfold rowRange
    have e1 : x1.getD 0 = (a : Int) := by
      rcases ha with ⟨rfl, rfl⟩ | rfl <;> rfl
    have e2 : (if x2.getD (-1) = -1 then ((dataRows t).length : Int) - 1 else x2.getD (-1)) = (b : Int) := by
      rcases hb with ⟨rfl, hb⟩ | rfl
      · simp only [Option.getD_none, if_true]
        omega
      · simp only [Option.getD_some]
        rw [if_neg (by omega)]
    simp only [e1, e2]
    rw [if_neg (by omega), if_neg (by omega)]
  rw [hr, ok_bind]
  have hm : ((b : Int) - a + 1).toNat = b - a + 1 := by omega
  simp only [hm]
  rw [readRows_eq h num hab.le hbN e m hc, ok_bind]
  simp only
  rw [if_neg (by omega)]
  rfl

/-- The PSF file. -/
theorem C104_psf_partial [FP α] (num : Str → α) (t : Str) (h : ShortLines t) (h1 : 1 ≤ (dataRows t).length) (hN : (dataRows t).length ≤ 1000000)
    (hc : ∀ r (hr : r < (dataRows t).length), 2 ≤ ((dataRows t)[r]).length) (m : Nat) (hm : (dataRows t).length ≤ m) :
    readPsf1 num (some ⟨t, false⟩) m = .ok (tab (dataRows t).length fun z => num (cell t z 1)) := by
  unfold readPsf1
  rw [countRows_eq h h1 hN, ok_bind]
  obtain ⟨b, hb⟩ : ∃ b, (dataRows t).length = b + 1 := ⟨(dataRows t).length - 1, by omega⟩
  have hr := readRows_eq h num (Nat.zero_le b) (by omega) false false (fun r hr _ _ => hc r hr)
  simp only [Bool.false_eq_true, if_false, Nat.sub_zero, Nat.zero_add, Nat.cast_zero] at hr
  have e1 : (((dataRows t).length : Int)).toNat = b + 1 := by omega
  have e2 : ((dataRows t).length : Int) - 1 = b := by omega
  simp only [e1, e2]
  rw [hr, ok_bind]
  simp only
  rw [if_neg (by omega), hb]
  rfl

/-! ## Any text -/

/-- What holds while the rows are read. -/
structure RowsInv (a b : Int) (M : Nat) (s : Rows α) : Prop where
  i : -1 ≤ s.i
  j : s.j = max (-1) (min s.i b - a)
  xs : s.xs.length = M
  ys : s.ys.length = M
  errs : ∀ l ∈ s.errs, l.length = M
  mask : ∀ l ∈ s.mask, l.length = M

theorem setCol_safe (num : Str → α) (col : Option (List α)) (p : List Str) (k : Nat) (j : Int) (M : Nat) (hl : ∀ l ∈ col, l.length = M) (h0 : 0 ≤ j) (hj : j < M)
    (hk : col.isSome → k < p.length) : ∃ c, setCol num col p k j = .ok c ∧ ∀ l ∈ c, l.length = M := by
  unfold setCol
  cases col with
  | none => exact ⟨none, rfl, by simp⟩
  | some l =>
    have hlen := hl l rfl
    have hkp : k < p.length := hk rfl
    obtain ⟨l', h1, h2⟩ := wrI_total (l := l) (num p[k]) h0 (by omega)
    refine ⟨some l', ?_, ?_⟩
    · simp only
      rw [rd_ok hkp, ok_bind, h1]
      rfl
    · rintro l ⟨rfl⟩
      rw [h2, hlen]

theorem readRow_safe (num : Str → α) {a b : Int} {M : Nat} (hab : a ≤ b) (hM : b - a < M) (s : Rows α) (l : Str) (hs : RowsInv a b M s) :
    (∃ s', readRow num a b s l = .ok s' ∧ RowsInv a b M s') ∨ readRow num a b s l = .error .exit := by
  have hi := hs.i
  have hj := hs.j
  unfold readRow
  cases isComment l with
  | true => exact Or.inl ⟨s, rfl, hs⟩
  | false =>
    simp only [Bool.false_eq_true, if_false]
    split <;> rename_i hr
    · rw [storeDataRow_eq]
      unfold storePieces
      split
      · exact Or.inr rfl
      split
      · exact Or.inr rfl
      split
      · exact Or.inr rfl
      · rename_i h1 h2 h3
        have hp : 2 ≤ (tokens isBlank l).length := by omega
        have hj0 : 0 ≤ s.j + 1 := by omega
        have hjM : s.j + 1 < M := by omega
        obtain ⟨xs, hx, hxl⟩ := wrI_total (l := s.xs) (num (tokens isBlank l)[0]) hj0 (by rw [hs.xs]; exact hjM)
        obtain ⟨ys, hy, hyl⟩ := wrI_total (l := s.ys) (num (tokens isBlank l)[1]) hj0 (by rw [hs.ys]; exact hjM)
        obtain ⟨er, he, hel⟩ := setCol_safe num s.errs (tokens isBlank l) 2 (s.j + 1) M hs.errs hj0 hjM fun hsome => by
          by_contra hc
          exact h2 ⟨hsome, by omega⟩
        obtain ⟨mk, hk, hkl⟩ := setCol_safe num s.mask (tokens isBlank l) 3 (s.j + 1) M hs.mask hj0 hjM fun hsome => by
          by_contra hc
          exact h3 ⟨hsome, by omega⟩
        refine Or.inl ⟨⟨s.i + 1, s.j + 1, xs, ys, er, mk⟩, ?_, ⟨?_, ?_, ?_, ?_, hel, hkl⟩⟩
        · simp only
          rw [rd_ok (by omega), ok_bind, hx, ok_bind, rd_ok (by omega), ok_bind, hy, ok_bind, he, ok_bind, hk]
          rfl
        · simp only; omega
        · simp only; omega
        · simp only; rw [hxl, hs.xs]
        · simp only; rw [hyl, hs.ys]
    · refine Or.inl ⟨_, rfl, ⟨?_, ?_, hs.xs, hs.ys, hs.errs, hs.mask⟩⟩
      · simp only; omega
      · simp only; omega

theorem countDataLines_safe (t : Str) : ∃ c, countDataLines (some ⟨t, false⟩) = .ok c := by
  have h := readLoop_inv (fun c l => (.ok (if isComment l then c else c + 1) : Res Nat)) (fun _ => True) (fun s l _ => Or.inl ⟨_, rfl, trivial⟩) t 0 trivial
    (show t.length + 1 ≤ t.length + 2 by omega)
  rcases h with ⟨c, hc, -⟩ | hc
  · exact ⟨c, hc⟩
  · exfalso
    have key : ∀ (fuel : Nat) (f : Stream) (s : Nat), readLoop (fun c l => (.ok (if isComment l then c else c + 1) : Res Nat)) fuel f s ≠ .error .exit := by
      intro fuel
      induction fuel with
      | zero =>
        intro f s
        unfold readLoop
        split <;> simp
      | succ k ih =>
        intro f s
        unfold readLoop
        split
        · simp
        · split
          · exact ih _ _
          · exact ih _ _
    exact key _ _ _ hc

theorem countRows_safe (t : Str) : (∃ n : Int, countRows (some ⟨t, false⟩) = .ok n ∧ 1 ≤ n) ∨ countRows (some ⟨t, false⟩) = .error .exit := by
  obtain ⟨c, hc⟩ := countDataLines_safe t
  unfold countRows
  rw [hc, ok_bind]
  by_cases h : countInt c < 1 ∨ MAX_N_DATA_VALS < countInt c
  · rw [if_pos h]
    exact Or.inr rfl
  · rw [if_neg h]
    exact Or.inl ⟨countInt c, rfl, not_lt.1 fun h' => h (Or.inl h')⟩

theorem readDataFile_safe (num : Str → α) (t : Str) {a b : Int} {M : Nat} (ha : 0 ≤ a) (hab : a ≤ b) (hM : b - a < M) (xs ys : List α) (errs mask : Option (List α))
    (h1 : xs.length = M) (h2 : ys.length = M) (h3 : ∀ l ∈ errs, l.length = M) (h4 : ∀ l ∈ mask, l.length = M) :
    (∃ s, readDataFile num (some ⟨t, false⟩) a b xs ys errs mask = .ok s ∧ RowsInv a b M s) ∨ readDataFile num (some ⟨t, false⟩) a b xs ys errs mask = .error .exit := by
  unfold readDataFile onLines
  exact readLoop_inv _ (RowsInv a b M) (fun s l hs => readRow_safe num hab hM s l hs) t _ ⟨by simp, by simp only; omega, h1, h2, h3, h4⟩
    (show t.length + 1 ≤ t.length + 2 by omega)

/-- For any text and any options: arrays of the right length, or an end of the program. Nothing is read or written beyond an array, and the loops end. -/
theorem C104_safe [FP α] (num : Str → α) (t : Str) (x1 x2 : Option Int) (e m : Bool) :
    (∃ c, readProfile num (some ⟨t, false⟩) x1 x2 e m = .ok c ∧ 2 ≤ c.n ∧ c.xs.length = c.n ∧ c.ys.length = c.n ∧ (∀ l ∈ c.errs, l.length = c.n) ∧ ∀ l ∈ c.mask, l.length = c.n) ∨
      readProfile num (some ⟨t, false⟩) x1 x2 e m = .error .exit := by
  unfold readProfile
  rcases countRows_safe t with ⟨n, hn, hn1⟩ | hn
  · rw [hn, ok_bind]
    have hr : (∃ a b : Int, rowRange n x1 x2 = .ok (a, b) ∧ 0 ≤ a ∧ a < b) ∨ rowRange n x1 x2 = .error .exit := by
      unfold rowRange
      simp only
      generalize (if x2.getD (-1) = -1 then n - 1 else x2.getD (-1)) = b
      split
      · exact Or.inr rfl
      split
      · exact Or.inr rfl
      · exact Or.inl ⟨_, _, rfl, by omega, by omega⟩
    rcases hr with ⟨a, b, hr, ha, hab⟩ | hr
    · rw [hr, ok_bind]
      simp only
      set M := (b - a + 1).toNat with hM
      have hl : ∀ f : Bool, ∀ l ∈ (if f then some (List.replicate M (0 : α)) else none), l.length = M := by
        intro f l hl
        cases f with
        | false => simp at hl
        | true =>
          simp only [if_true, Option.mem_def, Option.some.injEq] at hl
          rw [← hl, List.length_replicate]
      rcases readDataFile_safe num t ha hab.le (show b - a < M by omega) (List.replicate M 0) (List.replicate M 0) (if e then some (List.replicate M 0) else none)
        (if m then some (List.replicate M 0) else none) (by simp) (by simp) (hl e) (hl m) with ⟨s, hs, hi⟩ | hs
      · rw [hs, ok_bind]
        have hj := hi.j
        rw [if_neg (by omega)]
        exact Or.inl ⟨_, rfl, by simp only; omega, hi.xs, hi.ys, hi.errs, hi.mask⟩
      · exact Or.inr (by rw [hs, error_bind])
    · exact Or.inr (by rw [hr, error_bind])
  · exact Or.inr (by rw [hn, error_bind])

/-! ## To the fit -/

/-- Data, errors, mask and PSF of the fit are the columns of the files: with this, C102 and C103 speak about the text of the files. -/
theorem C104_input_partial (num : Str → XR) (o : ProfOpts) (t tp : Str) (h : ShortLines t) (hp : ShortLines tp) (hN : (dataRows t).length ≤ 1000000) (a b : Nat)
    (ha : (o.x1 = none ∧ a = 0) ∨ o.x1 = some (a : Int)) (hb : (o.x2 = none ∧ b + 1 = (dataRows t).length) ∨ o.x2 = some (b : Int)) (hab : a < b)
    (hbN : b < (dataRows t).length) (hc : ∀ r (hr : r < (dataRows t).length), a ≤ r → r ≤ b → needCols o.useErrors o.useMask ≤ ((dataRows t)[r]).length)
    (hp1 : 1 ≤ (dataRows tp).length) (hpN : (dataRows tp).length ≤ b - a + 1) (hpc : ∀ r (hr : r < (dataRows tp).length), 2 ≤ ((dataRows tp)[r]).length)
    (usePsf : Bool) (fns : List (Fun1 × Bool)) (pl : List XR) (hpl : pl.length = nParams1 fns) (X σ : Nat → ℝ)
    (hX : ∀ z, z < b - a + 1 → num (cell t (a + z) 0) = fin (X z)) (hσ : if o.useErrors then ∀ z, z < b - a + 1 → num (cell t (a + z) 2) = fin (σ z) else ∀ z, σ z = 1)
    (P : Nat → ℝ) (hP : ∀ k, k < (dataRows tp).length → num (cell tp k 1) = fin (P k)) (hsum : ∑ k ∈ Finset.range (dataRows tp).length, P k ≠ 0) :
    ∃ i, profileInput num o (some ⟨t, false⟩) (if usePsf then some (some ⟨tp, false⟩) else none) fns pl = .ok (i, pl) ∧ i.n = b - a + 1 ∧ i.fns = fns ∧ i.zp = o.zp ∧
      i.mags = o.mags ∧ ProfOK i X (fun z => num (cell t (a + z) 1)) σ (fun z => o.useMask && flt 0 (num (cell t (a + z) 3))) ∧
      PsfOK i (if usePsf then some ((dataRows tp).length, P) else none) := by
  unfold profileInput
  rw [C104_rows_partial num t h hN o.x1 o.x2 a b ha hb hab hbN o.useErrors o.useMask hc, ok_bind]
  have hv : startValues1 fns pl = .ok pl := by
    unfold startValues1
    rw [← hpl]
    have := loopMap_ok (n := pl.length) (f := fun i => rd pl i) (g := fun i => pl.getD i nan) fun i hi => by rw [rd_ok hi]; simp [hi]
    rw [this]
    congr 1
    apply List.ext_getElem
    · simp
    · intro k h1 h2
      simp [h2]
  set M := b - a + 1 with hM
  have hxs : (tab M fun z => num (cell t (a + z) 0)) = tab M fun z => fin (X z) := tab_congr fun z hz => hX z hz
  have herr : (if o.useErrors then some (tab M fun z => num (cell t (a + z) 2)) else none) = if o.useErrors then some (tab M fun z => fin (σ z)) else none := by
    cases he : o.useErrors with
    | false => rfl
    | true =>
      rw [he] at hσ
      simp only [if_true] at hσ ⊢
      exact congrArg some (tab_congr fun z hz => hσ z hz)
  rw [hxs, herr]
  have hok : ∀ psf : Option (List XR), ProfOK (ProfIn.mk fns o.zp o.mags M (tab M fun z => fin (X z)) (tab M fun z => num (cell t (a + z) 1))
      (if o.useErrors then some (tab M fun z => fin (σ z)) else none)
      ((if o.useMask then some (tab M fun z => num (cell t (a + z) 3)) else none).map fun m => (m, MASK_ZERO_IS_GOOD)) psf) X
      (fun z => num (cell t (a + z) 1)) σ (fun z => o.useMask && flt 0 (num (cell t (a + z) 3))) := by
    intro psf
    refine ⟨rfl, rfl, ?_, ?_⟩
    · cases he : o.useErrors with
      | false => exact Or.inl ⟨rfl, by simpa [he] using hσ⟩
      | true => exact Or.inr rfl
    · cases hm : o.useMask with
      | false => exact Or.inl ⟨rfl, fun z => rfl⟩
      | true => exact Or.inr (Or.inl ⟨fun z => num (cell t (a + z) 3), rfl, fun z => by simp⟩)
  cases usePsf with
  | false =>
    simp only [Bool.false_eq_true, if_false, pure_eq_ok, ok_bind, hv]
    exact ⟨_, rfl, rfl, rfl, rfl, rfl, hok none, .none rfl⟩
  | true =>
    simp only [if_true]
    rw [C104_psf_partial num tp hp hp1 (by omega) hpc M hpN, ok_bind]
    simp only [pure_eq_ok, ok_bind, hv]
    refine ⟨_, rfl, rfl, rfl, rfl, rfl, hok _, .some _ P ?_ (by omega) hsum⟩
    exact congrArg some (tab_congr fun k hk => hP k hk)

/-! ## Failures -/

/-- A long line is seen as two lines. -/
theorem C104_longLine_false (a b : Str) (ha : '\n' ∉ a) (hl : a.length = 1022) (hb : ShortLines b) :
    countDataLines (some ⟨a ++ b, false⟩) = .ok ((if isComment a then 0 else 1) + (dataRows b).length) := by
  unfold countDataLines onLines
  simp only
  rw [show (a ++ b).length + 2 = ((a ++ b).length + 1) + 1 from rfl, readLoop_long _ a b ha hl, ok_bind,
    readLoop_lines _ (fun s l => by rw [isComment_snoc]) hb _ (by simp only [List.length_append]; omega), foldlM_count]
  simp only [dataRows, List.length_map, Nat.zero_add]

/-- A file of one long comment has a row of data. -/
theorem C104_longComment_false : ∃ t : Str, dataRows t = [] ∧ countDataLines (some ⟨t, false⟩) = .ok 1 := by
  obtain ⟨n, hn⟩ : ∃ n, n = 1021 := ⟨_, rfl⟩
  refine ⟨('#' :: List.replicate n '-') ++ ['3', ' ', '4'], ?_, ?_⟩
  · have key : ∀ (n : Nat) (c : Char) (s l : Str), c ≠ '\n' → fileLines s = [l] → fileLines (List.replicate n c ++ s) = [List.replicate n c ++ l] := by
      intro n c s l hc hs
      induction n with
      | zero => simpa using hs
      | succ n ih =>
        rw [List.replicate_succ, List.cons_append, List.cons_append]
        unfold fileLines
        rw [if_neg hc, ih]
    have h3 : fileLines ['3', ' ', '4'] = [['3', ' ', '4']] := by decide
    have h4 := key n '-' _ _ (by decide) h3
    have h5 := key 1 '#' _ _ (by decide) h4
    unfold dataRows
    rw [show (('#' :: List.replicate n '-') ++ ['3', ' ', '4']) = List.replicate 1 '#' ++ (List.replicate n '-' ++ ['3', ' ', '4']) from rfl, h5]
    simp
  · rw [C104_longLine_false ('#' :: List.replicate n '-') ['3', ' ', '4'] (by simp) (by rw [List.length_cons, List.length_replicate, hn]) (by unfold ShortLines; decide)]
    have : (dataRows ['3', ' ', '4']).length = 1 := by decide
    rw [this]
    rfl

/-- With `--x1 1`, documented as the first row, the first stored row is the second row of the file. -/
theorem C104_x1_false [FP α] (num : Str → α) (t : Str) (h : ShortLines t) (hN : (dataRows t).length ≤ 1000000) (h3 : 3 ≤ (dataRows t).length)
    (hc : ∀ r (hr : r < (dataRows t).length), 2 ≤ ((dataRows t)[r]).length) :
    ∃ c, readProfile num (some ⟨t, false⟩) (some 1) none false false = .ok c ∧ c.n + 1 = (dataRows t).length ∧ c.xs.head? = some (num (cell t 1 0)) := by
  have := C104_rows_partial num t h hN (some 1) none 1 ((dataRows t).length - 1) (Or.inr rfl) (Or.inl ⟨rfl, by omega⟩) (by omega) (by omega) false false
    fun r hr _ _ => hc r hr
  refine ⟨_, this, ?_, ?_⟩
  · simp only; omega
  · simp only
    rw [show (dataRows t).length - 1 - 1 + 1 = ((dataRows t).length - 2) + 1 by omega]
    simp [tab, List.range_succ_eq_map]

/-- With `--x2 n`, where `n` is the number of rows, the program ends. -/
theorem C104_x2_false [FP α] (num : Str → α) (t : Str) (h : ShortLines t) (h1 : 1 ≤ (dataRows t).length) (hN : (dataRows t).length ≤ 1000000) (x1 : Option Int) (e m : Bool) :
    readProfile num (some ⟨t, false⟩) x1 (some (dataRows t).length) e m = .error .exit := by
  unfold readProfile
  rw [countRows_eq h h1 hN, ok_bind]
  have hr : rowRange (dataRows t).length x1 (some (dataRows t).length) = .error .exit := by
    unfold rowRange
    simp only [Option.getD_some]
    rw [if_neg (show ¬ (((dataRows t).length : Int) = -1) by omega)]
    split
    · rfl
    · rw [if_pos (Or.inr le_rfl)]
  rw [hr, error_bind]

/-- A single row is refused, whether it is asked for or all there is. -/
theorem C104_single_false [FP α] (num : Str → α) (t : Str) (h : ShortLines t) (h1 : 1 ≤ (dataRows t).length) (hN : (dataRows t).length ≤ 1000000) (x1 x2 : Option Int) (e m : Bool)
    (hx : (x1 = none ∧ x2 = none ∧ (dataRows t).length = 1) ∨ ∃ k : Nat, x1 = some (k : Int) ∧ x2 = some (k : Int)) :
    readProfile num (some ⟨t, false⟩) x1 x2 e m = .error .exit := by
  unfold readProfile
  rw [countRows_eq h h1 hN, ok_bind]
  unfold rowRange
  rcases hx with ⟨rfl, rfl, h2⟩ | ⟨k, rfl, rfl⟩
  · rw [h2]
    rfl
  · simp only [Option.getD_some]
    rw [if_neg (show ¬ ((k : Int) = -1) by omega)]
    split
    · rfl
    · rw [if_pos (Or.inl le_rfl)]
      rfl

theorem storePieces_i (num : Str → α) (s s' : Rows α) (p : List Str) (h : storePieces num s p = .ok s') : s'.i = s.i := by
  unfold storePieces at h
  split at h
  · cases h
  split at h
  · cases h
  split at h
  · cases h
  · simp only [bind, Except.bind] at h
    repeat (split at h; · cases h)
    cases h
    rfl

theorem dataStep_i (num : Str → α) (a b : Int) (s s' : Rows α) (p : List Str) (h : dataStep num a b s p = .ok s') : s'.i = s.i + 1 := by
  unfold dataStep at h
  split at h
  · exact storePieces_i num _ _ p h
  · cases h
    rfl

theorem foldlM_short (num : Str → α) (a b : Int) (R : List (List Str)) (s : Rows α) (r : Nat) (hr : r < R.length) (h1 : a ≤ s.i + 1 + r) (h2 : s.i + 1 + r ≤ b)
    (hl : R[r].length ≤ 1) (s' : Rows α) : R.foldlM (dataStep num a b) s ≠ .ok s' := by
  induction R generalizing s r with
  | nil => simp at hr
  | cons p R ih =>
    rw [List.foldlM_cons]
    cases r with
    | zero =>
      have hl' : p.length ≤ 1 := hl
      have : dataStep num a b s p = .error .exit := by
        unfold dataStep storePieces
        rw [if_pos (by simp only [Nat.cast_zero, add_zero] at h1 h2; exact ⟨h1, h2⟩), if_pos hl']
      rw [this, error_bind]
      simp
    | succ r =>
      cases hs : dataStep num a b s p with
      | error e => simp [error_bind]
      | ok s1 =>
        rw [ok_bind]
        have hi := dataStep_i num a b s s1 p hs
        exact ih s1 r (by simpa using hr) (by push_cast at h1; omega) (by push_cast at h2; omega) hl

/-- A row without two columns ends the program. A blank line is such a row, wherever it is. -/
theorem C104_shortRow_false [FP α] (num : Str → α) (t : Str) (h : ShortLines t) (hN : (dataRows t).length ≤ 1000000) (e m : Bool) (r : Nat) (hr : r < (dataRows t).length)
    (hl : ((dataRows t)[r]).length ≤ 1) : readProfile num (some ⟨t, false⟩) none none e m = .error .exit := by
  rcases C104_safe num t none none e m with ⟨c, hc, -⟩ | hc
  · exfalso
    unfold readProfile at hc
    rw [countRows_eq h (by omega) hN, ok_bind] at hc
    unfold rowRange at hc
    simp only [Option.getD_none, if_true] at hc
    rw [if_neg (by omega)] at hc
    split at hc
    · cases hc
    · rw [ok_bind, readDataFile_eq h] at hc
      simp only at hc
      generalize hs : List.foldlM (dataStep num (0 : Int) (((dataRows t).length : Int) - 1)) _ (dataRows t) = q at hc
      cases q with
      | error e => cases hc
      | ok s => exact foldlM_short num 0 _ (dataRows t) _ r hr (by simp) (by simp only; omega) hl s hs
  · exact hc

/-- The blank line at the end of this file is a row. -/
example : dataRows "1 2\n3 4\n\n".toList = [[['1'], ['2']], [['3'], ['4']], []] := by decide

/-- A PSF with more rows than the data ends the program. -/
theorem C104_longPsf_false [FP α] (num : Str → α) (t : Str) (h : ShortLines t) (h1 : 1 ≤ (dataRows t).length) (hN : (dataRows t).length ≤ 1000000)
    (hc : ∀ r (hr : r < (dataRows t).length), 2 ≤ ((dataRows t)[r]).length) (m : Nat) (hm : m < (dataRows t).length) :
    readPsf1 num (some ⟨t, false⟩) m = .error .exit := by
  unfold readPsf1
  rw [countRows_eq h h1 hN, ok_bind]
  obtain ⟨b, hb⟩ : ∃ b, (dataRows t).length = b + 1 := ⟨(dataRows t).length - 1, by omega⟩
  have hr := readRows_eq h num (Nat.zero_le b) (by omega) false false (fun r hr _ _ => hc r hr)
  simp only [Bool.false_eq_true, if_false, Nat.sub_zero, Nat.zero_add, Nat.cast_zero] at hr
  have e1 : (((dataRows t).length : Int)).toNat = b + 1 := by omega
  have e2 : ((dataRows t).length : Int) - 1 = b := by omega
  simp only [e1, e2]
  rw [hr, ok_bind]
  simp only
  rw [if_pos (by omega)]

/-- A file that can be opened but not read to its end: the count never comes to an end, however long one waits. -/
theorem C104_unreadable_false (t : Str) (fuel : Nat) :
    readLoop (fun c l => (.ok (if isComment l then c else c + 1) : Res Nat)) fuel ⟨t, false, true⟩ 0 = .error .diverge :=
  readLoop_fails _ (fun _ _ => ⟨_, rfl⟩) t 0 fuel

/-- With too few start values the program reads beyond them. -/
theorem C104_parameters_false (fns : List (Fun1 × Bool)) (pl : List α) (h : pl.length < nParams1 fns) : startValues1 fns pl = .error .oob := by
  have hne : ∀ n, n ≤ pl.length → ∃ l, loopMap n (fun i => rd pl i) = .ok l := by
    intro n hn
    induction n with
    | zero => exact ⟨[], rfl⟩
    | succ n ih =>
      obtain ⟨l, hl⟩ := ih (by omega)
      exact ⟨l ++ [pl[n]], by unfold loopMap; rw [hl, ok_bind]; beta_reduce; rw [rd_ok (by omega)]; rfl⟩
  have key : ∀ n, pl.length < n → loopMap n (fun i => rd pl i) = .error .oob := by
    intro n hn
    induction n with
    | zero => omega
    | succ n ih =>
      unfold loopMap
      by_cases hl : pl.length < n
      · rw [ih hl]; rfl
      · obtain ⟨l, h⟩ := hne n (by omega)
        rw [h, ok_bind]
        beta_reduce
        rw [rd_oob (by omega)]
        rfl
  exact key _ h

/-! ## A concrete file -/

/-- A file with comments, four columns, and blanks of both kinds; no line end at the end. -/
def c104Text : Str := "# x y err mask\n1.0 20 0.5 0\n  2.0\t19 0.25 1\n#3.0 18 1 0\n4.0   18 0.5 0".toList

theorem c104_rows : dataRows c104Text =
    [["1.0".toList, "20".toList, "0.5".toList, "0".toList], ["2.0".toList, "19".toList, "0.25".toList, "1".toList], ["4.0".toList, "18".toList, "0.5".toList, "0".toList]] := by
  decide

theorem c104_short : ShortLines c104Text := by unfold ShortLines; decide

/-- All rows, with errors and mask. -/
example [FP α] (num : Str → α) : readProfile num (some ⟨c104Text, false⟩) none none true true =
    .ok ⟨3, [num "1.0".toList, num "2.0".toList, num "4.0".toList], [num "20".toList, num "19".toList, num "18".toList],
      some [num "0.5".toList, num "0.25".toList, num "0.5".toList], some [num "0".toList, num "1".toList, num "0".toList]⟩ := by
  have := C104_rows_partial num c104Text c104_short (by rw [c104_rows]; decide) none none 0 2 (Or.inl ⟨rfl, rfl⟩) (Or.inl ⟨rfl, by rw [c104_rows]; rfl⟩) (by norm_num)
    (by rw [c104_rows]; decide) true true (by rw [c104_rows]; decide)
  rw [this]
  simp [tab, List.range_succ, cell, c104_rows]

/-- The last two rows are `--x1 1`. -/
example [FP α] (num : Str → α) : readProfile num (some ⟨c104Text, false⟩) (some 1) none false false =
    .ok ⟨2, [num "2.0".toList, num "4.0".toList], [num "19".toList, num "18".toList], none, none⟩ := by
  have := C104_rows_partial num c104Text c104_short (by rw [c104_rows]; decide) (some 1) none 1 2 (Or.inr rfl) (Or.inl ⟨rfl, by rw [c104_rows]; rfl⟩) (by norm_num)
    (by rw [c104_rows]; decide) false false (by rw [c104_rows]; decide)
  rw [this]
  simp [tab, List.range_succ, cell, c104_rows]

end Imfit
