import Verif.Lemmas.Multi
import Verif.Props.C20
import Verif.Props.C37
import Mathlib.Tactic.NormNum
import Mathlib.Tactic.IntervalCases

/-!
# C38 — multi-image fits add up
-/

namespace Imfit

open Spec

variable {α : Type}

theorem statisticLoop_eq [FP α] (cash : Bool) (prep : Nat → MO α → Res (MO α)) (ms : List (MO α)) (i : Nat) (acc : α) (m1 : Nat → MO α)
    (r : Nat → MO α × α) (h : ∀ j (hj : j < ms.length), prep (i + j) ms[j] = .ok (m1 j) ∧ imageStatistic cash (m1 j) = .ok (r j)) :
    statisticLoop cash prep ms i acc = .ok ((List.range ms.length).map (fun j => (r j).1),
      ((List.range ms.length).map fun j => (r j).2).foldl (· + ·) acc) := by
  induction ms generalizing i acc m1 r with
  | nil => rfl
  | cons m ms ih =>
    have h0 := h 0 (by simp)
    simp only [Nat.add_zero, List.getElem_cons_zero] at h0
    have ht := ih (i + 1) (acc + (r 0).2) (fun j => m1 (j + 1)) (fun j => r (j + 1)) (fun j hj => by
      have := h (j + 1) (by simpa using hj)
      simpa [show i + 1 + j = i + (j + 1) by omega] using this)
    simp only [statisticLoop, h0.1, h0.2, ok_bind, ht, pure_eq_ok, List.length_cons, List.range_succ_eq_map, List.map_cons, List.map_map,
      List.foldl_cons]
    rfl

theorem maybeUpdate_keeps [FP α] {s s' : MO α} (h : maybeUpdateWeights s = .ok s') :
    s'.nDataVals = s.nDataVals ∧ s'.nValid = s.nValid ∧ s'.doBootstrap = s.doBootstrap := by
  unfold maybeUpdateWeights at h
  by_cases hm : s.modelErrors = true
  · rw [if_pos hm] at h
    unfold updateWeights at h
    cases hw : (loopMap s.nDataVals fun z => do
      let upd ← (if s.maskExists then do
        let m ← rdp s.maskVec z
        pure (flt 0 m) else pure true : Res Bool)
      if upd then
        let f ← rdp s.modelVec (modelIndex s z)
        pure (modelWeight s.effGain s.nCombined s.readNoiseAduSq s.sky f)
      else rdp s.weightVec z) with
    | error e => rw [hw] at h; cases h
    | ok w => rw [hw] at h; cases h; exact ⟨rfl, rfl, rfl⟩
  · rw [if_neg hm] at h; cases h; exact ⟨rfl, rfl, rfl⟩

/-- The number of deviates of one image. -/
theorem deviates_length [FP α] {s s' : MO α} {y : List α} (h : computeDeviates s = .ok (s', y)) : y.length = nTerms s := by
  unfold computeDeviates at h
  cases hu : maybeUpdateWeights s with
  | error e => rw [hu] at h; cases h
  | ok u =>
    rw [hu] at h
    simp only [ok_bind] at h
    cases hl : (loopMap (nTerms u) fun z => do
      let b ← termPixel u z
      if u.poissonMLR then mlrDeviate u b (modelIndex u b) else chiDeviate u b (modelIndex u b)) with
    | error e => rw [hl] at h; cases h
    | ok l =>
      rw [hl] at h
      cases h
      rw [loopMap_length hl]
      obtain ⟨a, b, c⟩ := maybeUpdate_keeps hu
      simp [nTerms, a, b, c]

theorem prepareImage_keeps [FP α] [FM α] {h : PHolder} {render : Render α} {params : List α} {i n : Nat} {m m1 : MO α}
    (hp : prepareImage h render params i n m = .ok m1) : ∃ img, m1 = withModel m img := by
  unfold prepareImage at hp
  cases h1 : imageDesc params i with
  | error e => rw [h1] at hp; cases hp
  | ok d =>
    rw [h1] at hp; simp only [ok_bind] at hp
    cases h2 : assemble h params i (List.replicate n 0) with
    | error e => rw [h2] at hp; cases hp
    | ok p =>
      rw [h2] at hp; simp only [ok_bind] at hp
      cases h3 : render i d p with
      | error e => rw [h3] at hp; cases hp
      | ok img => rw [h3] at hp; cases hp; exact ⟨img, rfl⟩

/-- C38, fit statistic, for every arithmetic: if the images agree with the multi-image object on which statistic is used, the statistic of the multi-image model is
the sum (from zero, in the order of the images) of the statistics that the single images have with their own assembled parameters. -/
theorem C38_statistic [FP α] [FM α] (cash : Bool) (h : PHolder) (sizes : List Nat) (render : Render α) (params : List α) (ms : List (MO α))
    (hc : ∀ m ∈ ms, m.useCash = cash) (n : Nat → Nat) (m1 : Nat → MO α) (r : Nat → MO α × α)
    (hi : ∀ i (hi : i < ms.length), sizes[i]? = some (n i) ∧ prepareImage h render params i (n i) ms[i] = .ok (m1 i) ∧
      getFitStatistic (m1 i) = .ok (r i)) :
    multiStatistic cash h sizes render params ms =
      .ok ((List.range ms.length).map (fun i => (r i).1), ((List.range ms.length).map fun i => (r i).2).foldl (· + ·) 0) := by
  unfold multiStatistic
  refine statisticLoop_eq cash _ ms 0 0 m1 r fun j hj => ?_
  obtain ⟨a, b, c⟩ := hi j hj
  simp only [Nat.zero_add]
  refine ⟨by simp [rd, a, b, ok_bind], ?_⟩
  obtain ⟨img, e⟩ := prepareImage_keeps b
  have hu : (m1 j).useCash = cash := by rw [e]; exact hc ms[j] (List.getElem_mem hj)
  unfold getFitStatistic at c
  unfold imageStatistic
  rw [hu] at c
  exact c

open XR in
theorem foldl_map_fin (l : List ℝ) (a : ℝ) : (l.map fin).foldl (· + ·) (fin a) = fin (a + l.sum) := by
  induction l generalizing a with
  | nil => simp
  | cons x l ih => simp only [List.map_cons, List.foldl_cons, fin_add, ih, List.sum_cons]; rw [add_assoc]

open XR in
/-- C38, fit statistic with exact arithmetic: the plain sum of the statistics of the images. -/
theorem C38_statistic_sum (cash : Bool) (h : PHolder) (sizes : List Nat) (render : Render XR) (params : List XR) (ms : List (MO XR))
    (hc : ∀ m ∈ ms, m.useCash = cash) (n : Nat → Nat) (m1 m2 : Nat → MO XR) (v : Nat → ℝ)
    (hi : ∀ i (hi : i < ms.length), sizes[i]? = some (n i) ∧ prepareImage h render params i (n i) ms[i] = .ok (m1 i) ∧
      getFitStatistic (m1 i) = .ok (m2 i, fin (v i))) :
    ∃ ms', multiStatistic cash h sizes render params ms = .ok (ms', fin ((List.range ms.length).map v).sum) := by
  refine ⟨(List.range ms.length).map m2, (C38_statistic cash h sizes render params ms hc n m1 (fun i => (m2 i, fin (v i))) hi).trans ?_⟩
  congr 2
  have : (List.range ms.length).map (fun i => fin (v i)) = ((List.range ms.length).map v).map fin := by simp
  simp only [this]
  exact (foldl_map_fin _ 0).trans (by simp)

/-- C38, valid pixels: the number for the multi-image model is the sum over the images. -/
theorem C38_valid_pixels (ms : List (MO α)) (v : Nat → Int) (hv : ∀ i (hi : i < ms.length), ms[i].nValid = some (v i)) :
    multiNValid ms = some ((List.range ms.length).map v).sum := by
  suffices ∀ (ms : List (MO α)) (v : Nat → Int) (a : Int), (∀ i (hi : i < ms.length), ms[i].nValid = some (v i)) →
      ms.foldl (fun acc m => do let a ← acc; let b ← m.nValid; pure (a + b)) (some a) = some (a + ((List.range ms.length).map v).sum) by
    simpa [multiNValid] using this ms v 0 hv
  clear hv v ms
  intro ms
  induction ms with
  | nil => intro v a _; simp
  | cons m ms ih =>
    intro v a hv
    have h0 := hv 0 (by simp)
    simp only [List.getElem_cons_zero] at h0
    have := ih (fun j => v (j + 1)) (a + v 0) (fun i hi => hv (i + 1) (by simpa using hi))
    simp only [List.foldl_cons, h0, List.length_cons, List.range_succ_eq_map, List.map_cons, List.map_map, List.sum_cons]
    rw [← add_assoc]
    exact this

/-- C38, data values: the number for the multi-image model is the sum over the images. -/
theorem C38_data_values (ms : List (MO α)) : multiNData ms = (ms.map (·.nDataVals)).sum := by
  suffices ∀ (ms : List (MO α)) (a : Nat), ms.foldl (fun acc m => acc + m.nDataVals) a = a + (ms.map (·.nDataVals)).sum by
    simpa [multiNData] using this ms 0
  intro ms
  induction ms with
  | nil => intro a; simp
  | cons m ms ih => intro a; simp only [List.foldl_cons, ih, List.map_cons, List.sum_cons]; omega

theorem deviatesLoop_eq [FP α] (prep : Nat → MO α → Res (MO α)) (ms : List (MO α)) (i : Nat) (P X S : List α) (m1 : Nat → MO α)
    (r : Nat → MO α × List α) (hX : X.length = (ms.map (·.nDataVals)).sum)
    (h : ∀ j (hj : j < ms.length), prep (i + j) ms[j] = .ok (m1 j) ∧ computeDeviates (m1 j) = .ok (r j) ∧ (r j).2.length = ms[j].nDataVals) :
    deviatesLoop prep ms i P.length (P ++ X ++ S) = .ok ((List.range ms.length).map (fun j => (r j).1),
      P ++ (List.range ms.length).flatMap (fun j => (r j).2) ++ S) := by
  induction ms generalizing i P X m1 r with
  | nil =>
    have : X = [] := List.length_eq_zero_iff.1 (by simpa using hX)
    subst this
    simp [deviatesLoop]
  | cons m ms ih =>
    obtain ⟨h1, h2, h3⟩ := h 0 (by simp)
    simp only [Nat.add_zero, List.getElem_cons_zero] at h1 h2 h3
    simp only [List.map_cons, List.sum_cons] at hX
    have hs := storeAt_eq P (X.take m.nDataVals) (X.drop m.nDataVals ++ S) (r 0).2 (by simp; omega)
    have eX : P ++ X.take m.nDataVals ++ (X.drop m.nDataVals ++ S) = P ++ X ++ S := by
      rw [List.append_assoc, ← List.append_assoc (X.take _), List.take_append_drop, List.append_assoc]
    rw [eX] at hs
    have ht := ih (i + 1) (P ++ (r 0).2) (X.drop m.nDataVals) (fun j => m1 (j + 1)) (fun j => r (j + 1)) (by simp; omega) (fun j hj => by
      have := h (j + 1) (by simpa using hj)
      simpa [show i + 1 + j = i + (j + 1) by omega] using this)
    simp only [deviatesLoop, h1, h2, ok_bind, hs]
    rw [show P.length + m.nDataVals = (P ++ (r 0).2).length by simp [h3], ← List.append_assoc (P ++ (r 0).2), ht]
    simp only [ok_bind, pure_eq_ok, List.length_cons, List.range_succ_eq_map, List.map_cons, List.map_map, List.flatMap_cons, List.flatMap_map]
    simp [Function.comp_def]

/-- C38, deviates in normal mode, for every arithmetic: the array given to the solver (one entry per data value) is filled with the deviates of the images, one image
after the other, without gaps or overlap, whatever it held before. -/
theorem C38_deviates [FP α] [FM α] (h : PHolder) (sizes : List Nat) (render : Render α) (params : List α) (ms : List (MO α))
    (hb : ∀ m ∈ ms, m.doBootstrap = false) (out : List α) (ho : multiNDeviates false ms = some (out.length : Int)) (n : Nat → Nat)
    (m1 : Nat → MO α) (r : Nat → MO α × List α)
    (hi : ∀ i (hi : i < ms.length), sizes[i]? = some (n i) ∧ prepareImage h render params i (n i) ms[i] = .ok (m1 i) ∧
      computeDeviates (m1 i) = .ok (r i)) :
    multiDeviates h sizes render params ms out =
      .ok ((List.range ms.length).map (fun i => (r i).1), (List.range ms.length).flatMap fun i => (r i).2) := by
  have hl : out.length = (ms.map (·.nDataVals)).sum := by
    simp only [multiNDeviates, Bool.false_eq_true, if_false, C38_data_values, Option.some.injEq] at ho
    exact_mod_cast ho.symm
  have := deviatesLoop_eq (fun i m => do let n ← rd sizes i; prepareImage h render params i n m) ms 0 [] out [] m1 r hl (fun j hj => by
    obtain ⟨a, b, c⟩ := hi j hj
    simp only [Nat.zero_add]
    refine ⟨by simp [rd, a, b, ok_bind], c, ?_⟩
    obtain ⟨img, e⟩ := prepareImage_keeps b
    rw [deviates_length (s' := (r j).1) c, e]
    have hbj := hb _ (List.getElem_mem hj)
    simp [nTerms, withModel, hbj])
  simpa [multiDeviates] using this

/-- C38, deviates in bootstrap mode: the same, if no image has masked pixels. (Partial: with masked pixels the claim is false, see `C38_bootstrap_overrun`.) -/
theorem C38_bootstrap_partial [FP α] [FM α] (h : PHolder) (sizes : List Nat) (render : Render α) (params : List α) (ms : List (MO α))
    (hv : ∀ m ∈ ms, m.nValid = some (m.nDataVals : Int)) (out : List α) (ho : multiNDeviates true ms = some (out.length : Int)) (n : Nat → Nat)
    (m1 : Nat → MO α) (r : Nat → MO α × List α)
    (hi : ∀ i (hi : i < ms.length), sizes[i]? = some (n i) ∧ prepareImage h render params i (n i) ms[i] = .ok (m1 i) ∧
      computeDeviates (m1 i) = .ok (r i)) :
    multiDeviates h sizes render params ms out =
      .ok ((List.range ms.length).map (fun i => (r i).1), (List.range ms.length).flatMap fun i => (r i).2) := by
  have hl : out.length = (ms.map (·.nDataVals)).sum := by
    have hs := C38_valid_pixels ms (fun i => ((ms.map (·.nDataVals)).getD i 0 : Nat)) (fun i hi => by
      rw [hv _ (List.getElem_mem hi)]
      simp [List.getD_eq_getElem?_getD, hi])
    simp only [multiNDeviates, if_true] at ho
    rw [ho] at hs
    simp only [Option.some.injEq] at hs
    have e : (List.range ms.length).map (fun i => ((ms.map (·.nDataVals)).getD i 0 : Nat)) = ms.map (·.nDataVals) := by
      conv_rhs => rw [eq_range_map_getD (ms.map (·.nDataVals)) 0]
      simp
    have e2 : (List.range ms.length).map (fun i => (((ms.map (·.nDataVals)).getD i 0 : Nat) : Int)) =
        (ms.map (·.nDataVals)).map (fun x : Nat => (x : Int)) := by
      conv_rhs => rw [← e]
      simp
    rw [e2] at hs
    have e3 : ((ms.map (·.nDataVals)).map (fun x : Nat => (x : Int))).sum = ((ms.map (·.nDataVals)).sum : Nat) := by
      generalize ms.map (·.nDataVals) = l
      induction l with
      | nil => rfl
      | cons a l ih => simp only [List.map_cons, List.sum_cons, ih]; push_cast; rfl
    rw [e3] at hs
    exact_mod_cast hs
  have := deviatesLoop_eq (fun i m => do let n ← rd sizes i; prepareImage h render params i n m) ms 0 [] out [] m1 r hl (fun j hj => by
    obtain ⟨a, b, c⟩ := hi j hj
    simp only [Nat.zero_add]
    refine ⟨by simp [rd, a, b, ok_bind], c, ?_⟩
    obtain ⟨img, e⟩ := prepareImage_keeps b
    rw [deviates_length (s' := (r j).1) c, e]
    have hvj := hv _ (List.getElem_mem hj)
    simp [nTerms, withModel, hvj])
  simpa [multiDeviates] using this

theorem storeAt_cases (out piece : List α) (start : Nat) (n : Nat) (hn : n ≤ piece.length) :
    (forN n out (fun z o => do let v ← rd piece z; wr o (start + z) v) = .error .oob ∨
      ∃ o, o.length = out.length ∧ forN n out (fun z o => do let v ← rd piece z; wr o (start + z) v) = .ok o) ∧
    (out.length < start + n → 0 < n → forN n out (fun z o => do let v ← rd piece z; wr o (start + z) v) = .error .oob) := by
  induction n with
  | zero => exact ⟨.inr ⟨out, rfl, rfl⟩, fun _ h => by omega⟩
  | succ n ih =>
    obtain ⟨ih, -⟩ := ih (by omega)
    simp only [forN]
    rcases ih with h | ⟨o, ho, h⟩
    · rw [h]; exact ⟨.inl rfl, fun _ _ => rfl⟩
    · rw [h]
      simp only [ok_bind, rd_ok (show n < piece.length by omega)]
      by_cases hlt : start + n < out.length
      · rw [wr_ok (by omega)]
        exact ⟨.inr ⟨_, by simpa using ho, rfl⟩, fun h _ => by omega⟩
      · rw [wr_oob (by omega)]
        exact ⟨.inl rfl, fun _ _ => rfl⟩

theorem deviatesLoop_overrun [FP α] (prep : Nat → MO α → Res (MO α)) (ms : List (MO α)) (last : MO α) (i start : Nat) (out : List α)
    (m1 : Nat → MO α) (r : Nat → MO α × List α)
    (h : ∀ j (hj : j < (ms ++ [last]).length), prep (i + j) (ms ++ [last])[j] = .ok (m1 j) ∧ computeDeviates (m1 j) = .ok (r j))
    (hpos : 0 < (r ms.length).2.length) (hlong : out.length < start + (ms.map (·.nDataVals)).sum + (r ms.length).2.length) :
    deviatesLoop prep (ms ++ [last]) i start out = .error .oob := by
  induction ms generalizing i start out m1 r with
  | nil =>
    obtain ⟨h1, h2⟩ := h 0 (by simp)
    simp only [Nat.add_zero, List.nil_append, List.getElem_cons_zero] at h1 h2
    simp only [List.length_nil, List.map_nil, List.sum_nil, Nat.add_zero] at hpos hlong
    have := (storeAt_cases out (r 0).2 start _ le_rfl).2 hlong hpos
    have hs : storeAt out start (r 0).2 = .error .oob := this
    simp only [List.nil_append, deviatesLoop, h1, h2, ok_bind, hs]
    rfl
  | cons m ms ih =>
    obtain ⟨h1, h2⟩ := h 0 (by simp)
    simp only [Nat.add_zero, List.cons_append, List.getElem_cons_zero] at h1 h2
    simp only [List.cons_append, deviatesLoop, h1, h2, ok_bind]
    rcases (storeAt_cases out (r 0).2 start _ le_rfl).1 with hs | ⟨o, ho, hs⟩
    · have hs' : storeAt out start (r 0).2 = .error .oob := hs
      rw [hs']; rfl
    · have hs' : storeAt out start (r 0).2 = .ok o := hs
      rw [hs']
      have := ih (i + 1) (start + m.nDataVals) o (fun j => m1 (j + 1)) (fun j => r (j + 1)) (fun j hj => by
        have := h (j + 1) (by simpa using hj)
        simpa [show i + 1 + j = i + (j + 1) by omega] using this) hpos (by
          simp only [List.length_cons, List.map_cons, List.sum_cons] at hlong
          omega)
      simp only [ok_bind, this]
      rfl

/-- C38, what goes wrong in bootstrap mode: the images are stored at intervals of their numbers of *data values* while the array given by the
solver has one entry per *valid* pixel. If an image other than the last has a masked pixel and the last one has a valid pixel, the
deviates are written beyond the end of the array. -/
theorem C38_bootstrap_overrun [FP α] [FM α] (h : PHolder) (sizes : List Nat) (render : Render α) (params : List α) (ms : List (MO α)) (last : MO α)
    (hb : ∀ m ∈ ms ++ [last], m.doBootstrap = true) (v : Nat → Nat) (hv : ∀ i (hi : i < (ms ++ [last]).length), (ms ++ [last])[i].nValid = some (v i : Int))
    (hle : ∀ i (hi : i < ms.length), v i ≤ ms[i].nDataVals) (hmask : ∃ i, ∃ hi : i < ms.length, v i < ms[i].nDataVals)
    (hlast : 0 < v ms.length) (out : List α)
    (ho : multiNDeviates true (ms ++ [last]) = some (out.length : Int)) (n : Nat → Nat) (m1 : Nat → MO α) (r : Nat → MO α × List α)
    (hi : ∀ i (hi : i < (ms ++ [last]).length), sizes[i]? = some (n i) ∧ prepareImage h render params i (n i) (ms ++ [last])[i] = .ok (m1 i) ∧
      computeDeviates (m1 i) = .ok (r i)) :
    multiDeviates h sizes render params (ms ++ [last]) out = .error .oob := by
  have hsum : ∀ (ms : List (MO α)) (v : Nat → Nat), (∀ i (hi : i < ms.length), v i ≤ ms[i].nDataVals) →
      ((List.range ms.length).map v).sum ≤ (ms.map (·.nDataVals)).sum ∧
      ((∃ i, ∃ hi : i < ms.length, v i < ms[i].nDataVals) → ((List.range ms.length).map v).sum < (ms.map (·.nDataVals)).sum) := by
    intro ms
    induction ms with
    | nil => intro v _; exact ⟨by simp, fun ⟨i, hi, _⟩ => by simp at hi⟩
    | cons m ms ih =>
      intro v hv
      have h0 := hv 0 (by simp)
      simp only [List.getElem_cons_zero] at h0
      obtain ⟨a, b⟩ := ih (fun j => v (j + 1)) (fun i hi => hv (i + 1) (by simpa using hi))
      have e : (List.map v (List.range (m :: ms).length)).sum = v 0 + (List.map (fun j => v (j + 1)) (List.range ms.length)).sum := by
        simp [List.range_succ_eq_map, Function.comp_def]
      rw [e, List.map_cons, List.sum_cons]
      refine ⟨by omega, ?_⟩
      rintro ⟨i, hi, hlt⟩
      cases i with
      | zero => simp only [List.getElem_cons_zero] at hlt; omega
      | succ i =>
        have := b ⟨i, by simpa using hi, by simpa using hlt⟩
        omega
  have hlt := (hsum ms v hle).2 hmask
  have hol : out.length = ((List.range ms.length).map v).sum + v ms.length := by
    have hs := C38_valid_pixels (ms ++ [last]) (fun i => (v i : Int)) hv
    simp only [multiNDeviates, if_true] at ho
    rw [ho, Option.some.injEq, List.length_append, List.length_singleton, List.range_succ, List.map_append, List.sum_append] at hs
    have e3 : ∀ l : List Nat, (l.map (fun i => (v i : Int))).sum = ((l.map v).sum : Nat) := by
      intro l
      induction l with
      | nil => rfl
      | cons a l ih => simp only [List.map_cons, List.sum_cons, ih]; push_cast; rfl
    rw [e3] at hs
    simp only [List.map_cons, List.map_nil, List.sum_cons, List.sum_nil] at hs
    omega
  obtain ⟨-, hp, hc⟩ := hi ms.length (by simp)
  have hlen : (r ms.length).2.length = v ms.length := by
    obtain ⟨img, e⟩ := prepareImage_keeps hp
    have hbl := hb _ (List.getElem_mem (l := ms ++ [last]) (n := ms.length) (by simp))
    have hvl := hv ms.length (by simp)
    rw [deviates_length (s' := (r ms.length).1) hc, e]
    simp only [nTerms, withModel, hbl, hvl, if_true]
    simp
  refine deviatesLoop_overrun _ ms last 0 0 out m1 r (fun j hj => ?_) (by omega) (by omega)
  obtain ⟨a, b, c⟩ := hi j hj
  simp only [Nat.zero_add]
  exact ⟨by simp [rd, a, b, ok_bind], c⟩

/-- C38, resampling: every image gets its own table of its own valid pixels, made from its own part of the stream of random numbers; the parts follow
each other. -/
theorem C38_bootstrap_samples [FP α] (ms : List (MO α)) (w : Nat → List α) (nv : Nat → Nat)
    (hb : ∀ i (hi : i < ms.length), BootReady ms[i] (w i) (nv i)) (rng : Nat → Nat) (fuel p : Nat) (ms' : List (MO α)) (p' : Nat)
    (h : multiBootstrap (fun m q => makeBootstrapSample m rng fuel q) ms p = .ok (ms', p')) :
    ms'.length = ms.length ∧ ∃ q : Nat → Nat, q 0 = p ∧ q ms.length = p' ∧ ∀ i (hi : i < ms.length), q i ≤ q (i + 1) ∧
      ∃ T, ms'[i]? = some { ms[i] with bootIdx := some T } ∧ T.length = nv i ∧ (∀ b ∈ T, ∃ x, (w i)[b]? = some x ∧ flt 0 x = true) ∧
        T = (bootDraws ms[i].nDataVals rng (q i) (q (i + 1) - q i)).filter (PosW (w i)) := by
  induction ms generalizing p ms' p' w nv with
  | nil =>
    simp only [multiBootstrap, Except.ok.injEq, Prod.mk.injEq] at h
    obtain ⟨rfl, rfl⟩ := h
    exact ⟨rfl, fun _ => p, rfl, rfl, fun i hi => by simp at hi⟩
  | cons m ms ih =>
    simp only [multiBootstrap] at h
    cases h1 : makeBootstrapSample m rng fuel p with
    | error e => rw [h1] at h; cases h
    | ok r1 =>
      rw [h1] at h; simp only [ok_bind] at h
      cases h2 : multiBootstrap (fun m q => makeBootstrapSample m rng fuel q) ms r1.2 with
      | error e => rw [h2] at h; cases h
      | ok r2 =>
        rw [h2] at h
        simp only [ok_bind, pure_eq_ok, Except.ok.injEq, Prod.mk.injEq] at h
        obtain ⟨rfl, rfl⟩ := h
        obtain ⟨T, a, b, c, d, e⟩ := C20_sample m (w 0) (nv 0) (hb 0 (by simp)) rng fuel p r1.1 r1.2 h1
        obtain ⟨hl, q, q0, q1, hq⟩ := ih (fun j => w (j + 1)) (fun j => nv (j + 1)) (fun i hi => hb (i + 1) (by simpa using hi))
          r1.2 r2.1 r2.2 h2
        refine ⟨by simp [hl], fun j => match j with | 0 => p | j + 1 => q j, rfl, q1, ?_⟩
        intro i hi
        cases i with
        | zero =>
          rw [← q0] at d e
          exact ⟨d, T, by simp [a], b, c, e⟩
        | succ i => exact hq i (by simpa using hi)

/-! ## A concrete model: two images of two pixels, the second pixel of the first image masked -/

/-- One function set with one function; second image shifted. -/
noncomputable def exTwo : MultiVals XR where
  images := [⟨.fin 1, .fin 0, .fin 1, .fin 4, .fin 5⟩]
  sets := [⟨.fin 1, .fin 1, [(⟨1, false, fun _ _ _ _ _ => .fin 0⟩, [.fin 7])]⟩]
  locals := [[], []]

theorem exTwo_wf : WellFormed exTwo.sets := by
  refine ⟨by simp [exTwo], ?_⟩
  intro s hs
  simp only [exTwo, List.mem_cons, List.not_mem_nil, or_false] at hs
  subst hs; simp

/-- A model image that depends on the image and on its parameters: `X0` in the first pixel, twice `X0` in the second. -/
noncomputable def exRender : Render XR := fun _ _ p => do
  let x ← rd p 0
  pure [x, x + x]

noncomputable def exImage (boot : Bool) (weights : List XR) (nv : Int) (idx : List Nat) : MO XR :=
  { (moInit : MO XR) with
    nDataCols := 2, nDataRows := 1, nDataVals := 2, nValid := some nv, nModelCols := 2, nModelRows := 1, nModelVals := 2,
    dataVec := some [.fin 3, .fin 9], weightVec := some weights, bootIdx := some idx, doBootstrap := boot }

open XR in
/-- Both images of the example can be prepared. -/
theorem exTwo_prep : ∃ h, (∀ a, prepareImage h exRender exTwo.vector 0 3 a = .ok (withModel a [fin 1, fin 1 + fin 1])) ∧
    (∀ b, prepareImage h exRender exTwo.vector 1 3 b = .ok (withModel b [fin 4, fin 4 + fin 4])) := by
  obtain ⟨h, sizes, hg, h0, h1⟩ := C37_assembly exTwo exTwo_wf rfl
  have hs : sizes = [3, 3] := by
    have hg' := generalSetup_eq exTwo (by rfl)
    rw [hg'] at hg
    simp only [Except.ok.injEq, Prod.mk.injEq] at hg
    rw [← hg.2]
    simp [exTwo, paramVector]
  subst hs
  refine ⟨h, fun a => ?_, fun b => ?_⟩
  · unfold prepareImage
    rw [h0 [] (List.replicate 3 0) rfl rfl]
    simp [imageDesc, exRender, paramVector, exTwo, rd, ok_bind]
  · unfold prepareImage
    rw [h1 0 _ [] (List.replicate 3 0) rfl rfl rfl]
    simp [imageDesc, extractImageParams, N_IMAGE_PARAMS, MultiVals.vector, imageVector, exRender, paramVector, exTwo, moved, SetVals.at, rd, ok_bind]

open XR in
/-- Normal mode: four deviates, the masked one zero. -/
example : ∃ h, ∀ out : List XR, out.length = 4 → ∃ ms',
    multiDeviates h [3, 3] exRender exTwo.vector [exImage false [fin 1, fin 0] 1 [], exImage false [fin 1, fin 1] 2 []] out =
      .ok (ms', [fin 2, fin 0, fin (-1), fin 1]) := by
  obtain ⟨h, h0, h1⟩ := exTwo_prep
  refine ⟨h, fun out ho => ?_⟩
  obtain ⟨a, b, c, d, rfl⟩ : ∃ a b c d, out = [a, b, c, d] := by
    match out, ho with
    | [a, b, c, d], _ => exact ⟨a, b, c, d, rfl⟩
  refine ⟨_, (C38_deviates h [3, 3] exRender exTwo.vector _ (by simp [exImage]) _ (by simp [multiNDeviates, multiNData, exImage]) (fun _ => 3)
    (fun i => if i = 0 then withModel (exImage false [fin 1, fin 0] 1 []) [fin 1, fin 1 + fin 1]
      else withModel (exImage false [fin 1, fin 1] 2 []) [fin 4, fin 4 + fin 4])
    (fun i => if i = 0 then (withModel (exImage false [fin 1, fin 0] 1 []) [fin 1, fin 1 + fin 1], [fin 2, fin 0])
      else (withModel (exImage false [fin 1, fin 1] 2 []) [fin 4, fin 4 + fin 4], [fin (-1), fin 1])) ?_).trans rfl⟩
  intro i hi
  have hi' : i < 2 := hi
  interval_cases i
  · refine ⟨rfl, h0 _, ?_⟩
    simp [computeDeviates, maybeUpdateWeights, exImage, withModel, moInit, nTerms, loopMap, termPixel, chiDeviate, modelIndex, rdp, deref, rd, ok_bind]
    norm_num
  · refine ⟨rfl, h1 _, ?_⟩
    simp [computeDeviates, maybeUpdateWeights, exImage, withModel, moInit, nTerms, loopMap, termPixel, chiDeviate, modelIndex, rdp, deref, rd, ok_bind]
    norm_num

open XR in
/-- C38 for bootstrap mode is false: two images of two pixels, one masked in the first image, array with three entries (one per valid pixel): the last
write is beyond the end. -/
theorem C38_bootstrap_false : ∃ h, ∀ out : List XR,
    multiNDeviates true [exImage true [fin 1, fin 0] 1 [0], exImage true [fin 1, fin 1] 2 [1, 0]] = some (out.length : Int) →
    multiDeviates h [3, 3] exRender exTwo.vector [exImage true [fin 1, fin 0] 1 [0], exImage true [fin 1, fin 1] 2 [1, 0]] out = .error .oob := by
  obtain ⟨h, h0, h1⟩ := exTwo_prep
  refine ⟨h, fun out ho => ?_⟩
  refine C38_bootstrap_overrun h [3, 3] exRender exTwo.vector [exImage true [fin 1, fin 0] 1 [0]] (exImage true [fin 1, fin 1] 2 [1, 0])
    (by simp [exImage]) (fun i => i + 1) ?_ (by simp [exImage]) ⟨0, by simp, by simp [exImage]⟩ (by simp) out ho (fun _ => 3)
    (fun i => if i = 0 then withModel (exImage true [fin 1, fin 0] 1 [0]) [fin 1, fin 1 + fin 1]
      else withModel (exImage true [fin 1, fin 1] 2 [1, 0]) [fin 4, fin 4 + fin 4])
    (fun i => if i = 0 then (withModel (exImage true [fin 1, fin 0] 1 [0]) [fin 1, fin 1 + fin 1], [fin 2])
      else (withModel (exImage true [fin 1, fin 1] 2 [1, 0]) [fin 4, fin 4 + fin 4], [fin 1, fin (-1)])) ?_
  · intro i hi
    have hi' : i < 2 := hi
    interval_cases i <;> rfl
  intro i hi
  have hi' : i < 2 := hi
  interval_cases i
  · refine ⟨rfl, h0 _, ?_⟩
    simp [computeDeviates, maybeUpdateWeights, exImage, withModel, moInit, nTerms, loopMap, termPixel, chiDeviate, modelIndex, rdp, deref, rd, ok_bind]
    norm_num
  · refine ⟨rfl, h1 _, ?_⟩
    simp [computeDeviates, maybeUpdateWeights, exImage, withModel, moInit, nTerms, loopMap, termPixel, chiDeviate, modelIndex, rdp, deref, rd, ok_bind]
    norm_num

open XR in
/-- Cash statistic of the two images: the masked pixel does not count. -/
example : ∃ h ms', multiStatistic true h [3, 3] exRender exTwo.vector
    [{ exImage false [fin 1, fin 0] 1 [] with useCash := true, extraVec := some [0, 0] },
     { exImage false [fin 1, fin 1] 2 [] with useCash := true, extraVec := some [0, 0] }] =
      .ok (ms', fin (2 * (1 - 3 * Real.log 1) + 2 * ((4 - 3 * Real.log 4) + (8 - 9 * Real.log 8)))) := by
  obtain ⟨h, h0, h1⟩ := exTwo_prep
  refine ⟨h, ?_⟩
  have hlm : ∀ x : ℝ, 0 < x → logModel (fin x) = fin (Real.log x) := fun x hx => by
    simp [logModel, not_le.2 hx, flog_fin_of_pos hx]
  obtain ⟨ms', e⟩ := C38_statistic_sum true h [3, 3] exRender exTwo.vector
    [{ exImage false [fin 1, fin 0] 1 [] with useCash := true, extraVec := some [0, 0] },
     { exImage false [fin 1, fin 1] 2 [] with useCash := true, extraVec := some [0, 0] }] (by simp) (fun _ => 3)
    (fun i => if i = 0 then withModel { exImage false [fin 1, fin 0] 1 [] with useCash := true, extraVec := some [0, 0] } [fin 1, fin 1 + fin 1]
      else withModel { exImage false [fin 1, fin 1] 2 [] with useCash := true, extraVec := some [0, 0] } [fin 4, fin 4 + fin 4])
    (fun i => if i = 0 then withModel { exImage false [fin 1, fin 0] 1 [] with useCash := true, extraVec := some [0, 0] } [fin 1, fin 1 + fin 1]
      else withModel { exImage false [fin 1, fin 1] 2 [] with useCash := true, extraVec := some [0, 0] } [fin 4, fin 4 + fin 4])
    (fun i => if i = 0 then 2 * (1 - 3 * Real.log 1) else 2 * ((4 - 3 * Real.log 4) + (8 - 9 * Real.log 8))) (by
      intro i hi
      have hi' : i < 2 := hi
      interval_cases i
      · refine ⟨rfl, h0 _, ?_⟩
        simp [getFitStatistic, cashStatistic, cashTerm, exImage, withModel, moInit, nTerms, forN, termPixel, modelIndex, rdp, deref, rd, ok_bind]
        norm_num [hlm]
      · refine ⟨rfl, h1 _, ?_⟩
        simp [getFitStatistic, cashStatistic, cashTerm, exImage, withModel, moInit, nTerms, forN, termPixel, modelIndex, rdp, deref, rd, ok_bind]
        norm_num [hlm])
  refine ⟨ms', e.trans ?_⟩
  simp [List.range_succ]

example : multiNValid [exImage true [] 1 [], exImage true [] 2 []] = some 3 ∧ multiNData [exImage true [] 1 [], exImage true [] 2 []] = 4 := ⟨rfl, rfl⟩

open XR in
/-- Samples of two images from one stream of draws: the masked pixel of the first image is drawn once and rejected. -/
example : ∃ a b, multiBootstrap (fun m q => makeBootstrapSample m (fun k => if k % 2 = 0 then 0 else 2147483648) 2 q)
    [exImage true [fin 1, fin 0] 1 [7], exImage true [fin 1, fin 1] 2 [7, 7]] 1 = .ok ([a, b], 5) ∧ a.bootIdx = some [0] ∧ b.bootIdx = some [1, 0] := by
  have h0 : drawIndex 2 0 = 0 := by norm_num [drawIndex]
  have h1 : drawIndex 2 2147483648 = 1 := by norm_num [drawIndex]
  simp [multiBootstrap, makeBootstrapSample, exImage, moInit, nValidNat, bootBuffer, forN, pickIndex, rdp, deref, rd, wr, ok_bind, h0, h1]

end Imfit
