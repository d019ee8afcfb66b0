import Verif.Props.C105
import Mathlib.Data.List.Dedup

/-!
# C107 — The number of threads is the number of processor cores, or the one asked for
-/

namespace Imfit

open Spec

variable {α : Type}

namespace Spec

def physLine (s : Nat) : Str := "physical id\t: ".toList ++ (Nat.repr s).toList
def coreLine (k : Nat) : Str := "cpu cores\t: ".toList ++ (Nat.repr k).toList

/-- `/proc/cpuinfo` of a computer: one block for each logical processor, which tells the socket and the number of cores in it. -/
def cpuText (extra : Nat → List Str) (k : Nat) (sockets : List Nat) : List Str := sockets.flatMap fun s => extra s ++ [physLine s, coreLine k, []]

/-- A line about something else. -/
def Other (l : Str) : Prop := ¬ "physical id".toList <:+: l ∧ ¬ "cpu cores".toList <:+: l

end Spec

/-- Number of threads of the model object of `imfit`. `core/imfit_main.cpp:165-171`, `core/setup_model_object.cpp:51-52`. -/
def imfitThreads [FP α] (num : Str → α) (lines : List Str) (argv : List Str) : Res Int := do
  let c ← physicalCores lines
  let o ← processInput num c argv
  setMaxThreads o.maxThreads

theorem sub_iff (k s : Str) : hasSub k s = true ↔ k <:+: s := by
  simp [hasSub]

theorem phys_has (s : Nat) : hasSub "physical id".toList (physLine s) = true := by
  have e : "physical id\t: ".toList = "physical id".toList ++ "\t: ".toList := by decide +kernel
  exact (sub_iff _ _).2 ⟨[], "\t: ".toList ++ (Nat.repr s).toList, (List.append_assoc _ _ _).symm.trans (congrArg (· ++ (Nat.repr s).toList) e.symm)⟩

theorem no_h : 'h' ∉ "cpu cores\t: ".toList := by decide +kernel

theorem core_hasNot (k : Nat) : hasSub "physical id".toList (coreLine k) = false := by
  have hq : 'h' ∈ "physical id".toList := by decide +kernel
  have hn : 'h' ∉ coreLine k := fun hm => (List.mem_append.1 hm).elim no_h fun hm => Bool.noConfusion ((show 'h'.isDigit = false by decide).symm.trans (repr_digit k 'h' hm))
  exact Bool.eq_false_iff.2 fun h => hn (((sub_iff _ _).1 h).subset hq)

theorem core_has (k : Nat) : hasSub "cpu cores".toList (coreLine k) = true := by
  have e : "cpu cores\t: ".toList = "cpu cores".toList ++ "\t: ".toList := by decide +kernel
  exact (sub_iff _ _).2 ⟨[], "\t: ".toList ++ (Nat.repr k).toList, (List.append_assoc _ _ _).symm.trans (congrArg (· ++ (Nat.repr k).toList) e.symm)⟩

theorem physLine_inj : Function.Injective physLine := by
  intro a b h
  have := List.append_cancel_left h
  have h2 : wholeVal (Nat.repr a).toList = wholeVal (Nat.repr b).toList := by rw [this]
  rw [wholeVal_repr, wholeVal_repr] at h2
  exact_mod_cast h2

theorem digit_notBlank {c : Char} (h : c.isDigit = true) : isBlank c = false := by
  by_contra hb
  simp only [isBlank, Bool.not_eq_false, Bool.or_eq_true, beq_iff_eq] at hb
  rcases hb with (rfl | rfl) | rfl <;> revert h <;> decide

theorem coresStep_core (s : List Str × Int) (k : Nat) (hk : k ≤ 2147483647) : coresStep s (coreLine k) = .ok (s.1, (k : Int)) := by
  have hl : coreLine k = "cpu cores\t:".toList ++ ' ' :: (Nat.repr k).toList := by
    have e : "cpu cores\t: ".toList = "cpu cores\t:".toList ++ [' '] := by decide +kernel
    exact (congrArg (· ++ (Nat.repr k).toList) e).trans (List.append_assoc _ _ _)
  have hd : (coreLine k).dropWhile isBlank = coreLine k := by
    have e : "cpu cores\t: ".toList = 'c' :: "pu cores\t: ".toList := by decide +kernel
    have e' : coreLine k = 'c' :: ("pu cores\t: ".toList ++ (Nat.repr k).toList) := congrArg (· ++ (Nat.repr k).toList) e
    have hc : ¬ (isBlank 'c' = true) := by decide
    rw [e', List.dropWhile_cons, if_neg hc]
  have ht : splitString (coreLine k) isBlank = .ok (["cpu".toList, "cores".toList, ":".toList] ++ [(Nat.repr k).toList]) := by
    rw [splitString_eq, if_pos]
    · rw [hl, tokens_append_cons _ _ _ _ (by decide), tokens_single _ (Nat.repr k).toList (fun c hc => digit_notBlank (repr_digit k c hc)) (repr_ne_nil k)]
      rw [show tokens isBlank "cpu cores\t:".toList = ["cpu".toList, "cores".toList, ":".toList] by decide +kernel]
    · rw [List.any_eq_true, hd, hl]
      exact ⟨' ', by simp, by decide⟩
  unfold coresStep
  rw [core_hasNot, core_has, if_neg (by decide), if_pos rfl, ht, ok_bind]
  have hr : rdI (["cpu".toList, "cores".toList, ":".toList] ++ [(Nat.repr k).toList])
      (((["cpu".toList, "cores".toList, ":".toList] ++ [(Nat.repr k).toList]).length : Int) - 1) = .ok (Nat.repr k).toList := rfl
  rw [hr, ok_bind, atol_repr k (by omega), ok_bind, longToInt_id _ (by omega) (by omega)]

theorem coresStep_phys (s : List Str × Int) (i : Nat) : coresStep s (physLine i) = .ok (if physLine i ∈ s.1 then s else (physLine i :: s.1, s.2)) := by
  have h := phys_has i
  generalize physLine i = l at h ⊢
  unfold coresStep
  rw [h, if_pos rfl]

theorem coresStep_other (s : List Str × Int) (l : Str) (h : Other l) : coresStep s l = .ok s := by
  unfold coresStep
  rw [if_neg (by rw [sub_iff]; exact h.1), if_neg (by rw [sub_iff]; exact h.2)]

theorem foldl_other (ls : List Str) (h : ∀ l ∈ ls, Other l) (s : List Str × Int) : ls.foldlM coresStep s = .ok s := by
  induction ls with
  | nil => rfl
  | cons l ls ih => rw [List.foldlM_cons, coresStep_other s l (h l (by simp)), ok_bind, ih fun l hl => h l (by simp [hl])]

theorem kept_phys (s : Nat) : cpuLine (physLine s) = true := by rfl
theorem kept_core (k : Nat) : cpuLine (coreLine k) = true := by rfl

/-- The distinct sockets so far. -/
theorem cpuText_fold (extra : Nat → List Str) (he : ∀ s, ∀ l ∈ extra s, Other l) (k : Nat) (hk : k ≤ 2147483647) (sockets : List Nat) (ids : List Nat) (hid : ids.Nodup) (c : Int) :
    ∃ ids' : List Nat, ((cpuText extra k sockets).filter cpuLine).foldlM coresStep (ids.map physLine, c) = .ok (ids'.map physLine, if sockets = [] then c else k) ∧ ids'.Nodup ∧
      ∀ x, x ∈ ids' ↔ x ∈ ids ∨ x ∈ sockets := by
  induction sockets generalizing ids c with
  | nil => exact ⟨ids, rfl, hid, by simp⟩
  | cons s sockets ih =>
    have hblock : ((extra s ++ [physLine s, coreLine k, []]).filter cpuLine).foldlM coresStep (ids.map physLine, c) =
        .ok ((if s ∈ ids then ids else s :: ids).map physLine, (k : Int)) := by
      have hf : ([physLine s, coreLine k, []] : List Str).filter cpuLine = [physLine s, coreLine k] := by
        simp only [List.filter_cons, kept_phys, kept_core, if_true, show cpuLine [] = false from rfl]
        rfl
      rw [List.filter_append, hf, List.foldlM_append, foldl_other _ (fun l hl => he s l (List.mem_filter.1 hl).1), ok_bind, List.foldlM_cons, coresStep_phys, ok_bind,
        List.foldlM_cons, coresStep_core _ _ hk]
      have hmem : physLine s ∈ ids.map physLine ↔ s ∈ ids := List.mem_map_of_injective physLine_inj
      by_cases hs : s ∈ ids
      · rw [if_pos (hmem.2 hs), if_pos hs]; rfl
      · rw [if_neg (fun h => hs (hmem.1 h)), if_neg hs]; rfl
    have hnd : (if s ∈ ids then ids else s :: ids).Nodup := by
      split
      · exact hid
      · rename_i hs; exact List.nodup_cons.2 ⟨hs, hid⟩
    obtain ⟨ids', h1, h2, h3⟩ := ih _ hnd (k : Int)
    refine ⟨ids', ?_, h2, fun x => ?_⟩
    · rw [cpuText, List.flatMap_cons, List.filter_append, List.foldlM_append, hblock, ok_bind]
      have hk' : (if sockets = [] then (k : Int) else k) = k := by split <;> rfl
      have hs' : (if s :: sockets = [] then c else (k : Int)) = k := if_neg (by simp)
      rw [hs']
      rw [hk'] at h1
      exact h1
    · rw [h3]
      by_cases hs : s ∈ ids
      · rw [if_pos hs, List.mem_cons]
        constructor
        · rintro (h | h)
          · exact .inl h
          · exact .inr (.inr h)
        · rintro (h | rfl | h)
          · exact .inl h
          · exact .inl hs
          · exact .inr h
      · rw [if_neg hs, List.mem_cons, List.mem_cons]
        tauto

theorem nodup_length {ids l : List Nat} (h : ids.Nodup) (hm : ∀ x, x ∈ ids ↔ x ∈ l) : ids.length = l.dedup.length :=
  ((List.perm_ext_iff_of_nodup h l.nodup_dedup).2 fun x => by rw [hm, List.mem_dedup]).length_eq

/-- The cores are counted: the number of sockets times the number of cores in each. Missing: computers without "physical id" (`C107_noSocket_false`) and with different processors
(`C107_mixed_false`). -/
theorem C107_cores_partial (extra : Nat → List Str) (he : ∀ s, ∀ l ∈ extra s, Other l) (k : Nat) (sockets : List Nat) (hb : sockets.dedup.length * k ≤ 2147483647) :
    physicalCores (cpuText extra k sockets) = .ok (sockets.dedup.length * k : Nat) := by
  by_cases hs : sockets = []
  · subst hs
    rw [show ([] : List Nat).dedup.length * k = 0 by simp]
    rfl
  have hpos : 1 ≤ sockets.dedup.length := by
    rw [Nat.one_le_iff_ne_zero, Ne, List.length_eq_zero_iff, List.dedup_eq_nil]
    exact hs
  have hk : k ≤ 2147483647 := le_trans (Nat.le_mul_of_pos_left k hpos) hb
  obtain ⟨ids, h1, h2, h3⟩ := cpuText_fold extra he k hk sockets [] List.nodup_nil 0
  have hl := nodup_length h2 (by simpa using h3)
  unfold physicalCores
  rw [show (([], 0) : List Str × Int) = (([] : List Nat).map physLine, 0) from rfl, h1, ok_bind, if_neg hs]
  have hz : (((ids.map physLine).length : Int) * (k : Int)) = ((sockets.dedup.length * k : Nat) : Int) := by rw [List.length_map, hl]; push_cast; rfl
  simp only [hz]
  rw [if_pos ⟨by omega, by omega⟩]

variable [FP α]

/-- The fit uses as many threads as there are cores, or as many as asked for. Missing: as above, and C105. -/
theorem C107_threads_partial (num : Str → α) (extra : Nat → List Str) (he : ∀ s, ∀ l ∈ extra s, Other l) (k : Nat) (hk : 1 ≤ k) (sockets : List Nat) (hs : sockets ≠ [])
    (hb : sockets.dedup.length * k ≤ 2147483647) (prog : Str) (as : List Str) (hp : ∀ a ∈ as, Plain a) (hne : as ≠ []) (es : List Ev)
    (hm : meaning imfitDecls true none as = some es) (hw : Working (cmdGiven imfitDecls es)) (hf : WellFormed (cmdGiven imfitDecls es)) :
    imfitThreads num (cpuText extra k sockets) (prog :: as) =
      .ok ((((cmdGiven imfitDecls es).first "max-threads").map wholeVal).getD (sockets.dedup.length * k : Nat)) := by
  obtain ⟨o, h1, h2⟩ := C105_settings_partial num (sockets.dedup.length * k : Nat) prog as hp hne es hm hw hf
  have hpos : 1 ≤ sockets.dedup.length := by
    rw [Nat.one_le_iff_ne_zero, Ne, List.length_eq_zero_iff, List.dedup_eq_nil]
    exact hs
  rw [imfitThreads, C107_cores_partial extra he k sockets hb, ok_bind, h1, ok_bind, h2.maxThreads, setMaxThreads, if_pos]
  cases hg : (cmdGiven imfitDecls es).first "max-threads" with
  | none =>
    have : 1 ≤ sockets.dedup.length * k := Nat.mul_pos hpos hk
    simpa using (by exact_mod_cast this : (1 : Int) ≤ ((sockets.dedup.length * k : Nat) : Int))
  | some t => simpa using (whole_bounds (hf.threads t (by simp [hg]))).1

/-- On a computer whose `/proc/cpuinfo` has no "physical id" (ARM processors, some virtual machines) the number of cores is 0, and `imfit` ends in an assertion unless
`--max-threads` is given; whatever else is on the command line. -/
theorem C107_noSocket_false (num : Str → α) (lines : List Str) (hl : ∀ l ∈ lines, Other l) (prog : Str) (as : List Str) (hp : ∀ a ∈ as, Plain a) (hne : as ≠ []) (es : List Ev)
    (hm : meaning imfitDecls true none as = some es) (hw : Working (cmdGiven imfitDecls es)) (hf : WellFormed (cmdGiven imfitDecls es))
    (ht : (cmdGiven imfitDecls es).first "max-threads" = none) :
    imfitThreads num lines (prog :: as) = .error .assert := by
  have h0 : physicalCores lines = .ok 0 := by
    unfold physicalCores
    rw [foldl_other _ fun l h => hl l (List.mem_filter.1 h).1, ok_bind]
    rfl
  obtain ⟨o, h1, h2⟩ := C105_settings_partial num 0 prog as hp hne es hm hw hf
  rw [imfitThreads, h0, ok_bind, h1, ok_bind, h2.maxThreads, ht]
  rfl

omit [FP α] in
/-- Two sockets with 4 and 8 cores are counted as 16 cores (12), or as 8 if the smaller one comes last. -/
theorem C107_mixed_false :
    physicalCores [physLine 0, coreLine 4, [], physLine 1, coreLine 8, []] = .ok 16 ∧ physicalCores [physLine 1, coreLine 8, [], physLine 0, coreLine 4, []] = .ok 8 := by
  exact ⟨by decide +kernel, by decide +kernel⟩

/-- Two sockets, 6 logical processors, 3 cores in each socket. -/
example : cpuText (fun _ => ["processor\t: 0".toList, "vendor_id\t: GenuineIntel".toList]) 3 [0, 0, 0, 1, 1, 1] ≠ [] ∧
    (∀ l ∈ ["processor\t: 0".toList, "vendor_id\t: GenuineIntel".toList], Other l) ∧ ([0, 0, 0, 1, 1, 1] : List Nat).dedup.length * 3 = 6 ∧
    physicalCores (cpuText (fun _ => ["processor\t: 0".toList, "vendor_id\t: GenuineIntel".toList]) 3 [0, 0, 0, 1, 1, 1]) = .ok 6 := by
  refine ⟨by decide +kernel, ?_, by decide, by decide +kernel⟩
  unfold Other
  decide +kernel

/-- A computer of which only the number of processors is known. -/
example : ∀ l ∈ ["processor\t: 0".toList, "BogoMIPS\t: 48.00".toList, "CPU implementer\t: 0x61".toList, []], Other l := by
  unfold Other
  decide +kernel

end Imfit
