import Verif.Spec.Registry
import Verif.Model.Plane
import Verif.Model.LineSight
import Verif.Model.Func
import Verif.Lemmas.DriverStart
import Verif.Props.C34

/-!
# C123 — The functions that are offered

Every function in the list of `--list-functions` can be used, and no other; a class does not hide another one with the same name; the constructors stay within their tables of names
and units; the list of `--list-parameters` shows for each function the names and units of the parameters that it has, and as many as its `Setup` reads.
-/

namespace Imfit

open Spec

/-! ## The map of factories -/

theorem lookup_mapSet {β : Type} (k k' : Str) (v : β) (m : List (Str × β)) : (mapSet k v m).lookup k' = if k' = k then some v else m.lookup k' := by
  have step : ∀ (p : Str × β) (m : List (Str × β)), (p :: m).lookup k' = if k' = p.1 then some p.2 else m.lookup k' := by
    intro p m
    rw [List.lookup_cons]
    by_cases h : k' = p.1
    · simp [h]
    · have : (k' == p.1) = false := by simpa using h
      simp [this, h]
  induction m with
  | nil => rw [mapSet, step]
  | cons p m ih =>
    rw [mapSet]
    split
    · rw [step]
    · split
      · rename_i h
        rw [step, step, ← h]
        split <;> rfl
      · rename_i h
        rw [step, step, ih]
        by_cases h1 : k' = p.1
        · have : k' ≠ k := fun e => h (e.symm.trans h1)
          simp [h1, h1 ▸ this]
        · simp [h1]

theorem lookup_foldl (cs : List FuncClass) (hn : (cs.map FuncClass.name).Nodup) (m : List (Str × FuncClass)) :
    (∀ c ∈ cs, (cs.foldl (fun m c => mapSet c.name c m) m).lookup c.name = some c) ∧
    (∀ n, n ∉ cs.map FuncClass.name → (cs.foldl (fun m c => mapSet c.name c m) m).lookup n = m.lookup n) := by
  induction cs generalizing m with
  | nil => exact ⟨fun c h => (by cases h), fun n _ => rfl⟩
  | cons d cs ih =>
    rw [List.map_cons, List.nodup_cons] at hn
    obtain ⟨h1, h2⟩ := ih hn.2 (mapSet d.name d m)
    simp only [List.foldl_cons]
    refine ⟨fun c hc => ?_, fun n h => ?_⟩
    · rcases List.mem_cons.1 hc with rfl | hc
      · rw [h2 _ hn.1, lookup_mapSet, if_pos rfl]
      · exact h1 c hc
    · simp only [List.map_cons, List.mem_cons, not_or] at h
      rw [h2 n h.2, lookup_mapSet, if_neg h.1]

/-- Any classes with different names: each is found under its name, and nothing else is found. -/
theorem C123_registered (cs : List FuncClass) (hn : (cs.map FuncClass.name).Nodup) :
    (∀ c ∈ cs, (factoryMap cs).lookup c.name = some c) ∧ ∀ n, n ∉ cs.map FuncClass.name → (factoryMap cs).lookup n = none :=
  ⟨(lookup_foldl cs hn []).1, fun n h => (lookup_foldl cs hn []).2 n h⟩

theorem loopMap_rd {β : Type} (l : List β) (n : Nat) (h : l.length = n) : loopMap n (fun i => rd l i) = .ok l := by
  subst h
  simpa using loopMap_list l (fun i => rd l i) id fun i hi => rd_ok hi

/-! ## The order of the map -/

theorem strLess_iff (a b : Str) : strLess a b = true ↔ Before a b := by
  unfold Before
  induction a generalizing b with
  | nil => cases b with
    | nil => simp [strLess]
    | cons y b => simp [strLess]
  | cons x a ih => cases b with
    | nil => simp [strLess]
    | cons y b =>
      rw [strLess, List.map_cons, List.map_cons, List.cons_lt_cons_iff]
      by_cases h : x = y
      · subst h
        simp [ih]
      · have : x.toNat ≠ y.toNat := fun e => h (Char.toNat_inj.1 e)
        simp [h, this]

theorem toNat_text_inj {a b : Str} (h : a.map Char.toNat = b.map Char.toNat) : a = b :=
  List.map_injective_iff.2 (fun _ _ e => Char.toNat_inj.1 e) h

theorem before_trans {a b c : Str} (h1 : Before a b) (h2 : Before b c) : Before a c := lt_trans (α := List Nat) h1 h2

theorem before_of_not {a b : Str} (h : strLess a b ≠ true) (hne : a ≠ b) : Before b a := by
  rw [ne_eq, strLess_iff] at h
  rcases lt_trichotomy (a.map Char.toNat) (b.map Char.toNat) with h1 | h1 | h1
  · exact absurd h1 h
  · exact absurd (toNat_text_inj h1) hne
  · exact h1

theorem mem_keys_mapSet {β : Type} (k : Str) (v : β) (m : List (Str × β)) (x : Str) : x ∈ (mapSet k v m).map Prod.fst ↔ x = k ∨ x ∈ m.map Prod.fst := by
  induction m with
  | nil => simp [mapSet]
  | cons p m ih =>
    rw [mapSet]
    split
    · simp
    · split
      · rename_i h
        simp [h]
      · rw [List.map_cons, List.mem_cons, ih, List.map_cons, List.mem_cons]
        tauto

theorem mapSet_sorted {β : Type} (k : Str) (v : β) (m : List (Str × β)) (h : (m.map Prod.fst).Pairwise Before) : ((mapSet k v m).map Prod.fst).Pairwise Before := by
  induction m with
  | nil => simp [mapSet]
  | cons p m ih =>
    rw [List.map_cons, List.pairwise_cons] at h
    rw [mapSet]
    split
    · rename_i hl
      rw [strLess_iff] at hl
      rw [List.map_cons, List.map_cons, List.pairwise_cons, List.pairwise_cons]
      refine ⟨fun x hx => ?_, h⟩
      rcases List.mem_cons.1 hx with rfl | hx
      · exact hl
      · exact before_trans hl (h.1 x hx)
    · rename_i hl
      split
      · rename_i he
        rw [List.map_cons, List.pairwise_cons]
        exact ⟨fun x hx => by rw [he]; exact h.1 x hx, h.2⟩
      · rename_i hne
        rw [List.map_cons, List.pairwise_cons]
        refine ⟨fun x hx => ?_, ih h.2⟩
        rw [mem_keys_mapSet] at hx
        rcases hx with rfl | hx
        · exact before_of_not hl hne
        · exact h.1 x hx

/-- Any classes: the map has the names of the classes, each once and in alphabetical order, whatever the order of registration. -/
theorem C123_sorted (cs : List FuncClass) : ((factoryMap cs).map Prod.fst).Pairwise Before ∧ ∀ n, n ∈ (factoryMap cs).map Prod.fst ↔ n ∈ cs.map FuncClass.name := by
  have : ∀ (cs : List FuncClass) (m : List (Str × FuncClass)), (m.map Prod.fst).Pairwise Before →
      ((cs.foldl (fun m c => mapSet c.name c m) m).map Prod.fst).Pairwise Before ∧
      ∀ n, n ∈ (cs.foldl (fun m c => mapSet c.name c m) m).map Prod.fst ↔ n ∈ m.map Prod.fst ∨ n ∈ cs.map FuncClass.name := by
    intro cs
    induction cs with
    | nil => exact fun m h => ⟨h, fun n => by simp⟩
    | cons c cs ih =>
      intro m h
      obtain ⟨h1, h2⟩ := ih _ (mapSet_sorted c.name c m h)
      refine ⟨h1, fun n => ?_⟩
      rw [List.foldl_cons, h2, mem_keys_mapSet, List.map_cons, List.mem_cons]
      tauto
  obtain ⟨h1, h2⟩ := this cs [] List.Pairwise.nil
  exact ⟨h1, fun n => by rw [show factoryMap cs = cs.foldl (fun m c => mapSet c.name c m) [] from rfl, h2]; simp⟩

/-! ## The registered classes -/

theorem standard_nodup : (standardClasses.map FuncClass.name).Nodup := by decide +kernel

theorem standard_counts : ∀ c ∈ standardClasses, c.labels.length = c.n ∧ c.units.length = c.n := by decide +kernel

theorem create_standard {c : FuncClass} (h : c ∈ standardClasses) : c.create = .ok ⟨c.name, c.labels, c.units⟩ := by
  obtain ⟨h1, h2⟩ := standard_counts c h
  unfold FuncClass.create
  rw [loopMap_rd _ _ h1, ok_bind, loopMap_rd _ _ h2, ok_bind]

theorem mem_mapSet {β : Type} {k : Str} {v : β} {m : List (Str × β)} {q : Str × β} (h : q ∈ mapSet k v m) : q = (k, v) ∨ q ∈ m := by
  induction m with
  | nil => simpa [mapSet] using h
  | cons p m ih =>
    rw [mapSet] at h
    split at h
    · simpa using h
    · split at h
      · rcases List.mem_cons.1 h with h | h
        · exact .inl h
        · exact .inr (List.mem_cons_of_mem _ h)
      · rcases List.mem_cons.1 h with h | h
        · exact .inr (by simp [h])
        · rcases ih h with h | h
          · exact .inl h
          · exact .inr (List.mem_cons_of_mem _ h)

theorem mem_factoryMap {cs : List FuncClass} {q : Str × FuncClass} (h : q ∈ factoryMap cs) : q.2 ∈ cs ∧ q.1 = q.2.name := by
  have : ∀ (cs : List FuncClass) (m : List (Str × FuncClass)), q ∈ cs.foldl (fun m c => mapSet c.name c m) m → (q.2 ∈ cs ∧ q.1 = q.2.name) ∨ q ∈ m := by
    intro cs
    induction cs with
    | nil => exact fun m h => .inr h
    | cons d cs ih =>
      intro m h
      rcases ih _ h with ⟨h1, h2⟩ | h
      · exact .inl ⟨List.mem_cons_of_mem _ h1, h2⟩
      · rcases mem_mapSet h with rfl | h
        · exact .inl ⟨by simp, rfl⟩
        · exact .inr h
  rcases this cs [] h with h | h
  · exact h
  · cases h

/-- C123, names: `--list-functions` shows the names of the registered classes, each once, in alphabetical order. -/
theorem C123_names : ∃ names, functionNames standardClasses = .ok names ∧ names.Perm (standardClasses.map FuncClass.name) ∧ names.Pairwise Before := by
  refine ⟨(factoryMap standardClasses).map fun q => q.1, ?_, ?_, ?_⟩
  · unfold functionNames
    refine mapM_ok _ _ _ fun q hq => ?_
    obtain ⟨h1, h2⟩ := mem_factoryMap hq
    rw [create_standard h1, ok_bind, h2]
  · decide +kernel
  · decide +kernel

/-- C123, use: `AddFunctions` finds exactly the functions that are listed, with the parameters of the class of that name. -/
theorem C123_usable (names : List Str) (h : functionNames standardClasses = .ok names) (psf : Bool) (name : Str) :
    (name ∈ names ↔ ∃ c ∈ standardClasses, c.name = name) ∧
    (∀ c ∈ standardClasses, c.name = name → (standardCatalogue psf).params name = some c.labels ∧ standardUnits name = some c.units ∧ c.labels.length = c.n ∧ c.units.length = c.n) ∧
    (name ∉ names → (standardCatalogue psf).params name = none ∧ parameterNames standardClasses name = .ok none) := by
  obtain ⟨names', h1, h2, -⟩ := C123_names
  rw [h] at h1
  cases h1
  have hmem : name ∈ names ↔ ∃ c ∈ standardClasses, c.name = name := by rw [h2.mem_iff, List.mem_map]
  obtain ⟨r1, r2⟩ := C123_registered standardClasses standard_nodup
  refine ⟨hmem, ?_, fun hn => ?_⟩
  · rintro c hc rfl
    obtain ⟨k1, k2⟩ := standard_counts c hc
    refine ⟨?_, ?_, k1, k2⟩
    · simp only [standardCatalogue, parameterNames, r1 c hc, create_standard hc, ok_bind]
    · simp only [standardUnits, r1 c hc, create_standard hc]
  · have hno : name ∉ standardClasses.map FuncClass.name := fun h => hn (h2.mem_iff.2 h)
    have : parameterNames standardClasses name = .ok none := by simp only [parameterNames, r2 name hno]
    exact ⟨by simp only [standardCatalogue, this], this⟩

theorem newline_text : "\n".toList = ['\n'] := by decide

theorem comment_text : "\t\t# ".toList = ['\t', '\t', '#', ' '] := by decide

theorem parameterItems (c : FuncClass) (h1 : c.labels.length = c.n) (h2 : c.units.length = c.n) :
    loopMap c.labels.length (parameterItem ⟨c.name, c.labels, c.units⟩) = .ok ((c.labels.zip c.units).map listedLine) := by
  have hz : (c.labels.zip c.units).length = c.labels.length := by rw [List.length_zip]; omega
  have := loopMap_list (c.labels.zip c.units) (parameterItem ⟨c.name, c.labels, c.units⟩) listedLine fun i hi => by
    rw [hz] at hi
    unfold parameterItem
    simp only
    rw [rd_ok hi, ok_bind, rd_ok (by omega : i < c.units.length), ok_bind]
    rw [List.getElem_zip, listedLine, newline_text, comment_text]
    simp only
    split
    · rw [List.append_nil]
    · simp only [List.append_assoc]
  rw [hz] at this
  exact this

theorem parameterBlock_of (c : FuncClass) (h1 : c.labels.length = c.n) (h2 : c.units.length = c.n) (e2 : c.create = .ok ⟨c.name, c.labels, c.units⟩) :
    parameterBlock c = .ok (listedBlock c.name (c.labels.zip c.units)) := by
  have e := parameterItems c h1 h2
  have e4 : listedBlock c.name (c.labels.zip c.units) = "\nFUNCTION ".toList ++ c.name ++ ['\n'] ++ ((c.labels.zip c.units).map listedLine).flatten := rfl
  rw [e4]
  generalize (c.labels.zip c.units).map listedLine = L at e ⊢
  unfold parameterBlock
  rw [e2, ok_bind]
  simp only
  rw [e]
  rfl

theorem parameterBlock_standard {c : FuncClass} (h : c ∈ standardClasses) : parameterBlock c = .ok (listedBlock c.name (c.labels.zip c.units)) := by
  exact parameterBlock_of c (standard_counts c h).1 (standard_counts c h).2 (create_standard h)

/-- C123, list: `--list-parameters` shows for every function, in the order of `--list-functions`, a line `FUNCTION` with its name as it has to be written in a configuration file and one
line for each parameter with its name and unit. -/
theorem C123_list (names : List Str) (h : functionNames standardClasses = .ok names) :
    parameterList standardClasses = .ok ("\nAvailable function/components:\n".toList ++
      (names.flatMap fun n => listedBlock n ((((standardCatalogue true).params n).getD []).zip ((standardUnits n).getD []))) ++ "\n\n".toList) := by
  have hu := C123_usable names h true
  have hn : names = (factoryMap standardClasses).map fun q => q.1 := by
    have : functionNames standardClasses = .ok ((factoryMap standardClasses).map fun q => q.1) := by
      unfold functionNames
      refine mapM_ok _ _ _ fun q hq => ?_
      obtain ⟨h1, h2⟩ := mem_factoryMap hq
      rw [create_standard h1, ok_bind, h2]
    exact Except.ok.inj (h.symm.trans this)
  unfold parameterList
  rw [mapM_ok (factoryMap standardClasses) _ (fun q => listedBlock q.1 ((((standardCatalogue true).params q.1).getD []).zip ((standardUnits q.1).getD []))) (by
    intro q hq
    obtain ⟨h1, h2⟩ := mem_factoryMap hq
    obtain ⟨e1, e2, -⟩ := (hu q.1).2.1 q.2 h1 h2.symm
    rw [e1, e2, parameterBlock_standard h1, h2]; rfl), ok_bind, hn, List.flatMap_map]
  rfl

/-- C123, numbers of parameters: the functions of the model take as many values in `Setup` as the list shows. -/
theorem C123_setup (k1 : XR → XR) :
    (∀ p ∈ ([("BrokenExponential", .brokenExp), ("ModifiedKing", .king), ("ModifiedKing2", .king2), ("GaussianRing", .gaussRing), ("GaussianRing2Side", .gaussRing2),
      ("Core-Sersic", .coreSersic), ("Exponential_GenEllipse", .genExp), ("Sersic_GenEllipse", .genSersic), ("FerrersBar2D", .ferrers), ("EdgeOnRing", .edgeRing),
      ("EdgeOnRing2Side", .edgeRing2), ("BrokenExponential2D", .brokenExp2d), ("EdgeOnDisk", .edgeDisk k1), ("FlatBar", .flatBar)] : List (String × PFun XR)),
      ((standardCatalogue true).params p.1.toList).map List.length = some p.2.nPars) ∧
    (∀ p ∈ ([("ExponentialDisk3D", .expDisk), ("BrokenExponentialDisk3D", .brokenDisk), ("GaussianRing3D", .ring), ("FerrersBar3D", .ferrers), ("DattathriPeanut3D", .peanut)] :
      List (String × LFun)), (standardCatalogue true).params p.1.toList = some (p.2.labels.map String.toList) ∧ p.2.labels.length = p.2.nPars) := by
  constructor
  · intro p hp
    simp only [List.mem_cons, List.not_mem_nil, or_false] at hp
    rcases hp with rfl | rfl | rfl | rfl | rfl | rfl | rfl | rfl | rfl | rfl | rfl | rfl | rfl | rfl
    case inr.inr.inr.inr.inr.inr.inr.inr.inr.inr.inr.inr.inl =>
      simp only [PFun.nPars]
      decide +kernel
    all_goals decide +kernel
  · decide +kernel

/-! ## Examples -/

/-- What is listed for `Sersic`. -/
example : (standardClasses[1]?.map fun c => (parameterBlock c).toOption) =
    some (some "\nFUNCTION Sersic\nPA\t\t# deg (CCW from +y axis)\nell\nn\nI_e\t\t# counts/pixel\nr_e\t\t# pixels\n".toList) := by decide +kernel

/-- The first names and the number of names. -/
example : ((functionNames standardClasses).toOption.map fun l => (l.take 3, l.length)) =
    some (["BrokenExponential".toList, "BrokenExponential2D".toList, "BrokenExponentialDisk3D".toList], 28) := by decide +kernel

/-- Names are compared with their case. -/
example : (standardCatalogue true).params "sersic".toList = none ∧ (standardCatalogue true).params "Core-Sersic".toList ≠ none := by decide +kernel

/-- A class with the name of another one hides it, and a class that announces more parameters than its tables hold reads outside them. -/
example : let a : FuncClass := ⟨"F".toList, 1, ["p".toList], ["".toList]⟩
    let b : FuncClass := ⟨"F".toList, 2, ["p".toList, "q".toList], ["".toList, "".toList]⟩
    (factoryMap [a, b]).map (fun q => q.2.n) = [2] ∧
    (functionNames [⟨"F".toList, 2, ["p".toList], ["".toList]⟩]).toOption = none ∧ (functionNames [b]).toOption = some ["F".toList] := by decide +kernel

end Imfit
