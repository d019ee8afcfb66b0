import Verif.Lemmas.Text

/-!
# C35 — image-section offsets

`DetermineImageOffset` is right for every well-formed section (`C35_section`, `C35_extension_section`) and for names without one; for no name does it
read outside a vector or throw (`C35_total`; the only undefined behaviour left is `atoi` on a number that is no `int`). Not everything malformed is
reported: a section with an empty axis is taken for an extension name and gives offset 0, and letters in place of a number give -1 for that axis only
(`C35_malformed_false`). The relative `GetAllCoordsFromBracket` (used for oversampling regions) is right on well-formed text (`C35_region`) and reads
outside its vectors, or throws, on malformed text (`C35_region_false`).
-/

namespace Imfit

open Spec

namespace Spec

/-- An axis of a section: everything, or a range. -/
inductive Axis where
  | all
  | range (a b : Nat)

/-- How the axis is written. -/
def Axis.text : Axis → Str
  | .all => ['*']
  | .range a b => (Nat.repr a).toList ++ ':' :: (Nat.repr b).toList

/-- The offset the axis implies. -/
def Axis.offset : Axis → Int
  | .all => 0
  | .range a _ => (a : Int) - 1

/-- The numbers fit into an `int`. -/
def Axis.small : Axis → Prop
  | .all => True
  | .range a b => a ≤ 2147483647 ∧ b ≤ 2147483647

end Spec

theorem findFrom_at (p : Char → Bool) (s a b : Str) (c : Char) (k : Nat) (hs : s.drop k = a ++ c :: b) (ha : ∀ x ∈ a, p x = false)
    (hc : p c = true) : findFrom p s (some k) = some (k + a.length) := by
  simp only [findFrom, hs, Option.map_eq_some_iff]
  refine ⟨a.length, ?_, by omega⟩
  rw [List.findIdx?_eq_some_iff_getElem]
  refine ⟨by simp, by simpa using hc, fun j hj => ?_⟩
  rw [List.getElem_append_left hj]
  simpa using ha _ (List.getElem_mem hj)

theorem beq_false_of_notMem {c x : Char} {s : Str} (h : c ∉ s) (hx : x ∈ s) : (x == c) = false := by
  rw [beq_eq_false_iff_ne]; rintro rfl; exact h hx

theorem findFrom_absent (p : Char → Bool) (s : Str) (k : Nat) (h : ∀ x ∈ s.drop k, p x = false) : findFrom p s (some k) = none := by
  simp only [findFrom, Option.map_eq_none_iff]
  exact List.findIdx?_eq_none_iff.2 (by simpa using h)

theorem digitsVal_eq (s : Str) (acc : Nat) : digitsVal acc s = Nat.ofDigitChars 10 s acc := by
  rw [Nat.ofDigitChars_eq_foldl]
  induction s generalizing acc with
  | nil => rfl
  | cons c cs ih =>
    rw [List.foldl_cons, ← ih, Nat.mul_comm]
    rfl

theorem repr_digit (n : Nat) : ∀ c ∈ (Nat.repr n).toList, c.isDigit = true := by
  intro c hc
  rw [Nat.toList_repr] at hc
  exact Nat.isDigit_of_mem_toDigits (by decide) (by decide) hc

theorem repr_ne_nil (n : Nat) : (Nat.repr n).toList ≠ [] := by
  rw [Nat.toList_repr]; exact Nat.toDigits_ne_nil

theorem digit_ne {c x : Char} (h : c.isDigit = true) (hx : x.isDigit = false) : c ≠ x := by
  rintro rfl; rw [h] at hx; cases hx

/-- `atoi` reads back what was printed. -/
theorem atoi_repr (n : Nat) (h : n ≤ 2147483647) : atoi (Nat.repr n).toList = .ok n := by
  have hdig := repr_digit n
  have hval : digitsVal 0 (Nat.repr n).toList = n := by
    rw [digitsVal_eq, Nat.toList_repr]; exact Nat.ofDigitChars_toDigits (by decide) (by decide)
  cases hs : (Nat.repr n).toList with
  | nil => exact absurd hs (repr_ne_nil n)
  | cons c cs =>
    rw [hs] at hdig hval
    have hc := hdig c (by simp)
    have h1 : isSpaceC c = false := by
      simp only [Char.isDigit, Bool.and_eq_true, decide_eq_true_eq] at hc
      have h48 : 48 ≤ c.toNat := hc.1
      simp only [isSpaceC, Bool.or_eq_false_iff, Bool.and_eq_false_iff, decide_eq_false_iff_not]
      constructor
      · have : c ≠ ' ' := digit_ne (hdig c (by simp)) (by decide)
        simpa using this
      · right; omega
    have h2 : signSplit (c :: cs) = (false, c :: cs) := by
      have e1 : c ≠ '-' := digit_ne hc (by decide)
      have e2 : c ≠ '+' := digit_ne hc (by decide)
      unfold signSplit
      split
      · rename_i heq; exact absurd (List.cons.inj heq).1 e1
      · rename_i heq; exact absurd (List.cons.inj heq).1 e2
      · rfl
    unfold atoi
    rw [List.dropWhile_cons_of_neg (by simp [h1]), h2]
    simp only [List.takeWhile_eq_self_iff.2 hdig, hval, Bool.false_eq_true, if_false]
    rw [if_pos (by omega)]

/-- Splitting two pieces at a delimiter neither contains. -/
theorem splitString_two (a b : Str) (c : Char) (ha : a ≠ []) (hb : b ≠ []) (hac : c ∉ a) (hbc : c ∉ b) :
    splitString (a ++ c :: b) (· == c) = .ok [a, b] := by
  have fa : ∀ x ∈ a, (x == c) = false := fun x hx => beq_false_of_notMem hac hx
  have fb : ∀ x ∈ b, (x == c) = false := fun x hx => beq_false_of_notMem hbc hx
  rw [splitString_eq]
  have hdw : (a ++ c :: b).dropWhile (· == c) = a ++ c :: b := by
    cases a with
    | nil => exact absurd rfl ha
    | cons x t => rw [List.cons_append, List.dropWhile_cons_of_neg (by simp [fa x (by simp)])]
  rw [hdw, if_pos (by simp), tokens_cons _ a fa ha c (by simp), tokens_single _ b fb hb]

theorem Axis.text_ne (x : Axis) : x.text ≠ [] := by cases x <;> simp [Axis.text]

theorem Axis.text_chars (x : Axis) (c : Char) (hc : c.isDigit = false) (h1 : c ≠ '*') (h2 : c ≠ ':') : c ∉ x.text := by
  cases x with
  | all => simpa [Axis.text] using h1
  | range a b =>
    intro h
    rcases List.mem_append.1 h with h | h
    · exact digit_ne (repr_digit a c h) hc rfl
    · rcases List.mem_cons.1 h with h | h
      · exact h2 h
      · exact digit_ne (repr_digit b c h) hc rfl

theorem axisStart_text (x : Axis) (hs : x.small) : axisStart x.text = .ok (some (x.offset + 1)) := by
  cases x with
  | all => simp [axisStart, Axis.text, Axis.offset]
  | range a b =>
    have hne : Axis.text (.range a b) ≠ ['*'] := by
      intro h
      have : ':' ∈ Axis.text (.range a b) := by simp [Axis.text]
      rw [h] at this
      simp at this
    unfold axisStart
    rw [if_neg hne]
    show (do
      let sub ← splitString ((Nat.repr a).toList ++ ':' :: (Nat.repr b).toList) (· == ':')
      if sub.length ≠ 2 then .ok none
      else do
        let t ← rd sub 0
        let x ← atoi t
        pure (some x)) = _
    rw [splitString_two _ _ ':' (repr_ne_nil a) (repr_ne_nil b) (fun h => digit_ne (repr_digit a _ h) (by decide) rfl)
      (fun h => digit_ne (repr_digit b _ h) (by decide) rfl)]
    have hrd : rd [(Nat.repr a).toList, (Nat.repr b).toList] 0 = .ok (Nat.repr a).toList := rfl
    simp only [ok_bind, List.length_cons, List.length_nil, Nat.zero_add, Nat.reduceAdd, ne_eq, not_true_eq_false, if_false, hrd,
      atoi_repr a hs.1, pure_eq_ok, Axis.offset]
    congr 2
    omega

theorem comma_split (x y : Axis) : splitString (x.text ++ ',' :: y.text) (· == ',') = .ok [x.text, y.text] :=
  splitString_two _ _ ',' (Axis.text_ne x) (Axis.text_ne y) (Axis.text_chars x _ (by decide) (by decide) (by decide))
    (Axis.text_chars y _ (by decide) (by decide) (by decide))

theorem startCoords_text (x y : Axis) (hx : x.small) (hy : y.small) :
    startCoordsFromBracket (x.text ++ ',' :: y.text) = .ok (x.offset + 1, y.offset + 1) := by
  unfold startCoordsFromBracket
  rw [comma_split]
  have h0 : rd [x.text, y.text] 0 = .ok x.text := rfl
  have h1 : rd [x.text, y.text] 1 = .ok y.text := rfl
  simp only [ok_bind, h0, axisStart_text x hx, axisSecond, h1, axisStart_text y hy, pure_eq_ok]

theorem between_at (s a m b : Str) (c1 c2 : Char) (k : Nat) (hs : s = a ++ c1 :: (m ++ c2 :: b)) (hk : k = a.length) :
    between s k (k + 1 + m.length) = .ok m := by
  subst hk
  unfold between substr
  have hlen : s.length = a.length + (m.length + (b.length + 1)) + 1 := by rw [hs]; simp; omega
  rw [if_neg (by omega)]
  have e : s.drop (a.length + 1) = m ++ c2 :: b := by
    rw [hs, ← List.drop_drop, List.drop_left]; rfl
  simp only [e]
  have : a.length + 1 + m.length - a.length - 1 = m.length := by omega
  rw [this, List.take_left]

/-- No section: the offset is zero. -/
theorem C35_no_section (name : Str) (h : '[' ∉ name) : determineImageOffset name = .ok (0, 0) := by
  have : findFrom (· == '[') name (some 0) = none := findFrom_absent _ _ _ fun x hx => by
    simpa using fun he => h (by rw [List.drop_zero] at hx; exact he ▸ hx)
  simp [determineImageOffset, pixelStartCoords, this]

/-- A well-formed section gives the offsets `x1 - 1`, `y1 - 1`, or 0 for `*`, whatever the file name before and the text after it. -/
theorem C35_section (base rest : Str) (x y : Axis) (hx : x.small) (hy : y.small) (hb : '[' ∉ base) (hr : '[' ∉ rest) :
    determineImageOffset (base ++ '[' :: (x.text ++ ',' :: y.text ++ ']' :: rest)) = .ok (x.offset, y.offset) := by
  set sec := x.text ++ ',' :: y.text with hsec
  set name := base ++ '[' :: (sec ++ ']' :: rest) with hname
  have hx1 : ∀ c : Char, c.isDigit = false → c ≠ '*' → c ≠ ':' → c ≠ ',' → c ∉ sec := by
    intro c h1 h2 h3 h4 h
    rw [hsec] at h
    rcases List.mem_append.1 h with h | h
    · exact Axis.text_chars x c h1 h2 h3 h
    · rcases List.mem_cons.1 h with h | h
      · exact h4 h
      · exact Axis.text_chars y c h1 h2 h3 h
  have l1 : findFrom (· == '[') name (some 0) = some base.length := by
    have := findFrom_at (· == '[') name base (sec ++ ']' :: rest) '[' 0 rfl (fun c hc => beq_false_of_notMem hb hc) (by simp)
    rwa [Nat.zero_add] at this
  have l2 : findFrom (· == ']') name (some base.length) = some (base.length + 1 + sec.length) := by
    have := findFrom_at (· == ']') name ('[' :: sec) rest ']' base.length (by rw [hname, List.drop_left]; rfl) (fun c hc => by
      rcases List.mem_cons.1 hc with rfl | hc
      · decide
      · exact beq_false_of_notMem (hx1 ']' (by decide) (by decide) (by decide) (by decide)) hc) (by simp)
    rw [this, List.length_cons]
    congr 1; omega
  have l3 : findFrom (· == '[') name (some (base.length + 1 + sec.length)) = none := by
    apply findFrom_absent
    have e : name.drop (base.length + 1 + sec.length) = ']' :: rest := by
      rw [hname, ← List.drop_drop, ← List.drop_drop, List.drop_left]
      show (sec ++ ']' :: rest).drop sec.length = _
      rw [List.drop_left]
    rw [e]
    intro c hc
    rcases List.mem_cons.1 hc with rfl | hc
    · decide
    · exact beq_false_of_notMem hr hc
  have hbt : between name base.length (base.length + 1 + sec.length) = .ok sec := between_at name base sec rest '[' ']' _ hname rfl
  have hst := startCoords_text x y hx hy
  rw [← hsec] at hst
  have hsp : splitString sec (· == ',') = .ok [x.text, y.text] := by rw [hsec]; exact comma_split x y
  unfold determineImageOffset pixelStartCoords
  simp only [l1, l2, l3, hbt, ok_bind, pixelStartRest, hsp, List.length_cons, List.length_nil, Nat.zero_add, Nat.reduceAdd, if_true, hst, pure_eq_ok]
  congr 2 <;> omega

/-- The same behind an extension group `[ext]`. -/
theorem C35_extension_section (base ext mid rest : Str) (x y : Axis) (hx : x.small) (hy : y.small) (hb : '[' ∉ base) (hm : '[' ∉ mid)
    (he : ext ≠ []) (hec : ',' ∉ ext) (heb : ']' ∉ ext) :
    determineImageOffset (base ++ '[' :: (ext ++ ']' :: (mid ++ '[' :: (x.text ++ ',' :: y.text ++ ']' :: rest)))) = .ok (x.offset, y.offset) := by
  set sec := x.text ++ ',' :: y.text with hsec
  set tail := mid ++ '[' :: (sec ++ ']' :: rest) with htail
  set name := base ++ '[' :: (ext ++ ']' :: tail) with hname
  have hx1 : ∀ c : Char, c.isDigit = false → c ≠ '*' → c ≠ ':' → c ≠ ',' → c ∉ sec := by
    intro c h1 h2 h3 h4 h
    rw [hsec] at h
    rcases List.mem_append.1 h with h | h
    · exact Axis.text_chars x c h1 h2 h3 h
    · rcases List.mem_cons.1 h with h | h
      · exact h4 h
      · exact Axis.text_chars y c h1 h2 h3 h
  have l1 : findFrom (· == '[') name (some 0) = some base.length := by
    have := findFrom_at (· == '[') name base (ext ++ ']' :: tail) '[' 0 rfl (fun c hc => beq_false_of_notMem hb hc) (by simp)
    rwa [Nat.zero_add] at this
  have l2 : findFrom (· == ']') name (some base.length) = some (base.length + 1 + ext.length) := by
    have := findFrom_at (· == ']') name ('[' :: ext) tail ']' base.length (by rw [hname, List.drop_left]; rfl) (fun c hc => by
      rcases List.mem_cons.1 hc with rfl | hc
      · decide
      · exact beq_false_of_notMem heb hc) (by simp)
    rw [this, List.length_cons]
    congr 1; omega
  have d2 : name.drop (base.length + 1 + ext.length) = ']' :: tail := by
    rw [hname, ← List.drop_drop, ← List.drop_drop, List.drop_left]
    show (ext ++ ']' :: tail).drop ext.length = _
    rw [List.drop_left]
  have l3 : findFrom (· == '[') name (some (base.length + 1 + ext.length)) = some (base.length + 1 + ext.length + (mid.length + 1)) := by
    have := findFrom_at (· == '[') name (']' :: mid) (sec ++ ']' :: rest) '[' (base.length + 1 + ext.length) (by rw [d2, htail]; rfl) (fun c hc => by
      rcases List.mem_cons.1 hc with rfl | hc
      · decide
      · exact beq_false_of_notMem hm hc) (by simp)
    rw [this, List.length_cons]
  have d3 : name.drop (base.length + 1 + ext.length + (mid.length + 1)) = '[' :: (sec ++ ']' :: rest) := by
    rw [← List.drop_drop, d2, htail, Nat.add_comm mid.length 1, ← List.drop_drop]
    show (mid ++ _).drop mid.length = _
    rw [List.drop_left]
  have l4 : findFrom (· == ']') name (some (base.length + 1 + ext.length + (mid.length + 1))) =
      some (base.length + 1 + ext.length + (mid.length + 1) + 1 + sec.length) := by
    have := findFrom_at (· == ']') name ('[' :: sec) rest ']' _ d3 (fun c hc => by
      rcases List.mem_cons.1 hc with rfl | hc
      · decide
      · exact beq_false_of_notMem (hx1 ']' (by decide) (by decide) (by decide) (by decide)) hc) (by simp)
    rw [this, List.length_cons]
    congr 1; omega
  have hbt : between name base.length (base.length + 1 + ext.length) = .ok ext := between_at name base ext tail '[' ']' _ hname rfl
  have hbt2 : between name (base.length + 1 + ext.length + (mid.length + 1)) (base.length + 1 + ext.length + (mid.length + 1) + 1 + sec.length) =
      .ok sec := by
    refine between_at name (base ++ '[' :: (ext ++ ']' :: mid)) sec rest '[' ']' _ ?_ ?_
    · rw [hname, htail]; simp
    · simp; omega
  have hst := startCoords_text x y hx hy
  rw [← hsec] at hst
  have hsp : splitString sec (· == ',') = .ok [x.text, y.text] := by rw [hsec]; exact comma_split x y
  have hspe : splitString ext (· == ',') = .ok [ext] := by
    have hf : ∀ c ∈ ext, (c == ',') = false := fun c hc => beq_false_of_notMem hec hc
    rw [splitString_eq, if_neg]
    rw [Bool.not_eq_true, List.any_eq_false]
    intro c hc
    have := (List.dropWhile_suffix _).subset hc
    rw [hf c this]; simp
  have hel : ¬ ext.length < 1 := by
    have := List.length_pos_iff.2 he; omega
  have hrest : pixelStartRest name ext (some (base.length + 1 + ext.length + (mid.length + 1), base.length + 1 + ext.length + (mid.length + 1) + 1 + sec.length)) =
      .ok (x.offset + 1, y.offset + 1) := by
    unfold pixelStartRest
    rw [hspe, ok_bind, if_neg (by simp), if_neg (by simp only [List.length_cons, List.length_nil]; omega)]
    simp only [secondGroup, hbt2, ok_bind, hsp, List.length_cons, List.length_nil, Nat.zero_add, Nat.reduceAdd, ne_eq, not_true_eq_false, if_false, hst]
  unfold determineImageOffset pixelStartCoords
  simp only [l1, l2, l3, l4, hbt, ok_bind, hrest, pure_eq_ok]
  congr 2 <;> omega

/-- Only the value an `int` cannot hold is a problem of `atoi`. -/
theorem atoi_total (s : Str) : (∃ z, atoi s = .ok z) ∨ atoi s = .error .overflow := by
  unfold atoi
  exact (em _).elim (fun h => Or.inl ⟨_, if_pos h⟩) fun h => Or.inr (if_neg h)

theorem splitString_total (s : Str) (d : Char → Bool) : ∃ l, splitString s d = .ok l := ⟨_, splitString_eq s d⟩

theorem axisStart_total (p : Str) : (∃ z, axisStart p = .ok z) ∨ axisStart p = .error .overflow := by
  unfold axisStart
  split
  · exact Or.inl ⟨_, rfl⟩
  · obtain ⟨l, hl⟩ := splitString_total p (· == ':')
    rw [hl, ok_bind]
    split
    · exact Or.inl ⟨_, rfl⟩
    · rename_i h2
      have h2 : l.length = 2 := not_not.1 h2
      rw [rd_ok (by omega), ok_bind]
      rcases atoi_total l[0] with ⟨z, hz⟩ | hz
      · rw [hz]; exact Or.inl ⟨_, rfl⟩
      · rw [hz]; exact Or.inr rfl

theorem startCoords_total (s : Str) (l : List Str) (hl : splitString s (· == ',') = .ok l) (h2 : l.length = 2) :
    (∃ z, startCoordsFromBracket s = .ok z) ∨ startCoordsFromBracket s = .error .overflow := by
  unfold startCoordsFromBracket
  rw [hl, ok_bind, rd_ok (by omega), ok_bind]
  rcases axisStart_total l[0] with ⟨z, hz⟩ | hz
  · rw [hz, ok_bind]
    unfold axisSecond
    cases z with
    | none => exact Or.inl ⟨_, rfl⟩
    | some x =>
      simp only
      rw [rd_ok (by omega), ok_bind]
      rcases axisStart_total l[1] with ⟨z, hz⟩ | hz
      · rw [hz, ok_bind]
        cases z with
        | none => exact Or.inl ⟨_, rfl⟩
        | some y => exact Or.inl ⟨_, rfl⟩
      · rw [hz]; exact Or.inr rfl
  · rw [hz]; exact Or.inr rfl

theorem findFrom_lt {p : Char → Bool} {s : Str} {k n : Nat} (h : findFrom p s (some k) = some n) : n < s.length ∧ k ≤ n := by
  obtain ⟨j, rfl, hj, _⟩ := findFrom_some p s k n h
  rw [List.length_drop] at hj
  omega

theorem between_total {s : Str} {a : Nat} (b : Nat) (h : a < s.length) : ∃ t, between s a b = .ok t := by
  unfold between substr
  rw [if_neg (by omega)]
  exact ⟨_, rfl⟩

theorem pixelStartRest_total (name sec : Str) (second : Option (Nat × Nat)) (h : ∀ p, second = some p → p.1 < name.length) :
    (∃ z, pixelStartRest name sec second = .ok z) ∨ pixelStartRest name sec second = .error .overflow := by
  unfold pixelStartRest
  obtain ⟨l, hl⟩ := splitString_total sec (· == ',')
  rw [hl, ok_bind]
  split
  · rename_i h2; exact startCoords_total sec l hl h2
  · split
    · exact Or.inl ⟨_, rfl⟩
    · cases second with
      | none => exact Or.inl ⟨_, rfl⟩
      | some p =>
        obtain ⟨a, b⟩ := p
        simp only
        unfold secondGroup
        obtain ⟨t, ht⟩ := between_total b (h (a, b) rfl)
        rw [ht, ok_bind]
        obtain ⟨l2, hl2⟩ := splitString_total t (· == ',')
        rw [hl2, ok_bind]
        split
        · exact Or.inl ⟨_, rfl⟩
        · rename_i h2; exact startCoords_total t l2 hl2 (not_not.1 h2)

/-- For every file name the function returns; it never reads outside a vector or string. The one exception is `atoi` on a number too large for an
`int`, whose behaviour C leaves undefined. -/
theorem C35_total (name : Str) : (∃ r, determineImageOffset name = .ok r) ∨ determineImageOffset name = .error .overflow := by
  have key : (∃ r, pixelStartCoords name = .ok r) ∨ pixelStartCoords name = .error .overflow := by
    unfold pixelStartCoords
    cases h1 : findFrom (· == '[') name (some 0) with
    | none => exact Or.inl ⟨_, rfl⟩
    | some l1 =>
      simp only
      cases h2 : findFrom (· == ']') name (some l1) with
      | none => exact Or.inl ⟨_, rfl⟩
      | some l2 =>
        simp only
        obtain ⟨t, ht⟩ := between_total l2 (findFrom_lt h1).1
        cases h3 : findFrom (· == '[') name (some l2) with
        | none =>
          simp only
          rw [ht, ok_bind]
          exact pixelStartRest_total name t none (by simp)
        | some l3 =>
          simp only
          cases h4 : findFrom (· == ']') name (some l3) with
          | none => exact Or.inl ⟨_, rfl⟩
          | some l4 =>
            simp only
            rw [ht, ok_bind]
            exact pixelStartRest_total name t _ (by rintro _ ⟨⟩; exact (findFrom_lt h3).1)
  unfold determineImageOffset
  rcases key with ⟨r, hr⟩ | hr
  · rw [hr]; exact Or.inl ⟨_, rfl⟩
  · rw [hr]; exact Or.inr rfl

/-- Malformed sections that are *not* reported (a report is the pair of offsets -1, -1): an empty y axis gives zero offsets; letters give -1 for one
axis only; and a number that is no `int` is undefined behaviour. -/
theorem C35_malformed_false : determineImageOffset "a[10:20,]".toList = .ok (0, 0) ∧ determineImageOffset "a[x:20,5:9]".toList = .ok (-1, 4) ∧
    determineImageOffset "a[9999999999:1,5:9]".toList = .error .overflow := by decide

/-- Malformed sections that are reported. -/
theorem C35_malformed_reported : determineImageOffset "a[10:20,5]".toList = .ok (-1, -1) ∧ determineImageOffset "a[10,5:6]".toList = .ok (-1, -1) ∧
    determineImageOffset "a[1:2:3,5:6]".toList = .ok (-1, -1) ∧ determineImageOffset "a[1:2,3:4,5:6]".toList = .ok (-1, -1) ∧
    determineImageOffset "a[1:2,3:4".toList = .ok (-1, -1) ∧ determineImageOffset "a[]".toList = .ok (-1, -1) := by decide

theorem axisBoth_range (a b : Nat) (ha : a ≤ 2147483647) (hb : b ≤ 2147483647) (chk : Bool) :
    axisBoth (Axis.text (.range a b)) chk = .ok (some ((a : Int), (b : Int))) := by
  have hne : Axis.text (.range a b) ≠ ['*'] := by
    intro h
    have : ':' ∈ Axis.text (.range a b) := by simp [Axis.text]
    rw [h] at this
    simp at this
  have hsp : splitString (Axis.text (.range a b)) (· == ':') = .ok [(Nat.repr a).toList, (Nat.repr b).toList] :=
    splitString_two _ _ ':' (repr_ne_nil a) (repr_ne_nil b) (fun h => digit_ne (repr_digit a _ h) (by decide) rfl)
      (fun h => digit_ne (repr_digit b _ h) (by decide) rfl)
  unfold axisBoth
  rw [if_neg hne, hsp]
  have h0 : rd [(Nat.repr a).toList, (Nat.repr b).toList] 0 = .ok (Nat.repr a).toList := rfl
  have h1 : rd [(Nat.repr a).toList, (Nat.repr b).toList] 1 = .ok (Nat.repr b).toList := rfl
  simp only [ok_bind, List.length_cons, List.length_nil, Nat.zero_add, Nat.reduceAdd, bne_self_eq_false, Bool.and_false, Bool.false_eq_true, if_false,
    h0, h1, atoi_repr a ha, atoi_repr b hb, pure_eq_ok]

/-- Region text `x1:x2,y1:y2` is read correctly. -/
theorem C35_region (a b c d : Nat) (ha : a ≤ 2147483647) (hb : b ≤ 2147483647) (hc : c ≤ 2147483647) (hd : d ≤ 2147483647) :
    allCoordsFromBracket (Axis.text (.range a b) ++ ',' :: Axis.text (.range c d)) = .ok ((a : Int), (b : Int), (c : Int), (d : Int)) := by
  set s := Axis.text (.range a b) ++ ',' :: Axis.text (.range c d) with hs
  have hbr : ∀ x ∈ s, x ≠ '[' ∧ x ≠ ']' := by
    intro x hx
    rw [hs] at hx
    rcases List.mem_append.1 hx with h | h
    · constructor <;> (rintro rfl; exact Axis.text_chars _ _ (by decide) (by decide) (by decide) h)
    · rcases List.mem_cons.1 h with rfl | h
      · decide
      · constructor <;> (rintro rfl; exact Axis.text_chars _ _ (by decide) (by decide) (by decide) h)
  have hne : s ≠ [] := by rw [hs]; simp
  have hpos := List.length_pos_iff.2 hne
  have h1 : findFrom (fun c => !(c == '[')) s (some 0) = some 0 := by
    cases hc : s with
    | nil => exact absurd hc hne
    | cons x t =>
      have := (hbr x (by rw [hc]; simp)).1
      have hx : (x == '[') = false := by simpa using this
      simp [findFrom, List.findIdx?_cons, hx]
  have h2 : findLast (fun c => !(c == ']')) s = some (s.length - 1) := by
    cases hc : s.reverse with
    | nil => simp at hc; exact absurd hc hne
    | cons x t =>
      have := (hbr x (by rw [← List.mem_reverse, hc]; simp)).2
      have hx : (x == ']') = false := by simpa using this
      simp [findLast, hc, List.findIdx?_cons, hx]
  have ht : trimBrackets s = .ok s := by
    unfold trimBrackets
    rw [h1, h2]
    simp only [substr]
    rw [if_neg (by omega)]
    have e : s.length - 1 + 1 - 0 = s.length := by omega
    rw [e, List.drop_zero, List.take_length]
  unfold allCoordsFromBracket
  rw [ht, ok_bind]
  have hsp : splitString s (· == ',') = .ok [Axis.text (.range a b), Axis.text (.range c d)] := comma_split _ _
  have h0 : rd [Axis.text (.range a b), Axis.text (.range c d)] 0 = .ok (Axis.text (.range a b)) := rfl
  have h1 : rd [Axis.text (.range a b), Axis.text (.range c d)] 1 = .ok (Axis.text (.range c d)) := rfl
  simp only [hsp, ok_bind, h0, axisBoth_range a b ha hb, axisBothSecond, h1, axisBoth_range c d hc hd, Option.getD_some, pure_eq_ok]

/-- Malformed region text: no comma, or no colon on the x axis, reads past the end of a vector; an empty text throws; `*` loses the end. -/
theorem C35_region_false : allCoordsFromBracket "10:20".toList = .error .oob ∧ allCoordsFromBracket "10,5:6".toList = .error .oob ∧
    allCoordsFromBracket [] = .error .throw ∧ allCoordsFromBracket "[[".toList = .error .throw := by decide

/-- Non-vacuous. -/
example : determineImageOffset "dir/im.fits[101:250,*]".toList = .ok (100, 0) := by
  have := C35_section "dir/im.fits".toList [] (.range 101 250) .all (by simp [Axis.small]) trivial (by decide) (by decide)
  exact this

example : determineImageOffset "im.fits[2][5:9,3:4]".toList = .ok (4, 2) := by
  have := C35_extension_section "im.fits".toList "2".toList [] [] (.range 5 9) (.range 3 4) (by simp [Axis.small]) (by simp [Axis.small]) (by decide)
    (by decide) (by decide) (by decide) (by decide)
  exact this

end Imfit
