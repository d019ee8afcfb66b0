import Verif.Model.Twister
import Verif.Spec.Twister
import Verif.Lemmas.BootErr

/-!
# C23 — Random generator: range, recurrence and determinism
-/

namespace Imfit

open Spec

/-- A 32-bit word in a 64-bit variable. -/
def ext (x : BitVec 32) : W64 := x.setWidth 64

theorem ext_toNat (a : BitVec 32) : (ext a).toNat = a.toNat := by
  have := a.isLt
  simp [ext]; omega

theorem ext_xor (a b : BitVec 32) : ext a ^^^ ext b = ext (a ^^^ b) := by simp [ext]
theorem ext_or (a b : BitVec 32) : ext a ||| ext b = ext (a ||| b) := by simp [ext]
theorem ext_and (a b : BitVec 32) : ext a &&& ext b = ext (a &&& b) := by simp [ext]

theorem ext_shr (a : BitVec 32) (n : Nat) : ext a >>> n = ext (a >>> n) := by
  apply BitVec.eq_of_toNat_eq
  simp [ext, BitVec.toNat_ushiftRight]

theorem ext_shl_and (a b : BitVec 32) (n : Nat) : (ext a <<< n) &&& ext b = ext ((a <<< n) &&& b) := by
  apply BitVec.eq_of_getLsbD_eq
  intro i hi
  simp only [ext, BitVec.getLsbD_and, BitVec.getLsbD_shiftLeft, BitVec.getLsbD_setWidth]
  by_cases h : i < 32
  · have : i - n < 64 := by omega
    simp [h, hi, this]
  · rw [BitVec.getLsbD_of_ge b i (by omega)]; simp

theorem low32 (x : W64) : x &&& 0xffffffff#64 = ext (x.setWidth 32) := by
  apply BitVec.eq_of_toNat_eq
  have : (0xffffffff#64).toNat = 2 ^ 32 - 1 := rfl
  rw [BitVec.toNat_and, this, Nat.and_two_pow_sub_one_eq_mod]
  simp [ext]
  omega

theorem setWidth_ext (x : BitVec 32) : (ext x).setWidth 32 = x := by simp [ext]

theorem tempering_ext (x : BitVec 32) : tempering (ext x) = ext (mtTemper x) := by
  unfold tempering mtTemper
  have e1 : 0x9d2c5680#64 = ext 0x9d2c5680#32 := by decide
  have e2 : 0xefc60000#64 = ext 0xefc60000#32 := by decide
  rw [e1, e2]
  simp only [ext_shr, ext_xor, ext_shl_and]

theorem initWord_ext (p : BitVec 32) (k : Nat) :
    (1812433253#64 * (ext p ^^^ (ext p >>> 30)) + BitVec.ofNat 64 k) &&& 0xffffffff#64 = ext (1812433253#32 * (p ^^^ (p >>> 30)) + BitVec.ofNat 32 k) := by
  rw [low32, ext_shr, ext_xor, BitVec.setWidth_add _ _ (by omega), BitVec.setWidth_mul _ _ (by omega), setWidth_ext]
  congr 2
  apply BitVec.eq_of_toNat_eq
  simp

/-- The table holds words `base`, ..., `base + 623` of the sequence. -/
def Holds (w : Nat → BitVec 32) (base : Nat) (mt : List W64) : Prop := mt = tab 624 fun i => ext (w (base + i))

theorem initGenrand_ok (s : W64) (st : MT) (h : st.mt.length = 624) :
    initGenrand s st = .ok ⟨tab 624 fun i => ext (mtInit (s.setWidth 32) i), 624⟩ := by
  unfold initGenrand
  rw [wr_ok (by omega), ok_bind, low32]
  obtain ⟨g, hg⟩ : ∃ g, st.mt = tab 624 g := ⟨fun i => st.mt.getD i 0, by rw [← h]; exact eq_range_map_getD _ _⟩
  have := forN_ok 623 (st.mt.set 0 (ext (s.setWidth 32))) initStep
    (fun z => tab 624 fun i => if i ≤ z then ext (mtInit (s.setWidth 32) i) else g i) (by
      rw [hg]
      apply List.ext_getElem
      · simp [tab]
      · intro i h1 h2
        simp only [tab, List.getElem_map, List.getElem_range, List.getElem_set]
        by_cases hi : i = 0
        · subst hi; simp [mtInit]
        · rw [if_neg (by omega), if_neg (by omega)]) (by
      intro z hz
      unfold initStep
      rw [rd_tab _ (by omega), ok_bind, if_pos (le_refl _), initWord_ext, wr_tab _ _ (by omega)]
      refine congrArg Except.ok (tab_congr fun i hi => ?_)
      by_cases h1 : i = z + 1
      · subst h1; simp [mtInit]
      · simp only [h1, if_false]
        by_cases h2 : i ≤ z
        · rw [if_pos h2, if_pos (by omega)]
        · rw [if_neg h2, if_neg (by omega)])
  rw [this, ok_bind]
  refine congrArg (fun m => Except.ok (MT.mk m 624)) (tab_congr fun i hi => ?_)
  rw [if_pos (by omega)]

/-! ## Generation -/

attribute [local irreducible] tab

theorem mtExtend_lt (x : Nat → BitVec 32) {k : Nat} (h : k < 624) : mtExtend x k = x k := by
  rw [mtExtend, dif_pos h]

theorem mtExtend_ge (x : Nat → BitVec 32) (k : Nat) :
    mtExtend x (k + 624) = mtExtend x (k + 397) ^^^ mtTimesA (mtExtend x k) (mtExtend x (k + 1)) := by
  rw [mtExtend, dif_neg (by omega), Nat.add_sub_cancel]

theorem twist_words (a b c : BitVec 32) :
    (do
      let y := (ext a &&& 0x80000000#64) ||| (ext b &&& 0x7fffffff#64)
      let g ← rd [0x0#64, 0x9908b0df#64] (y &&& 1#64).toNat
      (.ok (ext c ^^^ (y >>> 1) ^^^ g) : Res W64)) = .ok (ext (c ^^^ mtTimesA a b)) := by
  have e1 : 0x80000000#64 = ext 0x80000000#32 := by decide
  have e2 : 0x7fffffff#64 = ext 0x7fffffff#32 := by decide
  have e3 : 1#64 = ext 1#32 := by decide
  unfold mtTimesA
  simp only [e1, e2, e3, ext_and, ext_or, ext_shr, ext_xor]
  generalize (a &&& 0x80000000#32) ||| (b &&& 0x7fffffff#32) = z
  have hz : (ext (z &&& 1#32)).toNat = if z.getLsbD 0 then 1 else 0 := by
    have : (ext (z &&& 1#32)).toNat = z.toNat % 2 := by
      simp [ext, Nat.and_one_is_mod]
    rw [this]
    simp only [BitVec.getLsbD, Nat.testBit_zero]
    split
    · rename_i h; simpa using h
    · rename_i h; simp at h; omega
  rw [hz]
  cases z.getLsbD 0
  · have : rd [0x0#64, 0x9908b0df#64] (if false = true then 1 else 0) = .ok (ext 0#32) := rfl
    rw [this, ok_bind, ext_xor, BitVec.xor_assoc]
    rfl
  · have : rd [0x0#64, 0x9908b0df#64] (if true = true then 1 else 0) = .ok (ext 0x9908b0df#32) := rfl
    rw [this, ok_bind, ext_xor, BitVec.xor_assoc]
    rfl

/-- The table while it is being regenerated: words below `k` are new. -/
def mixed (w : Nat → BitVec 32) (base k : Nat) : List W64 := tab 624 fun i => ext (w (if i < k then base + 624 + i else base + i))

theorem twistStep_ok (w : Nat → BitVec 32) (base k next m : Nat) (hk : k < 624) (hn : next < 624) (hm : m < 624)
    (h1 : (if next < k then base + 624 + next else base + next) = base + k + 1) (h2 : (if m < k then base + 624 + m else base + m) = base + k + 397)
    (hw : ∀ k, w (k + 624) = w (k + 397) ^^^ mtTimesA (w k) (w (k + 1))) :
    twistStep (mixed w base k) k next m = .ok (mixed w base (k + 1)) := by
  unfold twistStep mixed
  rw [rd_tab _ hk, ok_bind, rd_tab _ hn, ok_bind, rd_tab _ hm, ok_bind, if_neg (lt_irrefl k), h1, h2]
  have := twist_words (w (base + k)) (w (base + k + 1)) (w (base + k + 397))
  simp only at this ⊢
  cases hg : rd [0x0#64, 0x9908b0df#64] ((ext (w (base + k)) &&& 0x80000000#64 ||| ext (w (base + k + 1)) &&& 0x7fffffff#64) &&& 1#64).toNat with
  | error e => rw [hg] at this; cases this
  | ok g =>
    rw [hg, ok_bind] at this
    injection this with this
    rw [ok_bind, this, wr_tab _ _ hk, ← hw]
    refine congrArg Except.ok (tab_congr fun i hi => ?_)
    by_cases e : i = k
    · subst e
      rw [if_pos rfl, if_pos (by omega), show base + i + 624 = base + 624 + i by omega]
    · rw [if_neg e]
      by_cases h : i < k
      · rw [if_pos h, if_pos (by omega)]
      · rw [if_neg h, if_neg (by omega)]

theorem regenerate_ok (w : Nat → BitVec 32) (base : Nat) (hw : ∀ k, w (k + 624) = w (k + 397) ^^^ mtTimesA (w k) (w (k + 1))) :
    regenerate (tab 624 fun i => ext (w (base + i))) = .ok (tab 624 fun i => ext (w (base + 624 + i))) := by
  unfold regenerate
  have e0 : (tab 624 fun i => ext (w (base + i))) = mixed w base 0 := tab_congr fun i _ => by simp
  have e1 := forN_ok 227 (mixed w base 0) (fun k mt => twistStep mt k (k + 1) (k + 397)) (fun z => mixed w base z) rfl (by
    intro z hz
    exact twistStep_ok w base z _ _ (by omega) (by omega) (by omega) (by rw [if_neg (by omega)]; omega) (by rw [if_neg (by omega)]; omega) hw)
  have e2 := forN_ok 396 (mixed w base 227) (fun z mt => twistStep mt (227 + z) (227 + z + 1) z) (fun z => mixed w base (227 + z)) rfl (by
    intro z hz
    exact twistStep_ok w base (227 + z) _ _ (by omega) (by omega) (by omega) (by rw [if_neg (by omega)]; omega) (by rw [if_pos (by omega)]; omega) hw)
  rw [e0, e1, ok_bind, e2, ok_bind]
  have e3 := twistStep_ok w base 623 0 396 (by omega) (by omega) (by omega) (by rw [if_pos (by omega)]) (by rw [if_pos (by omega)]) hw
  have e4 : mixed w base (623 + 1) = tab 624 fun i => ext (w (base + 624 + i)) := tab_congr fun i hi => by rw [if_pos (by omega)]
  rw [← e4]
  exact e3

/-- The generator is about to deliver number `p` of the stream of `x`. -/
def At (x : Nat → BitVec 32) (p : Nat) (st : MT) : Prop :=
  ∃ base, st.mt = (tab 624 fun i => ext (mtExtend x (base + i))) ∧ st.mti ≤ 624 ∧ base + st.mti = 624 + p

theorem genrand_at {x : Nat → BitVec 32} {p : Nat} {st : MT} (h : At x p st) :
    ∃ st', genrandInt32 st = .ok (ext (mtStream x p), st') ∧ At x (p + 1) st' := by
  obtain ⟨base, hm, hi, hp⟩ := h
  unfold genrandInt32 refill
  by_cases h : st.mti ≥ 624
  · have e : st.mti = 624 := by omega
    rw [if_pos h, if_neg (by omega), hm, regenerate_ok _ base (mtExtend_ge x), ok_bind, ok_bind]
    simp only
    rw [rd_tab _ (by omega), ok_bind, tempering_ext]
    refine ⟨⟨_, 0 + 1⟩, ?_, base + 624, rfl, by simp, by simp; omega⟩
    rw [show base + 624 + 0 = 624 + p by omega]
    rfl
  · rw [if_neg h, ok_bind, hm, rd_tab _ (by omega), ok_bind, tempering_ext]
    refine ⟨⟨_, st.mti + 1⟩, ?_, base, rfl, by simp; omega, by simp; omega⟩
    rw [hp]
    rfl

theorem draws_at {x : Nat → BitVec 32} (n : Nat) {p : Nat} {st : MT} (h : At x p st) :
    ∃ st', draws genrandInt32 n st = .ok ((List.range n).map (fun k => ext (mtStream x (p + k))), st') ∧ At x (p + n) st' := by
  induction n generalizing p st with
  | zero => exact ⟨st, rfl, h⟩
  | succ n ih =>
    obtain ⟨st1, h1, a1⟩ := genrand_at h
    obtain ⟨st2, h2, a2⟩ := ih a1
    refine ⟨st2, ?_, by rw [show p + (n + 1) = p + 1 + n by omega]; exact a2⟩
    unfold draws
    rw [h1, ok_bind, h2, ok_bind, List.range_succ_eq_map, List.map_cons, List.map_map]
    simp only [Function.comp_def, Nat.add_zero]
    refine congrArg (fun l => Except.ok (_ :: l, st2)) (List.map_congr_left fun k _ => ?_)
    rw [show p + 1 + k = p + Nat.succ k by omega]

theorem init_at (s : W64) (st : MT) (h : st.mt.length = 624) : ∃ st', initGenrand s st = .ok st' ∧ At (mtInit (s.setWidth 32)) 0 st' := by
  refine ⟨_, initGenrand_ok s st h, 0, ?_, by simp, by simp⟩
  refine tab_congr fun i hi => ?_
  rw [Nat.zero_add, mtExtend_lt _ hi]

/-- **C23, stream.** After seeding, whatever the state was before, the generator yields the MT19937 stream of the seed, for ever. -/
theorem C23_stream (s : W64) (st : MT) (h : st.mt.length = 624) (n : Nat) :
    ∃ st', (do let st1 ← initGenrand s st; draws genrandInt32 n st1) =
      .ok ((List.range n).map (fun k => ext (mtStream (mtInit (s.setWidth 32)) k)), st') := by
  obtain ⟨st1, h1, a1⟩ := init_at s st h
  obtain ⟨st2, h2, -⟩ := draws_at n a1
  refine ⟨st2, ?_⟩
  rw [h1, ok_bind, h2]
  simp

/-- Without seeding, the stream is that of the seed 5489. -/
theorem C23_unseeded (n : Nat) :
    ∃ st', draws genrandInt32 n MT.start = .ok ((List.range n).map (fun k => ext (mtStream (mtInit 5489#32) k)), st') := by
  cases n with
  | zero => exact ⟨_, rfl⟩
  | succ n =>
    have hs : genrandInt32 MT.start = (do let st1 ← initGenrand 5489#64 MT.start; genrandInt32 st1) := by
      rw [initGenrand_ok _ _ (by rw [MT.start, List.length_replicate]), ok_bind]
      unfold genrandInt32 refill
      have e : MT.start.mti = 625 := rfl
      rw [if_pos (by rw [e]; omega), if_pos e, initGenrand_ok _ _ (by rw [MT.start, List.length_replicate]), ok_bind]
      simp only [ge_iff_le, le_refl, if_true]
      rw [if_neg (by omega)]
    obtain ⟨st1, h1, a1⟩ := init_at 5489#64 MT.start (by rw [MT.start, List.length_replicate])
    obtain ⟨st2, h2, -⟩ := draws_at (n + 1) a1
    refine ⟨st2, ?_⟩
    unfold draws at h2 ⊢
    rw [hs, h1, ok_bind, h2]
    have : (5489#64).setWidth 32 = 5489#32 := by decide
    simp [this]

/-! ## Initialisation by an array -/

/-- 32-bit words in a table. -/
def mtWords (x : Nat → BitVec 32) : List W64 := tab 624 fun i => ext (x i)

theorem wr_words (x : Nat → BitVec 32) {i : Nat} (h : i < 624) (v : BitVec 32) : wr (mtWords x) i (ext v) = .ok (mtWords (mtSet x i v)) := by
  unfold mtWords
  rw [wr_tab _ _ h]
  refine congrArg Except.ok (tab_congr fun k _ => ?_)
  unfold mtSet
  split <;> rfl

theorem rd_words (x : Nat → BitVec 32) {i : Nat} (h : i < 624) : rd (mtWords x) i = .ok (ext (x i)) := rd_tab _ h

theorem put_words (x : Nat → BitVec 32) {i : Nat} (h1 : 1 ≤ i) (h2 : i ≤ 623) (v : BitVec 32) :
    (do let mt ← wr (mtWords x) i (ext v); wrapI mt i) = .ok (mtWords (mtPut x i v).1, (mtPut x i v).2) := by
  rw [wr_words _ (by omega), ok_bind]
  unfold wrapI mtPut
  by_cases h : i = 623
  · rw [if_pos (by omega), if_pos h, rd_words _ (by omega), ok_bind, wr_words _ (by omega), ok_bind]
    simp [mtSet, h]
  · rw [if_neg (by omega), if_neg h]

theorem put_range (x : Nat → BitVec 32) {i : Nat} (h1 : 1 ≤ i) (h2 : i ≤ 623) (v : BitVec 32) : 1 ≤ (mtPut x i v).2 ∧ (mtPut x i v).2 ≤ 623 := by
  unfold mtPut
  split
  · simp
  · simp; omega

theorem keyWord_ext (a p : BitVec 32) (k : W64) (c : Nat) :
    ((ext a ^^^ ((ext p ^^^ (ext p >>> 30)) * 1664525#64)) + k + BitVec.ofNat 64 c) &&& 0xffffffff#64 =
      ext ((a ^^^ ((p ^^^ (p >>> 30)) * 1664525#32)) + k.setWidth 32 + BitVec.ofNat 32 c) := by
  rw [low32, ext_shr, ext_xor, BitVec.setWidth_add _ _ (by omega), BitVec.setWidth_add _ _ (by omega), BitVec.setWidth_xor, BitVec.setWidth_mul _ _ (by omega),
    setWidth_ext, setWidth_ext]
  congr 2
  apply BitVec.eq_of_toNat_eq
  simp

theorem mixWord_ext (a p : BitVec 32) (c : Nat) :
    ((ext a ^^^ ((ext p ^^^ (ext p >>> 30)) * 1566083941#64)) - BitVec.ofNat 64 c) &&& 0xffffffff#64 =
      ext ((a ^^^ ((p ^^^ (p >>> 30)) * 1566083941#32)) - BitVec.ofNat 32 c) := by
  rw [low32, ext_shr, ext_xor, BitVec.sub_eq_add_neg, BitVec.sub_eq_add_neg, BitVec.setWidth_add _ _ (by omega), BitVec.setWidth_xor,
    BitVec.setWidth_mul _ _ (by omega), setWidth_ext, setWidth_ext]
  congr 2
  apply BitVec.eq_of_toNat_eq
  simp

theorem rdI_words (x : Nat → BitVec 32) {i : Nat} (h1 : 1 ≤ i) (h2 : i ≤ 624) : rdI (mtWords x) ((i : Int) - 1) = .ok (ext (x (i - 1))) := by
  unfold rdI
  rw [if_neg (by omega), show ((i : Int) - 1).toNat = i - 1 by omega, rd_words _ (by omega)]

theorem keyStep_ok (key : List W64) (s : MtKeyState) (h1 : 1 ≤ s.i) (h2 : s.i ≤ 623) (hj : s.j < key.length) :
    keyStep key (mtWords s.x, s.i, s.j) = .ok (mtWords (mtKeyStep (key.map (·.setWidth 32)) s).x, (mtKeyStep (key.map (·.setWidth 32)) s).i,
      (mtKeyStep (key.map (·.setWidth 32)) s).j) := by
  unfold keyStep
  simp only
  rw [rd_words _ (by omega), ok_bind, rdI_words _ h1 (by omega), ok_bind, rd_ok hj, ok_bind, keyWord_ext, ← bind_assoc, put_words _ h1 h2, ok_bind]
  unfold mtKeyStep
  simp only [List.length_map]
  have e1 : (key.map (·.setWidth 32)).getD s.j 0#32 = key[s.j].setWidth 32 := by simp [List.getD_eq_getElem?_getD, hj]
  have e2 : (if s.j + 1 ≥ key.length then 0 else s.j + 1) = (s.j + 1) % key.length := by
    split
    · rw [show s.j + 1 = key.length by omega, Nat.mod_self]
    · rw [Nat.mod_eq_of_lt (by omega)]
  rw [e1, e2]

theorem keyStep_range (key : List (BitVec 32)) (s : MtKeyState) (h1 : 1 ≤ s.i) (h2 : s.i ≤ 623) (hj : s.j < key.length) :
    1 ≤ (mtKeyStep key s).i ∧ (mtKeyStep key s).i ≤ 623 ∧ (mtKeyStep key s).j < key.length := by
  refine ⟨(put_range _ h1 h2 _).1, (put_range _ h1 h2 _).2, Nat.mod_lt _ (by omega)⟩

theorem mixStep_ok (s : (Nat → BitVec 32) × Nat) (h1 : 1 ≤ s.2) (h2 : s.2 ≤ 623) :
    mixStep (mtWords s.1, s.2) = .ok (mtWords (mtMixStep s).1, (mtMixStep s).2) := by
  unfold mixStep
  simp only
  rw [rd_words _ (by omega), ok_bind, rdI_words _ h1 (by omega), ok_bind, mixWord_ext, put_words _ h1 h2]
  rfl

theorem times_succ {β : Type} (f : β → β) (n : Nat) (s : β) : times f (n + 1) s = f (times f n s) := rfl

theorem key_range (key : List (BitVec 32)) (x : Nat → BitVec 32) (hl : 0 < key.length) (n : Nat) :
    1 ≤ (times (mtKeyStep key) n ⟨x, 1, 0⟩).i ∧ (times (mtKeyStep key) n ⟨x, 1, 0⟩).i ≤ 623 ∧ (times (mtKeyStep key) n ⟨x, 1, 0⟩).j < key.length := by
  induction n with
  | zero => exact ⟨by simp [times], by simp [times], hl⟩
  | succ n ih =>
    rw [times_succ]
    exact keyStep_range key _ ih.1 ih.2.1 ih.2.2

theorem key_loop (key : List W64) (x : Nat → BitVec 32) (hl : 0 < key.length) (n : Nat) :
    forN n (mtWords x, 1, 0) (fun _ s => keyStep key s) = .ok (mtWords (times (mtKeyStep (key.map (·.setWidth 32))) n ⟨x, 1, 0⟩).x,
      (times (mtKeyStep (key.map (·.setWidth 32))) n ⟨x, 1, 0⟩).i, (times (mtKeyStep (key.map (·.setWidth 32))) n ⟨x, 1, 0⟩).j) := by
  induction n with
  | zero => rfl
  | succ n ih =>
    have hr := key_range (key.map (·.setWidth 32)) x (by simpa using hl) n
    rw [List.length_map] at hr
    unfold forN
    rw [ih, ok_bind, times_succ]
    exact keyStep_ok key _ hr.1 hr.2.1 hr.2.2

theorem mix_range (s : (Nat → BitVec 32) × Nat) (h1 : 1 ≤ s.2) (h2 : s.2 ≤ 623) (n : Nat) : 1 ≤ (times mtMixStep n s).2 ∧ (times mtMixStep n s).2 ≤ 623 := by
  induction n with
  | zero => exact ⟨h1, h2⟩
  | succ n ih =>
    rw [times_succ]
    exact put_range _ ih.1 ih.2 _

theorem mix_loop (s : (Nat → BitVec 32) × Nat) (h1 : 1 ≤ s.2) (h2 : s.2 ≤ 623) (n : Nat) :
    forN n (mtWords s.1, s.2) (fun _ s => mixStep s) = .ok (mtWords (times mtMixStep n s).1, (times mtMixStep n s).2) := by
  induction n with
  | zero => rfl
  | succ n ih =>
    have hr := mix_range s h1 h2 n
    unfold forN
    rw [ih, ok_bind, times_succ]
    exact mixStep_ok _ hr.1 hr.2

theorem initByArray_eq (key : List W64) (hk : key ≠ []) (st : MT) (h : st.mt.length = 624) :
    initByArray key st = .ok ⟨mtWords (mtInitKey (key.map (·.setWidth 32))), 624⟩ := by
  have hl : 0 < key.length := List.length_pos_iff.2 hk
  have hr := key_range (key.map (·.setWidth 32)) (mtInit 19650218#32) (by simpa using hl) (max 624 key.length)
  have e : (19650218#64).setWidth 32 = 19650218#32 := by decide
  have k1 := key_loop key (mtInit 19650218#32) hl (max 624 key.length)
  have e3 : 0x80000000#64 = ext 0x80000000#32 := by decide
  unfold initByArray mtInitKey
  rw [initGenrand_ok _ _ h, ok_bind, e]
  simp only [List.length_map]
  unfold mtWords at k1
  rw [k1, ok_bind]
  generalize times (mtKeyStep (key.map (·.setWidth 32))) (max 624 key.length) ⟨mtInit 19650218#32, 1, 0⟩ = s1 at hr
  have k2 := mix_loop (s1.x, s1.i) hr.1 hr.2.1 623
  unfold mtWords at k2
  simp only at k2 ⊢
  rw [k2, ok_bind]
  generalize times mtMixStep 623 (s1.x, s1.i) = t
  have k3 := wr_words t.1 (i := 0) (by omega) 0x80000000#32
  unfold mtWords at k3
  rw [e3, k3, ok_bind]
  rfl

theorem initByArray_at (key : List W64) (hk : key ≠ []) (st : MT) (h : st.mt.length = 624) :
    ∃ st', initByArray key st = .ok st' ∧ At (mtInitKey (key.map (·.setWidth 32))) 0 st' := by
  refine ⟨_, initByArray_eq key hk st h, 0, ?_, by simp, by simp⟩
  generalize mtInitKey _ = x
  refine tab_congr fun i hi => ?_
  rw [Nat.zero_add, mtExtend_lt _ hi]

/-- **C23, initialisation by an array.** The stream is the MT19937 stream of the key. -/
theorem C23_stream_key (key : List W64) (hk : key ≠ []) (st : MT) (h : st.mt.length = 624) (n : Nat) :
    ∃ st', (do let st1 ← initByArray key st; draws genrandInt32 n st1) =
      .ok ((List.range n).map (fun k => ext (mtStream (mtInitKey (key.map (·.setWidth 32))) k)), st') := by
  obtain ⟨st1, h1, a1⟩ := initByArray_at key hk st h
  obtain ⟨st2, h2, -⟩ := draws_at n a1
  refine ⟨st2, ?_⟩
  rw [h1, ok_bind, h2]
  simp

/-- An empty key array is read out of bounds. -/
theorem C23_empty_key (st : MT) (h : st.mt.length = 624) : initByArray [] st = .error .oob := by
  unfold initByArray
  rw [initGenrand_ok _ _ h, ok_bind]
  have : ∀ n, forN (n + 1) ((tab 624 fun i => ext (mtInit ((19650218#64).setWidth 32) i)), 1, 0) (fun _ s => keyStep [] s) = .error .oob := by
    intro n
    induction n with
    | zero =>
      show keyStep [] _ = _
      unfold keyStep
      simp only
      rw [rd_tab _ (by omega), ok_bind]
      have := rdI_words (mtInit ((19650218#64).setWidth 32)) (i := 1) (by omega) (by omega)
      unfold mtWords at this
      rw [this, ok_bind]
      rfl
    | succ n ih =>
      unfold forN
      rw [ih]; rfl
  simp only [List.length_nil]
  rw [show max 624 0 = 623 + 1 from rfl, this]
  rfl

/-! ## Ranges -/

/-- **C23, range.** Every integer drawn is in [0, 2³²). -/
theorem C23_int32_range {x : Nat → BitVec 32} {p : Nat} {st : MT} (h : At x p st) : ∃ w st', genrandInt32 st = .ok (w, st') ∧ w.toNat < 2 ^ 32 := by
  obtain ⟨st', h1, -⟩ := genrand_at h
  refine ⟨_, st', h1, ?_⟩
  simp [ext]
  omega

/-- `genrand_int31` gives integers in [0, 2³¹). -/
theorem C23_int31_range {x : Nat → BitVec 32} {p : Nat} {st : MT} (h : At x p st) : ∃ w st', genrandInt31 st = .ok (w, st') ∧ w.toNat < 2 ^ 31 := by
  obtain ⟨w, st', h1, hw⟩ := C23_int32_range h
  unfold genrandInt31
  rw [h1, ok_bind]
  refine ⟨w >>> 1, st', rfl, ?_⟩
  rw [BitVec.toNat_ushiftRight, Nat.shiftRight_eq_div_pow]
  omega

/-! Floating-point numbers: real numbers rounded by `rnd`. -/

/-- Arithmetic in which every operation is rounded. -/
@[reducible] noncomputable def doubleFP (rnd : ℝ → ℝ) : FP ℝ where
  add a b := rnd (a + b)
  sub a b := rnd (a - b)
  mul a b := rnd (a * b)
  div a b := rnd (a / b)
  neg a := -a
  zero := 0
  one := 1
  fabs a := |a|
  fsqrt a := rnd (Real.sqrt a)
  flog a := rnd (Real.log a)
  flt a b := decide (a < b)
  fle a b := decide (a ≤ b)
  isfin _ := true
  lit q := rnd (q : ℝ)

/-- What is used of IEEE double precision (rounding to nearest): a rounded number is at least as close as any number `m / 2^e` with `|m| ≤ 2^53`, and there
is nothing between 1 and its successor. -/
structure IsDouble (rnd : ℝ → ℝ) : Prop where
  near : ∀ (r : ℝ) (m : ℤ) (e : ℕ), |m| ≤ 2 ^ 53 → e ≤ 1000 → |rnd r - r| ≤ |(m : ℝ) / 2 ^ e - r|
  gap : ∀ r, rnd r ≤ 1 ∨ 1 + 1 / 2 ^ 52 ≤ rnd r

theorem IsDouble.exact {rnd : ℝ → ℝ} (h : IsDouble rnd) (r : ℝ) (m : ℤ) (e : ℕ) (hm : |m| ≤ 2 ^ 53) (he : e ≤ 1000) (hr : r = (m : ℝ) / 2 ^ e) : rnd r = r := by
  have := h.near r m e hm he
  rw [← hr, sub_self, abs_zero, abs_nonpos_iff] at this
  linarith

/-- Such roundings exist: the successor of 1 aside, no rounding at all. -/
theorem isDouble_exists : ∃ rnd, IsDouble rnd := by
  have hd : ∀ (m : ℤ) (e : ℕ), |m| ≤ 2 ^ 53 → (m : ℝ) / 2 ^ e ≤ 1 ∨ 1 + 1 / 2 ^ 52 ≤ (m : ℝ) / 2 ^ e := by
    intro m e hm
    rw [div_le_iff₀ (by positivity), le_div_iff₀ (by positivity), one_mul]
    by_cases he : e ≤ 52
    · rcases le_or_gt m (2 ^ e) with hl | hl
      · left; exact_mod_cast hl
      · right
        have h1 : (2 : ℝ) ^ e + 1 ≤ m := by exact_mod_cast hl
        have h2 : (2 : ℝ) ^ e ≤ 2 ^ 52 := pow_le_pow_right₀ (by norm_num) he
        have h3 : (1 : ℝ) / 2 ^ 52 * 2 ^ e ≤ 1 := by
          rw [div_mul_eq_mul_div, one_mul, div_le_one (by positivity)]; exact h2
        linarith
    · left
      have h1 : (m : ℝ) ≤ 2 ^ 53 := by exact_mod_cast le_trans (le_abs_self m) hm
      exact le_trans h1 (pow_le_pow_right₀ (by norm_num) (by omega))
  refine ⟨fun r => if 1 < r ∧ r < 1 + 1 / 2 ^ 52 then (if r ≤ 1 + 1 / 2 ^ 53 then 1 else 1 + 1 / 2 ^ 52) else r, ?_, ?_⟩
  · intro r m e hm _
    split
    · rename_i h
      rcases hd m e hm with hle | hge
      · rw [abs_of_nonpos (by linarith : (m : ℝ) / 2 ^ e - r ≤ 0)]
        split
        · rw [abs_of_nonpos (by linarith)]; linarith
        · rename_i hr
          rw [abs_of_nonneg (by linarith)]
          norm_num at hr ⊢
          linarith
      · rw [abs_of_nonneg (by linarith : (0 : ℝ) ≤ (m : ℝ) / 2 ^ e - r)]
        split
        · rename_i hr
          rw [abs_of_nonpos (by linarith)]
          norm_num at hr hge ⊢
          linarith
        · rw [abs_of_nonneg (by linarith)]; linarith
    · simp
  · intro r
    split
    · split
      · left; exact le_refl _
      · right; exact le_refl _
    · rename_i h
      by_cases h1 : r ≤ 1
      · left; exact h1
      · right
        by_contra h2
        exact h ⟨not_le.1 h1, not_le.1 h2⟩

section Real
variable {rnd : ℝ → ℝ} {x : Nat → BitVec 32} {p : Nat} {st : MT}

theorem mtStream_lt (x : Nat → BitVec 32) (p : Nat) : (ext (mtStream x p)).toNat < 2 ^ 32 := by
  simp [ext]; omega

theorem ofWord_double (h : IsDouble rnd) (w : W64) (hw : w.toNat < 2 ^ 53) : @ofWord ℝ (doubleFP rnd) w = (w.toNat : ℝ) := by
  show rnd _ = _
  have e : (((w.toNat : ℕ) : ℚ) : ℝ) = (w.toNat : ℝ) := by norm_cast
  rw [e]
  refine h.exact _ (w.toNat : ℤ) 0 ?_ (by norm_num) (by simp)
  rw [Nat.abs_cast]
  exact_mod_cast hw.le

/-- **C23, `genrand_real1` in double precision**: in [0, 1]. -/
theorem C23_real1 (h : IsDouble rnd) (ha : At x p st) : ∃ r st', @genrandReal1 ℝ (doubleFP rnd) st = .ok (r, st') ∧ 0 ≤ r ∧ r ≤ 1 := by
  obtain ⟨st', h1, -⟩ := genrand_at ha
  have hN := mtStream_lt x p
  unfold genrandReal1
  rw [h1, ok_bind]
  refine ⟨_, st', rfl, ?_⟩
  simp only
  rw [ofWord_double h _ (by omega)]
  generalize (ext (mtStream x p)).toNat = N at hN
  have hN' : (N : ℝ) ≤ 4294967295 := by exact_mod_cast (by omega : N ≤ 4294967295)
  have hN0 : (0 : ℝ) ≤ N := by positivity
  show 0 ≤ rnd ((N : ℝ) * rnd (1 / rnd ((4294967295 : ℚ) : ℝ))) ∧ rnd ((N : ℝ) * rnd (1 / rnd ((4294967295 : ℚ) : ℝ))) ≤ 1
  have e1 : rnd ((4294967295 : ℚ) : ℝ) = 4294967295 := by
    rw [h.exact _ 4294967295 0 (by norm_num) (by norm_num) (by norm_num)]; norm_num
  rw [e1]
  have hc := h.near (1 / 4294967295) (2 ^ 32 + 1) 64 (by norm_num) (by norm_num)
  generalize rnd (1 / 4294967295) = c at hc
  have hc1 : c ≤ 1 / 4294967295 + 1 / 2 ^ 90 := by
    have := (abs_le.1 hc).2
    have h2 : |((2 ^ 32 + 1 : ℤ) : ℝ) / 2 ^ 64 - 1 / 4294967295| ≤ 1 / 2 ^ 90 := by
      rw [abs_le]; constructor <;> norm_num
    linarith
  have hc0 : 0 ≤ c := by
    have := (abs_le.1 hc).1
    have h2 : |((2 ^ 32 + 1 : ℤ) : ℝ) / 2 ^ 64 - 1 / 4294967295| ≤ 1 / 2 ^ 90 := by
      rw [abs_le]; constructor <;> norm_num
    have : (0 : ℝ) ≤ 1 / 4294967295 - 1 / 2 ^ 90 := by norm_num
    linarith
  have hp0 : 0 ≤ (N : ℝ) * c := mul_nonneg hN0 hc0
  have hp1 : (N : ℝ) * c ≤ 1 + 1 / 2 ^ 57 := by
    calc (N : ℝ) * c ≤ 4294967295 * (1 / 4294967295 + 1 / 2 ^ 90) := mul_le_mul hN' hc1 hc0 (by norm_num)
      _ ≤ 1 + 1 / 2 ^ 57 := by norm_num
  constructor
  · have := h.near ((N : ℝ) * c) 0 0 (by norm_num) (by norm_num)
    rw [Int.cast_zero, zero_div, zero_sub, abs_neg, abs_of_nonneg hp0] at this
    have := (abs_le.1 this).1
    linarith
  · rcases h.gap ((N : ℝ) * c) with hg | hg
    · exact hg
    · exfalso
      have := h.near ((N : ℝ) * c) 1 0 (by norm_num) (by norm_num)
      rw [Int.cast_one, pow_zero, div_one] at this
      rw [abs_of_nonneg (by norm_num at hg hp1 ⊢; linarith)] at this
      rcases le_total ((N : ℝ) * c) 1 with hl | hl
      · rw [abs_of_nonneg (by linarith)] at this
        norm_num at hg; linarith
      · rw [abs_of_nonpos (by linarith)] at this
        norm_num at hg hp1; linarith

theorem lit_double (h : IsDouble rnd) (q : ℚ) (m : ℤ) (e : ℕ) (hm : |m| ≤ 2 ^ 53) (he : e ≤ 1000) (hq : (q : ℝ) = m / 2 ^ e) :
    @FP.lit ℝ (doubleFP rnd) q = (q : ℝ) := h.exact _ m e hm he hq

/-- **C23, `genrand_real2` in double precision**: `N / 2³²` exactly, so in [0, 1). -/
theorem C23_real2 (h : IsDouble rnd) (ha : At x p st) :
    ∃ st', @genrandReal2 ℝ (doubleFP rnd) st = .ok ((mtStream x p).toNat / 2 ^ 32, st') ∧
      0 ≤ ((mtStream x p).toNat / 2 ^ 32 : ℝ) ∧ ((mtStream x p).toNat / 2 ^ 32 : ℝ) < 1 := by
  obtain ⟨st', h1, -⟩ := genrand_at ha
  have hN := (mtStream x p).isLt
  have hx : (ext (mtStream x p)).toNat = (mtStream x p).toNat := ext_toNat _
  unfold genrandReal2
  rw [h1, ok_bind]
  simp only
  rw [ofWord_double h _ (by omega), hx]
  generalize (mtStream x p).toNat = N at hN
  refine ⟨st', ?_, by positivity, ?_⟩
  · have e : rnd ((N : ℝ) * rnd (1 / rnd ((4294967296 : ℚ) : ℝ))) = (N : ℝ) / 2 ^ 32 := by
      rw [h.exact ((4294967296 : ℚ) : ℝ) 4294967296 0 (by norm_num) (by norm_num) (by norm_num),
        h.exact (1 / ((4294967296 : ℚ) : ℝ)) 1 32 (by norm_num) (by norm_num) (by norm_num), h.exact _ N 32 (by rw [Nat.abs_cast]; exact_mod_cast (by omega))
          (by norm_num) (by push_cast; ring)]
      push_cast; ring
    exact congrArg (fun r => Except.ok (r, st')) e
  · rw [div_lt_one (by norm_num)]
    exact_mod_cast hN

/-- **C23, `genrand_real3` in double precision**: `(N + 1/2) / 2³²` exactly, so in (0, 1). -/
theorem C23_real3 (h : IsDouble rnd) (ha : At x p st) :
    ∃ st', @genrandReal3 ℝ (doubleFP rnd) st = .ok (((mtStream x p).toNat + 1 / 2) / 2 ^ 32, st') ∧
      0 < (((mtStream x p).toNat + 1 / 2) / 2 ^ 32 : ℝ) ∧ (((mtStream x p).toNat + 1 / 2) / 2 ^ 32 : ℝ) < 1 := by
  obtain ⟨st', h1, -⟩ := genrand_at ha
  have hN := (mtStream x p).isLt
  have hx : (ext (mtStream x p)).toNat = (mtStream x p).toNat := ext_toNat _
  unfold genrandReal3
  rw [h1, ok_bind]
  simp only
  rw [ofWord_double h _ (by omega), hx]
  generalize (mtStream x p).toNat = N at hN
  have hN' : (N : ℝ) ≤ 4294967295 := by exact_mod_cast (by omega : N ≤ 4294967295)
  refine ⟨st', ?_, by positivity, ?_⟩
  · have e : rnd (rnd ((N : ℝ) + rnd ((1 / 2 : ℚ) : ℝ)) * rnd (1 / rnd ((4294967296 : ℚ) : ℝ))) = ((N : ℝ) + 1 / 2) / 2 ^ 32 := by
      rw [h.exact ((4294967296 : ℚ) : ℝ) 4294967296 0 (by norm_num) (by norm_num) (by norm_num),
        h.exact (1 / ((4294967296 : ℚ) : ℝ)) 1 32 (by norm_num) (by norm_num) (by norm_num),
        h.exact ((1 / 2 : ℚ) : ℝ) 1 1 (by norm_num) (by norm_num) (by norm_num),
        h.exact ((N : ℝ) + ((1 / 2 : ℚ) : ℝ)) (2 * N + 1 : ℕ) 1 (by rw [Nat.abs_cast]; exact_mod_cast (by omega)) (by norm_num) (by push_cast; ring),
        h.exact _ (2 * N + 1 : ℕ) 33 (by rw [Nat.abs_cast]; exact_mod_cast (by omega)) (by norm_num) (by push_cast; ring)]
      push_cast; ring
    exact congrArg (fun r => Except.ok (r, st')) e
  · rw [div_lt_one (by norm_num)]
    linarith

/-- **C23, `genrand_res53` in double precision**: `(a·2²⁶ + b) / 2⁵³` exactly, with `a < 2²⁷`, `b < 2²⁶`; so in [0, 1). -/
theorem C23_res53 (h : IsDouble rnd) (ha : At x p st) :
    ∃ a b : ℕ, ∃ st', a = (mtStream x p).toNat / 2 ^ 5 ∧ b = (mtStream x (p + 1)).toNat / 2 ^ 6 ∧
      @genrandRes53 ℝ (doubleFP rnd) st = .ok ((a * 2 ^ 26 + b) / 2 ^ 53, st') ∧ 0 ≤ ((a * 2 ^ 26 + b) / 2 ^ 53 : ℝ) ∧ ((a * 2 ^ 26 + b) / 2 ^ 53 : ℝ) < 1 := by
  obtain ⟨st1, h1, a1⟩ := genrand_at ha
  obtain ⟨st2, h2, -⟩ := genrand_at a1
  have hx : ∀ p, (ext (mtStream x p)).toNat = (mtStream x p).toNat := fun p => ext_toNat _
  have hs5 : (ext (mtStream x p) >>> 5).toNat = (mtStream x p).toNat / 2 ^ 5 := by rw [BitVec.toNat_ushiftRight, hx, Nat.shiftRight_eq_div_pow]
  have hs6 : (ext (mtStream x (p + 1)) >>> 6).toNat = (mtStream x (p + 1)).toNat / 2 ^ 6 := by
    rw [BitVec.toNat_ushiftRight, hx, Nat.shiftRight_eq_div_pow]
  have hA : (mtStream x p).toNat / 2 ^ 5 < 2 ^ 27 := by have := (mtStream x p).isLt; omega
  have hB : (mtStream x (p + 1)).toNat / 2 ^ 6 < 2 ^ 26 := by have := (mtStream x (p + 1)).isLt; omega
  refine ⟨_, _, st2, rfl, rfl, ?_⟩
  unfold genrandRes53
  rw [h1, ok_bind]
  simp only
  rw [h2, ok_bind]
  simp only
  rw [ofWord_double h _ (by omega), ofWord_double h _ (by omega), hs5, hs6]
  generalize (mtStream x p).toNat / 2 ^ 5 = A at hA
  generalize (mtStream x (p + 1)).toNat / 2 ^ 6 = B at hB
  refine ⟨?_, by positivity, ?_⟩
  · have e : rnd (rnd (rnd ((A : ℝ) * rnd ((67108864 : ℚ) : ℝ)) + (B : ℝ)) * rnd (1 / rnd ((9007199254740992 : ℚ) : ℝ))) = ((A : ℝ) * 2 ^ 26 + B) / 2 ^ 53 := by
      rw [h.exact ((9007199254740992 : ℚ) : ℝ) 9007199254740992 0 (by norm_num) (by norm_num) (by norm_num),
        h.exact (1 / ((9007199254740992 : ℚ) : ℝ)) 1 53 (by norm_num) (by norm_num) (by norm_num),
        h.exact ((67108864 : ℚ) : ℝ) 67108864 0 (by norm_num) (by norm_num) (by norm_num),
        h.exact ((A : ℝ) * ((67108864 : ℚ) : ℝ)) (A * 67108864 : ℕ) 0 (by rw [Nat.abs_cast]; exact_mod_cast (by omega)) (by norm_num) (by push_cast; ring),
        h.exact ((A : ℝ) * ((67108864 : ℚ) : ℝ) + B) (A * 67108864 + B : ℕ) 0 (by rw [Nat.abs_cast]; exact_mod_cast (by omega)) (by norm_num)
          (by push_cast; ring),
        h.exact _ (A * 67108864 + B : ℕ) 53 (by rw [Nat.abs_cast]; exact_mod_cast (by omega)) (by norm_num) (by push_cast; ring)]
      push_cast; ring
    exact congrArg (fun r => Except.ok (r, st2)) e
  · rw [div_lt_one (by norm_num)]
    exact_mod_cast (by omega : A * 2 ^ 26 + B < 2 ^ 53)

end Real

/-- The first words for the seed 5489, as in the reference implementation. -/
example : (List.range 4).map (fun k => (mtInit 5489#32 k).toNat) = [5489, 1301868182, 2938499221, 2950281878] := by decide +kernel

/-- Non-vacuous: the seeded generator is `At` the start of the stream. -/
example : ∃ st', initGenrand 1#64 MT.start = .ok st' ∧ At (mtInit 1#32) 0 st' := by
  have := init_at 1#64 MT.start (by rw [MT.start, List.length_replicate])
  simpa using this

end Imfit
