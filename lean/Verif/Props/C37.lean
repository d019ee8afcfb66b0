import Verif.Lemmas.Multi
import Mathlib.Analysis.Complex.Norm
import Mathlib.Tactic.FieldSimp

/-!
# C37 — multi-image parameter assembly
-/

namespace Imfit

open Spec

variable {α : Type}

theorem sumLocal_eq (ls : List (List α)) (n : Nat) (hn : n ≤ ls.length) (c : Int) :
    sumLocal (ls.map fun l => (l.length : Int)) n c = .ok (c + ((ls.take n).flatten.length : Nat)) := by
  unfold sumLocal
  rw [forN_ok _ _ _ (fun i => c + ((ls.take i).flatten.length : Nat))]
  · simp
  · intro z hz
    rw [rd_ok (by simp; omega), List.take_add_one, List.getElem?_eq_getElem (by omega)]
    simp only [ok_bind, pure_eq_ok, List.getElem_map, Option.toList_some, List.flatten_append, List.length_append]
    simp [add_assoc]

theorem perImageSizes_eq (nm : Nat) (ls : List (List α)) :
    perImageSizes nm (ls.map fun l => (l.length : Int)) ls.length = .ok (ls.map fun l => nm + l.length) := by
  unfold perImageSizes
  rw [loopMap_ok _ _ (fun i => nm + (ls.getD i []).length)]
  · congr 1
    conv_rhs => rw [eq_range_map_getD ls []]
    simp
  · intro z hz
    rw [rd_ok (by simpa using hz)]
    simp only [ok_bind, List.getElem_map, List.getD_eq_getElem?_getD, List.getElem?_eq_getElem hz, Option.getD_some]
    rw [if_neg (by omega), pure_eq_ok]
    congr 1

/-- The parameter holder for given values. -/
def holderOf (m : MultiVals α) : PHolder where
  nImages := m.images.length + 1
  nImageParams := N_IMAGE_PARAMS * m.images.length
  nModelParams := (paramVector m.sets).length
  nFunctionSets := m.sets.length
  fns := flagged (sizesOf m.sets)
  nLocal := m.locals.map fun l => (l.length : Int)

theorem imageVector_length (ims : List (ImgPar α)) : (ims.flatMap imageVector).length = N_IMAGE_PARAMS * ims.length := by
  induction ims with
  | nil => rfl
  | cons i rest ih => simp only [List.flatMap_cons, List.length_append, ih, imageVector, N_IMAGE_PARAMS, List.length_cons, List.length_nil]; omega

theorem generalSetup_eq (m : MultiVals α) (hl : m.locals.length = m.images.length + 1) :
    generalSetup 0 (m.images.length + 1) m.vector.length m.sets.length (flagged (sizesOf m.sets)) (m.locals.map fun l => (l.length : Int)) =
      .ok (holderOf m, m.locals.map fun l => (paramVector m.sets).length + l.length) := by
  unfold generalSetup
  rw [if_neg (by omega), sumLocal_eq _ _ (by omega)]
  simp only [ok_bind, ← hl, List.take_length]
  have e : ((m.vector.length : Nat) : Int) - ((N_IMAGE_PARAMS * (m.locals.length - 1) : Nat) : Int) - (0 + (m.locals.flatten.length : Nat)) =
      ((paramVector m.sets).length : Nat) := by
    simp only [MultiVals.vector, List.length_append, imageVector_length, hl, Nat.add_sub_cancel]
    push_cast
    ring
  rw [e, perImageSizes_eq]
  simp only [ok_bind, pure_eq_ok, holderOf, hl, Nat.add_sub_cancel, Int.toNat_natCast]

theorem moved_length (place : SetVals α → SetVals α → α × α) (p : α × α) (sets : List (SetVals α)) :
    (paramVector (moved place p sets)).length = (paramVector sets).length := by
  cases sets with
  | nil => rfl
  | cons s rest =>
    simp only [moved, paramVector, List.flatMap_cons, List.flatMap_map, List.length_append, List.length_cons, SetVals.at, List.length_flatMap]

theorem extract_eq (m : MultiVals α) (k : Nat) (im : ImgPar α) (hk : m.images[k]? = some im) : extractImageParams m.vector k = .ok im := by
  obtain ⟨hk', rfl⟩ := List.getElem?_eq_some_iff.1 hk
  have hs : m.vector = (m.images.take k).flatMap imageVector ++ (imageVector m.images[k] ++ ((m.images.drop (k + 1)).flatMap imageVector ++
      (paramVector m.sets ++ m.locals.flatten))) := by
    have e : m.images = m.images.take k ++ m.images[k] :: m.images.drop (k + 1) := by
      rw [← List.drop_eq_getElem_cons hk', List.take_append_drop]
    unfold MultiVals.vector
    conv_lhs => rw [e]
    simp only [List.flatMap_append, List.flatMap_cons, List.append_assoc]
  have hl : ((m.images.take k).flatMap imageVector).length = N_IMAGE_PARAMS * k := by rw [imageVector_length]; simp; left; omega
  have key : ∀ i, rd m.vector (N_IMAGE_PARAMS * k + i) = rd (imageVector m.images[k] ++ ((m.images.drop (k + 1)).flatMap imageVector ++
      (paramVector m.sets ++ m.locals.flatten))) i := by
    intro i; rw [hs, ← hl, rd_append_add]
  unfold extractImageParams
  rw [show N_IMAGE_PARAMS * k = N_IMAGE_PARAMS * k + 0 from rfl, key]
  simp only [Nat.add_zero]
  rw [key, key, key, key]
  simp [rd, imageVector, ok_bind, pure_eq_ok]

theorem copyLocal_eq (m : MultiVals α) (k : Nat) (l : List α) (hk : m.locals[k]? = some l) (G out : List α)
    (hG : G.length = (paramVector m.sets).length) (ho : out.length = l.length) :
    copyLocal (holderOf m) m.vector k (G ++ out) = .ok (G ++ l) := by
  obtain ⟨hk', hke⟩ := List.getElem?_eq_some_iff.1 hk
  unfold copyLocal
  have hr : rd (holderOf m).nLocal k = .ok (l.length : Int) := by
    simp [rd, holderOf, hk]
  rw [hr, ok_bind]
  by_cases h0 : (0 : Int) < l.length
  · rw [if_pos h0]
    have hst : localStart (holderOf m) k = .ok (((holderOf m).nImageParams + (holderOf m).nModelParams : Nat) +
        ((m.locals.take k).flatten.length : Nat)) := by
      exact sumLocal_eq m.locals k (by omega) _
    rw [hst, ok_bind]
    have hv : m.vector = (m.images.flatMap imageVector ++ paramVector m.sets ++ (m.locals.take k).flatten) ++ l ++ (m.locals.drop (k + 1)).flatten := by
      have e : m.locals = m.locals.take k ++ l :: m.locals.drop (k + 1) := by
        rw [← hke, ← List.drop_eq_getElem_cons hk', List.take_append_drop]
      unfold MultiVals.vector
      conv_lhs => rw [e]
      simp only [List.flatten_append, List.flatten_cons, List.append_assoc]
    have hcopy := copy_loop' (params := m.vector) (out := G ++ out) _ l _ G out [] l.length _ _ hv (by simp) ho rfl rfl rfl
    rw [List.append_nil] at hcopy
    rw [← hcopy]
    simp only [Int.toNat_natCast]
    congr 1
    funext i o
    have e1 : (((holderOf m).nImageParams + (holderOf m).nModelParams : Nat) : Int) + ((m.locals.take k).flatten.length : Nat) + (i : Nat) =
        (((m.images.flatMap imageVector ++ paramVector m.sets ++ (m.locals.take k).flatten).length + i : Nat) : Int) := by
      simp only [holderOf, List.length_append, imageVector_length]
      push_cast
      ring
    rw [e1]
    unfold rdI
    rw [if_neg (by omega), Int.toNat_natCast]
    show _ = (do let v ← rd m.vector _; wr o (G.length + i) v)
    rw [hG]
    rfl
  · rw [if_neg h0]
    have : l.length = 0 := by omega
    have h1 : l = [] := List.length_eq_zero_iff.1 this
    have h2 : out = [] := List.length_eq_zero_iff.1 (by omega)
    subst h1 h2; rfl

theorem placeFurther_eq [FP α] [FM α] (m : MultiVals α) (hw : WellFormed m.sets) (im : ImgPar α) (out : List α) (s : SetVals α) (rest : List (SetVals α))
    (hs : m.sets = s :: rest) :
    placeFurther (holderOf m) m.vector im (paramVector (s.at (im.x0, im.y0) :: rest) ++ out) =
      .ok (paramVector (moved (fun s t => placeOf im s.x0 s.y0 t) (im.x0, im.y0) m.sets) ++ out) := by
  have hw' := hw.2
  rw [hs] at hw'
  obtain ⟨x0, y0, fns⟩ := s
  cases fns with
  | nil => exact absurd rfl (hw' ⟨x0, y0, []⟩ (by simp)).1
  | cons f fns =>
    have hl := (hw' ⟨x0, y0, f :: fns⟩ (by simp)).2
    unfold placeFurther
    by_cases h1 : 1 < (holderOf m).nFunctionSets
    · rw [if_pos h1]
      have hvec : m.vector = (m.images.flatMap imageVector) ++ (([x0, y0] ++ (f :: fns).flatMap (·.2)) ++ paramVector rest) ++ m.locals.flatten := by
        simp [MultiVals.vector, hs, paramVector]
      have hA : (holderOf m).nImageParams = (m.images.flatMap imageVector).length := by rw [imageVector_length]; rfl
      have r0 : rd m.vector (holderOf m).nImageParams = .ok x0 := by
        rw [hA, hvec, List.append_assoc, ← Nat.add_zero (List.length _), rd_append_add]; simp [rd]
      have r1 : rd m.vector ((holderOf m).nImageParams + 1) = .ok y0 := by
        rw [hA, hvec, List.append_assoc, rd_append_add]; simp [rd]
      have hf : (holderOf m).fns = (f.1.nParams, true) :: ((fns.map fun g => g.1.nParams).map (·, false) ++ flagged (sizesOf rest)) := by
        simp [holderOf, hs, sizesOf, flagged]
      have rf : rd (holderOf m).fns 0 = .ok (f.1.nParams, true) := by rw [hf]; rfl
      rw [r0, ok_bind, r1, ok_bind, rf, ok_bind, hf, List.tail_cons, placeSets_skip]
      have hsum : ((f :: fns).flatMap (·.2)).length = f.1.nParams + (fns.map fun g => g.1.nParams).sum := by
        rw [List.length_flatMap, ← List.sum_cons, ← List.map_cons (f := fun g : FnDesc α × List α => g.1.nParams)]
        congr 1
        exact List.map_congr_left hl
      have key := placeSets_eq (holderOf m) im x0 y0 rest (fun t ht => hw' t (by simp [ht])) (m.images.flatMap imageVector)
        ([x0, y0] ++ (f :: fns).flatMap (·.2)) m.locals.flatten ([im.x0, im.y0] ++ (f :: fns).flatMap (·.2)) out hA (by simp)
      rw [← hvec] at key
      have eq : ([x0, y0] ++ (f :: fns).flatMap (·.2)).length = f.1.nParams + 2 + (fns.map fun g => g.1.nParams).sum := by
        rw [List.length_append, hsum]; simp; omega
      rw [eq] at key
      have e3 : paramVector ((SetVals.mk x0 y0 (f :: fns)).at (im.x0, im.y0) :: rest) ++ out =
          ([im.x0, im.y0] ++ (f :: fns).flatMap (·.2)) ++ paramVector rest ++ out := by simp [paramVector, SetVals.at]
      rw [e3]
      show placeSets (holderOf m) m.vector im x0 y0 _ _ _ = _
      rw [key, hs]
      simp [moved, paramVector, SetVals.at]
    · rw [if_neg h1]
      have : rest = [] := by
        simp only [holderOf, hs, List.length_cons] at h1
        exact List.length_eq_zero_iff.1 (by omega)
      subst this
      rw [hs]
      rfl

/-- C37, index bookkeeping, for every arithmetic. For every number of images and functions and all values: the parameter holder can be set up, and for each
image the assembled vector is the vector of the global functions with all their parameters, followed by the local parameters of that image. In the first
(reference) image nothing is changed. In the others the first set is at the position given with the image and every further set at the position computed
by `CalculateOffset_X0Y0`; nothing else is changed. No array is read or written outside its bounds, whatever the array held before. -/
theorem C37_assembly [FP α] [FM α] (m : MultiVals α) (hw : WellFormed m.sets) (hl : m.locals.length = m.images.length + 1) :
    ∃ h sizes,
      generalSetup 0 (m.images.length + 1) m.vector.length m.sets.length (flagged (sizesOf m.sets)) (m.locals.map fun l => (l.length : Int)) =
        .ok (h, sizes) ∧
      (∀ (l out : List α), m.locals[0]? = some l → sizes[0]? = some out.length →
        assemble h m.vector 0 out = .ok (paramVector m.sets ++ l)) ∧
      (∀ (k : Nat) (im : ImgPar α) (l out : List α), m.images[k]? = some im → m.locals[k + 1]? = some l → sizes[k + 1]? = some out.length →
        assemble h m.vector (k + 1) out = .ok (paramVector (moved (fun s t =>
          ((calculateOffset s.x0 s.y0 t.x0 t.y0 im.x0 im.y0 im.pixScale im.rotation).1,
           (calculateOffset s.x0 s.y0 t.x0 t.y0 im.x0 im.y0 im.pixScale im.rotation).2.1)) (im.x0, im.y0) m.sets) ++ l)) := by
  refine ⟨_, _, generalSetup_eq m hl, ?_, ?_⟩
  all_goals
    have hcopy : ∀ (k : Nat) (l out : List α), m.locals[k]? = some l →
        (m.locals.map fun l => (paramVector m.sets).length + l.length)[k]? = some out.length →
        copyModelParams (holderOf m) m.vector out = .ok (paramVector m.sets ++ out.drop (paramVector m.sets).length) ∧
        (out.drop (paramVector m.sets).length).length = l.length := by
      intro k l out h1 h2
      simp only [List.getElem?_map, h1, Option.map_some, Option.some.injEq] at h2
      refine ⟨?_, by simp; omega⟩
      have := copy_loop' (params := m.vector) (out := out) (m.images.flatMap imageVector) (paramVector m.sets) m.locals.flatten []
        (out.take (paramVector m.sets).length) (out.drop (paramVector m.sets).length) (holderOf m).nModelParams (holderOf m).nImageParams 0
        rfl (by simp) (by simp; omega) rfl (by rw [imageVector_length]; rfl) rfl
      simpa [copyModelParams] using this
  · intro l out h1 h2
    obtain ⟨c1, c2⟩ := hcopy 0 l out h1 h2
    unfold assemble
    rw [c1]
    simp only [ok_bind, placeAll]
    exact copyLocal_eq m 0 l h1 _ _ rfl c2
  · intro k im l out him h1 h2
    obtain ⟨c1, c2⟩ := hcopy (k + 1) l out h1 h2
    unfold assemble
    rw [c1]
    simp only [ok_bind, placeAll, extract_eq m k im him]
    obtain ⟨s, rest, hs⟩ := List.exists_cons_of_ne_nil hw.1
    have hv : paramVector m.sets = s.x0 :: s.y0 :: (s.fns.flatMap (·.2) ++ paramVector rest) := by simp [hs, paramVector]
    have w : ∀ D : List α, (do let o ← wr (paramVector m.sets ++ D) 0 im.x0; let o ← wr o 1 im.y0; placeFurther (holderOf m) m.vector im o) =
        placeFurther (holderOf m) m.vector im (paramVector (s.at (im.x0, im.y0) :: rest) ++ D) := by
      intro D
      rw [hv, wr_ok (by simp), ok_bind, wr_ok (by simp), ok_bind]
      simp [paramVector, SetVals.at]
    have w' := w (out.drop (paramVector m.sets).length)
    rw [placeFurther_eq m hw im _ s rest hs] at w'
    rw [w', ok_bind]
    exact copyLocal_eq m (k + 1) l h1 _ _ (moved_length _ _ _) c2

/-- C37: the description handed to the functions of an image is that of the image: pixel scale, rotation and intensity scale from its place in the vector for all
images but the first, which is the reference. -/
theorem C37_description {α : Type} [FP α] (m : MultiVals α) (k : Nat) (im : ImgPar α) (hk : m.images[k]? = some im) :
    imageDesc m.vector (k + 1) = .ok (im.pixScale, im.rotation, im.intensityScale) ∧ imageDesc m.vector 0 = .ok (1, 0, 1) := by
  refine ⟨?_, rfl⟩
  simp only [imageDesc, extract_eq m k im hk, ok_bind, pure_eq_ok]

open XR in
/-- C37, geometry. With exact arithmetic and a positive pixel scale a further set is placed by a similarity: the offset from the first set is turned by minus
the rotation (in radians, with the constant `DEG2RAD` of the program), multiplied by the pixel scale and added to the position of the first set in this image. -/
theorem C37_similarity (xr yr xn yn xi yi s rot : ℝ) (hs : 0 < s) :
    ∃ x y, calculateOffset (fin xr) (fin yr) (fin xn) (fin yn) (fin xi) (fin yi) (fin s) (fin rot) = (fin x, fin y, 0) ∧
      pos x y = similarity s ((DEG2RAD : ℚ) * rot) (pos xr yr) (pos xi yi) (pos xn yn) := by
  let c := Real.cos ((DEG2RAD : ℚ) * rot)
  let d := Real.sin ((DEG2RAD : ℚ) * rot)
  refine ⟨xi + s * ((xn - xr) * c + (yn - yr) * d), yi + s * (-(xn - xr) * d + (yn - yr) * c), ?_, ?_⟩
  · have hle : fle (fin s) (0 : XR) = false := by simp [hs]
    unfold calculateOffset
    rw [hle]
    simp only [Bool.false_eq_true, if_false, lit_def, fin_mul, fcos_fin, fsin_fin, fin_sub, fin_neg, fin_add, c, d]
  · apply Complex.ext
    · simp [pos, similarity, Complex.exp_re, Complex.exp_im, c, d]
      ring
    · simp [pos, similarity, Complex.exp_re, Complex.exp_im, c, d]
      ring

/-- C37: distances between positions are multiplied by the pixel scale. -/
theorem C37_distances (s θ : ℝ) (hs : 0 < s) (ref c z w : ℂ) :
    ‖similarity s θ ref c z - similarity s θ ref c w‖ = s * ‖z - w‖ := by
  have e : similarity s θ ref c z - similarity s θ ref c w = s * Complex.exp (-(θ * Complex.I)) * (z - w) := by
    unfold similarity; ring
  rw [e, norm_mul, norm_mul, Complex.norm_real, Real.norm_of_nonneg hs.le]
  have : ‖Complex.exp (-(θ * Complex.I))‖ = 1 := by
    rw [show -((θ : ℂ) * Complex.I) = ((-θ : ℝ) : ℂ) * Complex.I by push_cast; ring, Complex.norm_exp_ofReal_mul_I]
  rw [this, mul_one]

/-- C37: the map of positions can be undone by the similarity with the inverse scale, the opposite rotation and the two centres exchanged. -/
theorem C37_invertible (s θ : ℝ) (hs : 0 < s) (ref c z : ℂ) :
    similarity s⁻¹ (-θ) c ref (similarity s θ ref c z) = z ∧ similarity s θ ref c (similarity s⁻¹ (-θ) c ref z) = z := by
  have h1 : (s : ℂ) ≠ 0 := by exact_mod_cast hs.ne'
  have h2 : Complex.exp (-(((-θ : ℝ) : ℂ) * Complex.I)) * Complex.exp (-(θ * Complex.I)) = 1 := by
    rw [← Complex.exp_add]; push_cast; simp
  have h3 : ((s⁻¹ : ℝ) : ℂ) * s = 1 := by push_cast; exact inv_mul_cancel₀ h1
  unfold similarity
  constructor
  · linear_combination (z - ref) * (((s⁻¹ : ℝ) : ℂ) * s) * h2 + (z - ref) * h3
  · linear_combination (z - c) * (((s⁻¹ : ℝ) : ℂ) * s) * h2 + (z - c) * h3

/-- Every position of a set is a finite number. -/
def FinitePos (s : SetVals XR) : Prop := ∃ x y : ℝ, s.x0 = .fin x ∧ s.y0 = .fin y

open XR in
/-- C37: with unit scale, no rotation and the same position of the first set, the vector of an image is the plain vector of the global functions (and the local
parameters of that image). -/
theorem C37_identity (m : MultiVals XR) (hw : WellFormed m.sets) (hl : m.locals.length = m.images.length + 1) (hfin : ∀ s ∈ m.sets, FinitePos s)
    (k : Nat) (im : ImgPar XR) (hk : m.images[k]? = some im) (h1 : im.pixScale = fin 1) (h2 : im.rotation = fin 0)
    (h3 : ∀ s ∈ m.sets.head?, im.x0 = s.x0 ∧ im.y0 = s.y0) (l : List XR) (hloc : m.locals[k + 1]? = some l) :
    ∃ h sizes,
      generalSetup 0 (m.images.length + 1) m.vector.length m.sets.length (flagged (sizesOf m.sets)) (m.locals.map fun l => (l.length : Int)) =
        .ok (h, sizes) ∧
      ∀ out : List XR, sizes[k + 1]? = some out.length → assemble h m.vector (k + 1) out = .ok (paramVector m.sets ++ l) := by
  obtain ⟨h, sizes, hg, -, ha⟩ := C37_assembly m hw hl
  refine ⟨h, sizes, hg, fun out ho => ?_⟩
  rw [ha k im l out hk hloc ho]
  obtain ⟨s, rest, hs⟩ := List.exists_cons_of_ne_nil hw.1
  rw [hs] at hfin h3 ⊢
  obtain ⟨hx, hy⟩ := h3 s (by simp)
  obtain ⟨xr, yr, ex, ey⟩ := hfin s (by simp)
  have key : ∀ t ∈ rest, t.at ((calculateOffset s.x0 s.y0 t.x0 t.y0 im.x0 im.y0 im.pixScale im.rotation).1,
      (calculateOffset s.x0 s.y0 t.x0 t.y0 im.x0 im.y0 im.pixScale im.rotation).2.1) = t := by
    intro t ht
    obtain ⟨xt, yt, fx, fy⟩ := hfin t (by simp [ht])
    obtain ⟨x, y, hc, hp⟩ := C37_similarity xr yr xt yt xr yr 1 0 one_pos
    rw [hx, hy, ex, ey, fx, fy, h1, h2, hc]
    have hz : pos x y = pos xt yt := by rw [hp]; simp [similarity]
    have hx' : x = xt := congrArg Complex.re hz
    have hy' : y = yt := congrArg Complex.im hz
    simp [SetVals.at, hx', hy', ← fx, ← fy]
  simp only [moved]
  rw [List.map_congr_left (g := id) key, List.map_id]
  congr 2
  have : s.at (im.x0, im.y0) = s := by simp [SetVals.at, hx, hy]
  rw [this]

/-- A pixel scale that is not positive: `CalculateOffset_X0Y0` prints a message and returns a status that nobody looks at; the assembly goes on with every further
set at (0, 0). -/
theorem C37_nonpositive_scale (m : MultiVals XR) (hw : WellFormed m.sets) (hl : m.locals.length = m.images.length + 1)
    (k : Nat) (im : ImgPar XR) (hk : m.images[k]? = some im) (h1 : fle im.pixScale 0 = true) (l : List XR) (hloc : m.locals[k + 1]? = some l) :
    ∃ h sizes,
      generalSetup 0 (m.images.length + 1) m.vector.length m.sets.length (flagged (sizesOf m.sets)) (m.locals.map fun l => (l.length : Int)) =
        .ok (h, sizes) ∧
      ∀ out : List XR, sizes[k + 1]? = some out.length →
        assemble h m.vector (k + 1) out = .ok (paramVector (moved (fun _ _ => (0, 0)) (im.x0, im.y0) m.sets) ++ l) := by
  obtain ⟨h, sizes, hg, -, ha⟩ := C37_assembly m hw hl
  refine ⟨h, sizes, hg, fun out ho => ?_⟩
  rw [ha k im l out hk hloc ho]
  simp only [calculateOffset, h1, if_true]

/-- C37, parameter counts. If `nPerImageParams` started at zero, `FinalModelSetup` would give the length of the parameter vector and the numbers of local
parameters needed by `C37_assembly`. -/
theorem C37_counts (m : MultiVals α) (hw : WellFormed m.sets) :
    finalModelCounts (some 0) (sizesOf m.sets).flatten.sum m.sets.length
        (N_IMAGE_PARAMS * m.images.length + ((sizesOf m.sets).flatten.sum + 2 * m.sets.length))
        (m.locals.map fun l => (sizesOf m.sets).flatten.sum + 2 * m.sets.length + l.length) =
      (some (m.vector.length : Int), m.locals.map fun l => (l.length : Int)) := by
  have he : (m.locals.map fun l => (sizesOf m.sets).flatten.sum + 2 * m.sets.length + l.length).map
      (fun n : Nat => (n : Int) - (((sizesOf m.sets).flatten.sum : Nat) + 2 * (m.sets.length : Nat) : Int)) = m.locals.map fun l => (l.length : Int) := by
    rw [List.map_map]
    refine List.map_congr_left fun l _ => ?_
    simp only [Function.comp_apply]
    push_cast
    ring
  have hsum : ((m.locals.map fun l => (l.length : Int)).map fun e => if 0 < e then e else 0).sum = (m.locals.flatten.length : Nat) := by
    generalize m.locals = ls
    induction ls with
    | nil => rfl
    | cons l ls ih =>
      simp only [List.map_cons, List.sum_cons, ih, List.flatten_cons, List.length_append]
      push_cast
      congr 1
      split_ifs with h <;> omega
  unfold finalModelCounts
  simp only [Option.map_some, he, hsum, MultiVals.vector, List.length_append, imageVector_length, paramVector_length m.sets hw.2]
  congr 2
  push_cast
  ring

/-- C37 fails for the program as a whole: no constructor initialises `nPerImageParams`, so the total number of parameters of a multi-image model is indeterminate
(an uninitialised number is added to it). -/
theorem C37_uninitialised_false :
    ¬ ∀ (m : MultiVals XR), WellFormed m.sets →
      (finalModelCounts none (sizesOf m.sets).flatten.sum m.sets.length
        (N_IMAGE_PARAMS * m.images.length + ((sizesOf m.sets).flatten.sum + 2 * m.sets.length))
        (m.locals.map fun l => (sizesOf m.sets).flatten.sum + 2 * m.sets.length + l.length)).1 = some (m.vector.length : Int) := by
  intro h
  have := h ⟨[], [⟨.fin 0, .fin 0, [(⟨0, false, fun _ _ _ _ _ => .fin 0⟩, [])]⟩], [[]]⟩ ⟨by simp, by simp⟩
  simp [finalModelCounts] at this

/-! ## Examples -/

/-- Two function sets (one with two functions), two further images, local parameters in the first and third image. -/
noncomputable def exMulti : MultiVals XR where
  images := [⟨.fin 2, .fin 0, .fin 1, .fin 50, .fin 60⟩, ⟨.fin 1, .fin 0, .fin 3, .fin 10, .fin 20⟩]
  sets := [⟨.fin 10, .fin 20, [(⟨1, false, fun _ _ _ _ _ => .fin 0⟩, [.fin 7]), (⟨2, false, fun _ _ _ _ _ => .fin 0⟩, [.fin 8, .fin 9])]⟩,
    ⟨.fin 11, .fin 23, [(⟨1, false, fun _ _ _ _ _ => .fin 0⟩, [.fin 6])]⟩]
  locals := [[.fin 100], [], [.fin 101, .fin 102]]

theorem exMulti_wf : WellFormed exMulti.sets := by
  refine ⟨by simp [exMulti], ?_⟩
  intro s hs
  simp only [exMulti, List.mem_cons, List.not_mem_nil, or_false] at hs
  rcases hs with rfl | rfl <;> simp

open XR in
example : ∃ h sizes, generalSetup 0 3 exMulti.vector.length 2 (flagged (sizesOf exMulti.sets)) [1, 0, 2] = .ok (h, sizes) ∧
    ∀ out : List XR, sizes[1]? = some out.length → assemble h exMulti.vector 1 out =
      .ok [fin 50, fin 60, fin 7, fin 8, fin 9, fin 52, fin 66, fin 6] := by
  obtain ⟨h, sizes, hg, -, ha⟩ := C37_assembly exMulti exMulti_wf rfl
  refine ⟨h, sizes, hg, fun out ho => ?_⟩
  rw [ha 0 _ [] out rfl rfl ho]
  have : ¬ ((2 : ℝ) ≤ 0) := by norm_num
  simp [exMulti, moved, calculateOffset, paramVector, SetVals.at, this]
  norm_num

open XR in
example : ∃ h sizes, generalSetup 0 3 exMulti.vector.length 2 (flagged (sizesOf exMulti.sets)) [1, 0, 2] = .ok (h, sizes) ∧
    ∀ out : List XR, sizes[2]? = some out.length → assemble h exMulti.vector 2 out =
      .ok [fin 10, fin 20, fin 7, fin 8, fin 9, fin 11, fin 23, fin 6, fin 101, fin 102] := by
  have := C37_identity exMulti exMulti_wf rfl (by
    intro s hs
    simp only [exMulti, List.mem_cons, List.not_mem_nil, or_false] at hs
    rcases hs with rfl | rfl <;> exact ⟨_, _, rfl, rfl⟩) 1 _ rfl rfl rfl (by simp [exMulti]) [fin 101, fin 102] rfl
  obtain ⟨h, sizes, hg, ha⟩ := this
  exact ⟨h, sizes, hg, fun out ho => by rw [ha out ho]; simp [exMulti, paramVector]⟩

example : finalModelCounts (some 0) 4 2 18 [9, 8, 10] = (some 21, [1, 0, 2]) := by decide

end Imfit
