import Verif.Model.OsPsf
import Verif.Lemmas.Convolve
import Verif.Lemmas.Fit
import Verif.Props.C16
import Verif.Props.C83

/-!
# C84: oversampled regions use the PSF normalised to 1, for extended light and for point sources alike

The convolution does (`C84_convolution`). The interpolator for point sources is made before the PSF is normalised, in place, so that the first region that uses
a PSF image gives point sources the flux times the sum of the image (`C84_flux_false`), while later regions with the same image are right
(`C84_shared_false`). Switching normalisation off has no effect on regions (`C84_switch_false`), and a PSF whose sum is zero is not refused (`C84_zero_false`).
-/

namespace Imfit

open XR Spec

/-- A PSF image divided by its sum. -/
noncomputable def Spec.unitPsf (P : List ℝ) : List ℝ := P.map (· / P.sum)

theorem sum_unitPsf (P : List ℝ) (h : P.sum ≠ 0) : (unitPsf P).sum = 1 := by
  have e : ∀ (l : List ℝ) (c : ℝ), (l.map (· / c)).sum = l.sum / c := by
    intro l c
    induction l with
    | nil => simp
    | cons a l ih => simp only [List.map_cons, List.sum_cons, ih]; ring
  rw [unitPsf, e, div_self h]

theorem unitPsf_of_sum_one (P : List ℝ) (h : P.sum = 1) : unitPsf P = P := by
  simp [unitPsf, h]

theorem unitPsf_unitPsf (P : List ℝ) (h : P.sum ≠ 0) : unitPsf (unitPsf P) = unitPsf P := unitPsf_of_sum_one _ (sum_unitPsf P h)

theorem normalizePsf_fin (P : List ℝ) (h : P.sum ≠ 0) : normalizePsf (P.map fin) = (unitPsf P).map fin := by
  unfold normalizePsf unitPsf
  rw [kahanSum_fin, List.map_map, List.map_map]
  apply List.map_congr_left
  intro a _
  simp [h]

theorem all_isfin (P : List ℝ) : ((P.map fin).all fun v => isfin v) = true := by
  rw [List.all_eq_true]
  intro v hv
  obtain ⟨a, -, rfl⟩ := List.mem_map.1 hv
  rfl

theorem addRegionPsf_fin (heap : List (OsPsf XR)) (i : OsInfo) (Q : List ℝ) (hk : i.psf < heap.length) (hq : heap[i.psf].pix = Q.map fin) (hs : Q.sum ≠ 0)
    (hn : i.normalize = true) :
    addRegionPsf heap i = .ok (some (heap.set i.psf { heap[i.psf] with pix := (unitPsf Q).map fin }, ⟨Q.map fin, (unitPsf Q).map fin⟩)) := by
  unfold addRegionPsf
  rw [rd_ok hk, ok_bind]
  simp only [hq, all_isfin, Bool.not_true, Bool.false_eq_true, if_false, hn, if_true, normalizePsf_fin Q hs]
  rw [wr_ok hk]
  rfl

/-- What the regions get when the images in `seen` have already been normalised. -/
noncomputable def regionsFrom (P : ℕ → List ℝ) : List ℕ → List OsInfo → List (RegionPsf XR)
  | _, [] => []
  | seen, i :: is =>
    ⟨(if i.psf ∈ seen then unitPsf (P i.psf) else P i.psf).map fin, (unitPsf (P i.psf)).map fin⟩ :: regionsFrom P (i.psf :: seen) is

theorem addRegionPsfs_from (P : ℕ → List ℝ) (N : ℕ) (hs : ∀ k < N, (P k).sum ≠ 0) (is : List OsInfo) :
    ∀ (seen : List ℕ) (heap : List (OsPsf XR)) (_ : heap.length = N)
      (_ : ∀ (k : ℕ) (h : k < heap.length), heap[k].pix = (if k ∈ seen then unitPsf (P k) else P k).map fin)
      (_ : ∀ i ∈ is, i.psf < N ∧ i.normalize = true), addRegionPsfs heap is = .ok (some (regionsFrom P seen is)) := by
  induction is with
  | nil => intro seen heap _ _ _; rfl
  | cons i is ih =>
    intro seen heap hN hp hi
    obtain ⟨hk, hn⟩ := hi i List.mem_cons_self
    have hk' : i.psf < heap.length := by omega
    have hsum : (if i.psf ∈ seen then unitPsf (P i.psf) else P i.psf).sum ≠ 0 := by
      split_ifs
      · rw [sum_unitPsf _ (hs _ hk)]; exact one_ne_zero
      · exact hs _ hk
    have hu : unitPsf (if i.psf ∈ seen then unitPsf (P i.psf) else P i.psf) = unitPsf (P i.psf) := by
      split_ifs
      · exact unitPsf_unitPsf _ (hs _ hk)
      · rfl
    unfold addRegionPsfs
    rw [addRegionPsf_fin heap i _ hk' (hp _ hk') hsum hn, hu]
    simp only [ok_bind]
    rw [ih (i.psf :: seen) _ (by simpa using hN) ?_ (fun j hj => hi j (List.mem_cons_of_mem _ hj))]
    · rfl
    · intro k h
      rw [List.getElem_set]
      by_cases e : i.psf = k
      · subst e
        simp
      · have : (k ∈ i.psf :: seen) = (k ∈ seen) := by
          rw [List.mem_cons, eq_iff_iff]
          exact ⟨fun h => h.resolve_left fun e' => e e'.symm, Or.inr⟩
        rw [if_neg e, hp k (by simpa using h)]
        simp only [this]

theorem regionsFrom_get (P : ℕ → List ℝ) (is : List OsInfo) : ∀ (seen : List ℕ) (n : ℕ) (i : OsInfo), is[n]? = some i →
    (regionsFrom P seen is)[n]? = some ⟨(if i.psf ∈ seen ∨ i.psf ∈ (is.take n).map OsInfo.psf then unitPsf (P i.psf) else P i.psf).map fin,
      (unitPsf (P i.psf)).map fin⟩ := by
  induction is with
  | nil => intro seen n i h; simp at h
  | cons j is ih =>
    intro seen n i h
    cases n with
    | zero =>
      simp only [List.getElem?_cons_zero, Option.some.injEq] at h
      subst h
      simp [regionsFrom]
    | succ n =>
      rw [List.getElem?_cons_succ] at h
      unfold regionsFrom
      rw [List.getElem?_cons_succ, ih _ n i h]
      have : (i.psf ∈ j.psf :: seen ∨ i.psf ∈ (is.take n).map OsInfo.psf) = (i.psf ∈ seen ∨ i.psf ∈ ((j :: is).take (n + 1)).map OsInfo.psf) := by
        rw [eq_iff_iff, List.take_succ_cons, List.map_cons, List.mem_cons, List.mem_cons]
        tauto
      simp only [this]

theorem regionsFrom_length (P : ℕ → List ℝ) (is : List OsInfo) : ∀ seen, (regionsFrom P seen is).length = is.length := by
  induction is with
  | nil => intro seen; rfl
  | cons i is ih => intro seen; simp [regionsFrom, ih]

/-- What every region gets: the normalised image for the convolution; for point sources the normalised image if an earlier region uses the same image, otherwise
the image as it was read. -/
theorem C84_regions (heap : List (OsPsf XR)) (P : ℕ → List ℝ) (hp : ∀ (k : ℕ) (h : k < heap.length), heap[k].pix = (P k).map fin)
    (hs : ∀ k < heap.length, (P k).sum ≠ 0) (is : List OsInfo) (hi : ∀ i ∈ is, i.psf < heap.length ∧ i.normalize = true) :
    ∃ rs, addRegionPsfs heap is = .ok (some rs) ∧ rs.length = is.length ∧
      ∀ (n : ℕ) (i : OsInfo), is[n]? = some i → rs[n]? = some
        ⟨(if i.psf ∈ (is.take n).map OsInfo.psf then unitPsf (P i.psf) else P i.psf).map fin, (unitPsf (P i.psf)).map fin⟩ := by
  refine ⟨regionsFrom P [] is, addRegionPsfs_from P heap.length hs is [] heap rfl (by simpa using hp) hi, regionsFrom_length P is [], ?_⟩
  intro n i h
  rw [regionsFrom_get P is [] n i h]
  simp

/-- C84 for the convolution: all regions use a PSF that sums to 1. -/
theorem C84_convolution (heap : List (OsPsf XR)) (P : ℕ → List ℝ) (hp : ∀ (k : ℕ) (h : k < heap.length), heap[k].pix = (P k).map fin)
    (hs : ∀ k < heap.length, (P k).sum ≠ 0) (is : List OsInfo) (hi : ∀ i ∈ is, i.psf < heap.length ∧ i.normalize = true) :
    ∃ rs, addRegionPsfs heap is = .ok (some rs) ∧ ∀ (n : ℕ) (i : OsInfo), is[n]? = some i →
      ∃ (r : RegionPsf XR) (Q : List ℝ), rs[n]? = some r ∧ r.conv = Q.map fin ∧ Q.sum = 1 ∧ P i.psf = Q.map ((P i.psf).sum * ·) := by
  obtain ⟨rs, h1, -, h3⟩ := C84_regions heap P hp hs is hi
  refine ⟨rs, h1, fun n i h => ⟨_, _, h3 n i h, rfl, ?_, ?_⟩⟩
  · exact sum_unitPsf _ (hs _ (hi i (List.mem_of_getElem? h)).1)
  · have hne := hs _ (hi i (List.mem_of_getElem? h)).1
    rw [unitPsf, List.map_map]
    conv_lhs => rw [← List.map_id (P i.psf)]
    apply List.map_congr_left
    intro a _
    simp only [Function.comp_apply, id]
    field_simp

/-- C84 for point sources, if the image read sums to 1. Missing: other images, see `C84_flux_false`. -/
theorem C84_partial (heap : List (OsPsf XR)) (P : ℕ → List ℝ) (hp : ∀ (k : ℕ) (h : k < heap.length), heap[k].pix = (P k).map fin)
    (hs : ∀ k < heap.length, (P k).sum = 1) (is : List OsInfo) (hi : ∀ i ∈ is, i.psf < heap.length ∧ i.normalize = true) :
    ∃ rs, addRegionPsfs heap is = .ok (some rs) ∧ rs.length = is.length ∧
      ∀ (n : ℕ) (i : OsInfo), is[n]? = some i → rs[n]? = some ⟨(P i.psf).map fin, (P i.psf).map fin⟩ := by
  obtain ⟨rs, h1, h2, h3⟩ := C84_regions heap P hp (fun k hk => by rw [hs k hk]; exact one_ne_zero) is hi
  refine ⟨rs, h1, h2, fun n i h => ?_⟩
  rw [h3 n i h, unitPsf_of_sum_one _ (hs _ (hi i (List.mem_of_getElem? h)).1), ite_self]

/-- A spline is proportional to its data. -/
def Spec.Homogeneous (spline : List XR → List XR → List XR → XR → XR → Res XR) : Prop :=
  ∀ xs ys (D : List ℝ) (c v : ℝ) x y, spline xs ys (D.map fin) x y = .ok (fin v) → spline xs ys ((D.map (c * ·)).map fin) x y = .ok (fin (c * v))

theorem bicubic_scale (spline : List XR → List XR → List XR → XR → XR → Res XR) (hh : Homogeneous spline) (cols rows : ℕ) (D : List ℝ) (c : ℝ) (x y : XR)
    (w : ℝ) (h : bicubicValue spline (psfInterp (D.map fin) cols rows) x y = .ok (fin w)) :
    bicubicValue spline (psfInterp ((D.map (c * ·)).map fin) cols rows) x y = .ok (fin (c * w)) := by
  unfold bicubicValue at h ⊢
  have e : outsidePsf (psfInterp ((D.map (c * ·)).map fin) cols rows : PsfInterp XR) x y = outsidePsf (psfInterp (D.map fin) cols rows) x y := rfl
  rw [e]
  split_ifs at h ⊢ with ho
  · rw [pure_eq_ok, zero_def] at h ⊢
    injection h with h
    injection h with h
    rw [← h, mul_zero]
  · exact hh _ _ D c w x y h

theorem scale_unitPsf (P : List ℝ) (h : P.sum ≠ 0) : (unitPsf P).map (P.sum * ·) = P := by
  rw [unitPsf, List.map_map]
  conv_rhs => rw [← List.map_id P]
  apply List.map_congr_left
  intro a _
  simp only [Function.comp_apply, id]
  field_simp

/-- The value of a point source with the interpolator made from the given pixels. -/
noncomputable def sourceWith (spline : List XR → List XR → List XR → XR → XR → Res XR) (cols rows : ℕ) (pix : List XR) (scale : ℕ) (itot x0 y0 x y : ℝ) : Res XR :=
  pointSource (bicubicValue spline (psfInterp pix cols rows)) scale 1 (fin itot) (fin x0) (fin y0) (fin x) (fin y)

/-- The first region with a given PSF image: at every point the value of a point source is the right one times the sum of the pixels of the image. -/
theorem C84_flux_false (spline : List XR → List XR → List XR → XR → XR → Res XR) (hh : Homogeneous spline) (img : OsPsf XR) (P : List ℝ)
    (hp : img.pix = P.map fin) (hs : P.sum ≠ 0) (i : OsInfo) (hi : i.psf = 0) (hn : i.normalize = true) :
    ∃ r, addRegionPsfs [img] [i] = .ok (some [r]) ∧ ∀ (scale : ℕ) (itot x0 y0 x y w : ℝ),
      bicubicValue spline (psfInterp ((unitPsf P).map fin) img.cols img.rows) (fin (scale * (x - x0))) (fin (scale * (y - y0))) = .ok (fin w) →
      sourceWith spline img.cols img.rows ((unitPsf P).map fin) scale itot x0 y0 x y = .ok (fin (itot * w)) ∧
      sourceWith spline img.cols img.rows r.interp scale itot x0 y0 x y = .ok (fin (P.sum * (itot * w))) := by
  have h1 : addRegionPsfs [img] [i] = .ok (some [⟨P.map fin, (unitPsf P).map fin⟩]) := by
    unfold addRegionPsfs
    rw [addRegionPsf_fin [img] i P (by simp [hi]) (by simp [hi, hp]) hs hn]
    rfl
  refine ⟨_, h1, fun scale itot x0 y0 x y w hw => ?_⟩
  have e : ∀ a b : ℝ, (lit (scale : ℚ) * (fin a - fin b) : XR) = fin (scale * (a - b)) := by
    intro a b
    rw [lit_def, fin_sub, fin_mul]
    norm_cast
  have h2 := bicubic_scale spline hh img.cols img.rows (unitPsf P) P.sum _ _ w hw
  rw [scale_unitPsf P hs] at h2
  unfold sourceWith pointSource
  rw [e, e, hw, h2]
  simp only [ok_bind, pure_eq_ok, one_def, fin_mul]
  constructor <;> congr 2 <;> ring

/-- A spline that is proportional to its data: the first pixel everywhere. -/
example : Homogeneous (fun _ _ d _ _ => rd d 0) := by
  intro xs ys D c v x y h
  cases D with
  | nil => simp [rd] at h
  | cons a D =>
    simp only [List.map_cons, rd, List.getElem?_cons_zero] at h ⊢
    injection h with h
    injection h with h
    rw [h]

/-- Two regions that share an image whose pixels do not sum to 1 treat point sources differently: the first with the image as read, the second with the
normalised one. -/
theorem C84_shared_false (img : OsPsf XR) (P : List ℝ) (hp : img.pix = P.map fin) (hs : P.sum ≠ 0) (h1 : P.sum ≠ 1) (i j : OsInfo) (hi : i.psf = 0)
    (hj : j.psf = 0) (hni : i.normalize = true) (hnj : j.normalize = true) :
    ∃ r r', addRegionPsfs [img] [i, j] = .ok (some [r, r']) ∧ r.conv = r'.conv ∧ r.interp ≠ r'.interp ∧ r'.interp = r'.conv := by
  refine ⟨⟨P.map fin, (unitPsf P).map fin⟩, ⟨(unitPsf P).map fin, (unitPsf P).map fin⟩, ?_, rfl, ?_, rfl⟩
  · rw [addRegionPsfs_from (fun _ => P) 1 (fun _ _ => hs) [i, j] [] [img] rfl]
    · simp [regionsFrom, hi, hj]
    · intro k hk
      have : k = 0 := by simpa using hk
      subst this
      simpa using hp
    · intro t ht
      simp only [List.mem_cons, List.not_mem_nil, or_false] at ht
      rcases ht with rfl | rfl
      · exact ⟨by omega, hni⟩
      · exact ⟨by omega, hnj⟩
  · intro e
    have e' : P = unitPsf P := by
      have hinj : Function.Injective (fin : ℝ → XR) := fun a b h => by injection h
      exact List.map_injective_iff.2 hinj e
    exact h1 (by rw [e', sum_unitPsf P hs])

/-- Switching normalisation off: the PSF of the image is stored as it is, but every region still convolves with the normalised PSF. -/
theorem C84_switch_false (read : Str → Option (OsPsf XR)) (off : Int × Int) (region f : Str) (s : Int) (cols rows : ℕ) (P : ℕ → ℕ → ℝ) (hc : 0 < cols)
    (hr : 0 < rows) (hread : read f = some ⟨cols, rows, Spec.image cols rows P⟩) (hs : Spec.total cols rows P ≠ 0) (h1 : Spec.total cols rows P ≠ 1) :
    addPsfVector (Spec.image cols rows P) (rows * cols) cols rows false = .ok (some (Spec.image cols rows P)) ∧
    ∃ heap infos r, loadRegions read off [region] [f] [s] = .ok (some (heap, infos)) ∧ addRegionPsfs heap infos = .ok (some [r]) ∧
      r.conv ≠ Spec.image cols rows P := by
  constructor
  · have hcopy : copyPsf (Spec.image cols rows P) (rows * cols) = .ok (some (Spec.image cols rows P, fin (Spec.total cols rows P))) := by
      rw [copyPsf_fin _ (fun k => P (k / cols) (k % cols)), image_sum, ← image_eq_map]
      intro k hk
      rw [rd_ok (by rw [image_length]; exact hk), image_getElem]
    unfold addPsfVector
    rw [if_neg (by simp only [not_not]; exact ⟨Nat.mul_pos hr hc, hc, hr⟩)]
    simp only [hcopy, ok_bind, pure_eq_ok]
    rfl
  · obtain ⟨L, hL, hLs⟩ : ∃ L : List ℝ, Spec.image cols rows P = L.map fin ∧ L.sum = Spec.total cols rows P := by
      refine ⟨(List.range (rows * cols)).map fun k => P (k / cols) (k % cols), ?_, image_sum cols rows P⟩
      rw [List.map_map]
      rfl
    have hs' : L.sum ≠ 0 := by rw [hLs]; exact hs
    refine ⟨_, _, ⟨L.map fin, (unitPsf L).map fin⟩, C83_shared read off [region] f s _ (by simp) hread, ?_, ?_⟩
    · show addRegionPsfs _ [⟨region, 0, s, off, true⟩] = _
      unfold addRegionPsfs
      rw [addRegionPsf_fin _ _ L (by simp) (by simpa using hL) hs' rfl]
      rfl
    · intro e
      have e' : unitPsf L = L := by
        have hinj : Function.Injective (fin : ℝ → XR) := fun a b h => by injection h
        exact List.map_injective_iff.2 hinj (e.trans hL)
      exact h1 (by rw [← hLs, ← e', sum_unitPsf L hs'])

/-- A PSF of zero sum: refused for the image, accepted for a region, whose convolution then has no finite pixel. -/
theorem C84_zero_false (cols rows : ℕ) (P : ℕ → ℕ → ℝ) (hc : 0 < cols) (hr : 0 < rows) (hs : Spec.total cols rows P = 0) (i : OsInfo) (hi : i.psf = 0)
    (hn : i.normalize = true) :
    addPsfVector (Spec.image cols rows P) (rows * cols) cols rows true = .ok none ∧
    ∃ r, addRegionPsfs [⟨cols, rows, Spec.image cols rows P⟩] [i] = .ok (some [r]) ∧ r.conv.length = rows * cols ∧ ∀ v ∈ r.conv, isfin v = false := by
  obtain ⟨L, hL, hLs⟩ : ∃ L : List ℝ, Spec.image cols rows P = L.map fin ∧ L.sum = Spec.total cols rows P := by
    refine ⟨(List.range (rows * cols)).map fun k => P (k / cols) (k % cols), ?_, image_sum cols rows P⟩
    rw [List.map_map]
    rfl
  have hall : ((Spec.image cols rows P).all fun v => isfin v) = true := by rw [hL, all_isfin]
  refine ⟨(C16_add cols rows P hc hr).1 hs.le, ⟨Spec.image cols rows P, normalizePsf (Spec.image cols rows P)⟩, ?_, ?_, ?_⟩
  · unfold addRegionPsfs addRegionPsf
    rw [rd_ok (by simp [hi]), ok_bind]
    simp only [hi, List.getElem_cons_zero, hall, Bool.not_true, Bool.false_eq_true, if_false, hn, if_true]
    rw [wr_ok (by simp)]
    rfl
  · simp [normalizePsf, image_length]
  · intro v hv
    simp only [normalizePsf, hL, kahanSum_fin, hLs, hs, List.map_map] at hv
    obtain ⟨a, -, rfl⟩ := List.mem_map.1 hv
    simp only [Function.comp_apply, fin_div_zero, infSign]
    split_ifs <;> rfl

section Examples

/-- The pixels 1, 2, 3, 2 sum to 8: the first region gives point sources eight times their flux. -/
example : ∃ r, addRegionPsfs [⟨2, 2, ([1, 2, 3, 2] : List ℝ).map fin⟩] [⟨[], 0, 3, (0, 0), true⟩] = .ok (some [r]) ∧
    r.interp = ([1, 2, 3, 2] : List ℝ).map fin ∧ r.conv = ([1 / 8, 1 / 4, 3 / 8, 1 / 4] : List ℝ).map fin := by
  obtain ⟨rs, h1, h2, h3⟩ := C84_regions [⟨2, 2, ([1, 2, 3, 2] : List ℝ).map fin⟩] (fun _ => [1, 2, 3, 2])
    (by intro k h; have : k = 0 := by simpa using h
        subst this; rfl) (by intro k _; norm_num) [⟨[], 0, 3, (0, 0), true⟩] (by simp)
  have h4 := h3 0 _ rfl
  obtain ⟨r, rfl⟩ := List.length_eq_one_iff.1 h2
  simp only [List.getElem?_cons_zero, Option.some.injEq] at h4
  refine ⟨r, h1, by rw [h4]; simp, ?_⟩
  rw [h4]
  simp only [unitPsf, List.map_cons, List.map_nil, List.sum_cons, List.sum_nil]
  norm_num

end Examples

end Imfit
