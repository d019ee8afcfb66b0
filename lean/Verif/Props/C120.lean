import Verif.Lemmas.Fit
import Verif.Model.Rings
import Verif.Model.LineSight
import Verif.Model.Psf
import Verif.Model.Checkerboard
import Verif.Spec.Section

/-!
# C120 — The model of a section is the section of the model
-/

namespace Imfit

open Spec XR

/-! ## Functions depend on the distance from their centre only -/

theorem sub_moved (a x x0 : ℝ) : fin (x - a) - fin (x0 - a) = fin x - fin x0 := by
  simp only [fin_sub]
  congr 1
  ring

theorem sub_moved2 (a x x0 h : ℝ) (A B : XR) : ((fin (x - a) - fin h + A) + B) - fin (x0 - a) = ((fin x - fin h + A) + B) - fin x0 := by
  cases A with
  | fin u =>
    cases B with
    | fin v =>
      simp only [fin_sub, fin_add]
      congr 1
      ring
    | _ => rfl
  | pinf => cases B <;> rfl
  | ninf => cases B <;> rfl
  | nan => cases B <;> rfl

theorem subMean_moved (f : EllFn XR) (a b x0 y0 x y : ℝ) (hx : f.geo.x0 = fin x0) (hy : f.geo.y0 = fin y0) (n : Nat) :
    subMean { f with geo := { f.geo with x0 := fin (x0 - a), y0 := fin (y0 - b) } } n (fin (x - a)) (fin (y - b)) = subMean f n (fin x) (fin y) := by
  unfold subMean
  simp only [lit_def, sub_moved2, hx, hy]
  rfl

theorem ellValue_moved (f : EllFn XR) (a b x0 y0 x y : ℝ) (hx : f.geo.x0 = fin x0) (hy : f.geo.y0 = fin y0) :
    ellValue { f with geo := { f.geo with x0 := fin (x0 - a), y0 := fin (y0 - b) } } (fin (x - a)) (fin (y - b)) = ellValue f (fin x) (fin y) := by
  have hr : EllGeo.radius { f.geo with x0 := fin (x0 - a), y0 := fin (y0 - b) } = EllGeo.radius f.geo := rfl
  unfold ellValue
  simp only [subMean_moved f a b x0 y0 x y hx hy, sub_moved, hx, hy, hr]

theorem ellValue_same {f f' : EllFn XR} {a b x0 y0 x y : ℝ} (hx : f.geo.x0 = fin x0) (hy : f.geo.y0 = fin y0)
    (h : f' = { f with geo := { f.geo with x0 := fin (x0 - a), y0 := fin (y0 - b) } }) : ellValue f' (fin (x - a)) (fin (y - b)) = ellValue f (fin x) (fin y) := by
  rw [h, ellValue_moved f a b x0 y0 x y hx hy]

theorem planeMean_moved (f : PlaneFn XR) (a b x0 y0 x y : ℝ) (hx : f.x0 = fin x0) (hy : f.y0 = fin y0) (n : Nat) :
    planeMean { f with x0 := fin (x0 - a), y0 := fin (y0 - b) } n (fin (x - a)) (fin (y - b)) = planeMean f n (fin x) (fin y) := by
  unfold planeMean
  simp only [lit_def, sub_moved2, hx, hy]
  rfl

theorem planeValue_moved (f : PlaneFn XR) (a b x0 y0 x y : ℝ) (hx : f.x0 = fin x0) (hy : f.y0 = fin y0) :
    planeValue { f with x0 := fin (x0 - a), y0 := fin (y0 - b) } (fin (x - a)) (fin (y - b)) = planeValue f (fin x) (fin y) := by
  unfold planeValue
  simp only [planeMean_moved f a b x0 y0 x y hx hy, sub_moved, hx, hy]
  rfl

theorem planeValue_same {f f' : PlaneFn XR} {a b x0 y0 x y : ℝ} (hx : f.x0 = fin x0) (hy : f.y0 = fin y0) (h : f' = { f with x0 := fin (x0 - a), y0 := fin (y0 - b) }) :
    planeValue f' (fin (x - a)) (fin (y - b)) = planeValue f (fin x) (fin y) := by
  rw [h, planeValue_moved f a b x0 y0 x y hx hy]

theorem planeBuild_moved (F : PFun XR) (doSub : Bool) (d : ImgDesc XR) (x0 y0 x0' y0' : XR) (p : List XR) :
    (∃ f, F.build doSub d x0 y0 p = .ok f ∧ f.x0 = x0 ∧ f.y0 = y0 ∧ F.build doSub d x0' y0' p = .ok { f with x0 := x0', y0 := y0' }) ∨
      ∃ e, F.build doSub d x0 y0 p = .error e ∧ F.build doSub d x0' y0' p = .error e := by
  unfold PFun.build
  split <;> first | exact .inl ⟨_, rfl, rfl, rfl, rfl⟩ | exact .inr ⟨_, rfl, rfl⟩

theorem spiralBuild_moved (F : SpiralFun) (x0 y0 x0' y0' : XR) (p : List XR) :
    (∃ f, F.build x0 y0 p = .ok f ∧ f.x0 = x0 ∧ f.y0 = y0 ∧ F.build x0' y0' p = .ok { f with x0 := x0', y0 := y0' }) ∨
      ∃ e, F.build x0 y0 p = .error e ∧ F.build x0' y0' p = .error e := by
  unfold SpiralFun.build
  split <;> first | exact .inl ⟨_, rfl, rfl, rfl, rfl⟩ | exact .inr ⟨_, rfl, rfl⟩

theorem losBuild_moved (F : LFun) (d : ImgDesc XR) (x0 y0 x0' y0' : XR) (p : List XR) :
    (∃ f, F.build d x0 y0 p = .ok f ∧ f.x0 = x0 ∧ f.y0 = y0 ∧ F.build d x0' y0' p = .ok { f with x0 := x0', y0 := y0' }) ∨
      ∃ e, F.build d x0 y0 p = .error e ∧ F.build d x0' y0' p = .error e := by
  unfold LFun.build
  split <;> first | exact .inl ⟨_, rfl, rfl, rfl, rfl⟩ | exact .inr ⟨_, rfl, rfl⟩

theorem relative_efun (F : EFun) (doSub : Bool) (d : ImgDesc XR) (params : List XR) (offset : Nat) : Relative (F.value doSub d params offset) := by
  intro a b x0 y0 x y
  cases F <;> simp only [EFun.value, EFun.setup, bind_assoc, pure_bind] <;> repeat (refine bind_congr fun _ => ?_)
  all_goals exact ellValue_same rfl rfl rfl

theorem planeBuild_value (F : PFun XR) (doSub : Bool) (d : ImgDesc XR) (p : List XR) : Relative fun x0 y0 x y => F.build doSub d x0 y0 p >>= fun f => planeValue f x y := by
  intro a b x0 y0 x y
  beta_reduce
  rcases planeBuild_moved F doSub d (fin x0) (fin y0) (fin (x0 - a)) (fin (y0 - b)) p with ⟨f, h1, h2, h3, h4⟩ | ⟨e, h1, h2⟩
  · rw [h1, h4, ok_bind, ok_bind, planeValue_moved f a b x0 y0 x y h2 h3]
  · rw [h1, h2]
    rfl

theorem relative_pfun (F : PFun XR) (doSub : Bool) (d : ImgDesc XR) (params : List XR) (offset : Nat) : Relative (F.value doSub d params offset) := by
  intro a b x0 y0 x y
  simp only [PFun.value, PFun.setup, bind_assoc]
  exact bind_congr fun p => planeBuild_value F doSub d p a b x0 y0 x y

theorem relative_spiral (F : SpiralFun) (params : List XR) (offset : Nat) : Relative (F.value params offset) := by
  intro a b x0 y0 x y
  simp only [SpiralFun.value]
  refine bind_congr fun p => ?_
  rcases spiralBuild_moved F (fin x0) (fin y0) (fin (x0 - a)) (fin (y0 - b)) p with ⟨f, h1, h2, h3, h4⟩ | ⟨e, h1, h2⟩
  · rw [h1, h4, ok_bind, ok_bind, planeValue_moved f a b x0 y0 x y h2 h3]
  · rw [h1, h2]
    rfl

theorem relative_los (integ : (XR → XR) → XR → XR → XR) (F : LFun) (d : ImgDesc XR) (params : List XR) (offset : Nat) : Relative (F.value integ d params offset) := by
  intro a b x0 y0 x y
  simp only [LFun.value, LFun.setup, bind_assoc]
  refine bind_congr fun p => ?_
  rcases losBuild_moved F d (fin x0) (fin y0) (fin (x0 - a)) (fin (y0 - b)) p with ⟨f, h1, h2, h3, h4⟩ | ⟨e, h1, h2⟩
  · rw [h1, h4, ok_bind, ok_bind]
    simp only [losValue, LosFn.start, sub_moved, h2, h3]
    rfl
  · rw [h1, h2]
    rfl

theorem relative_arc (params : List XR) (offset : Nat) : Relative fun x0 y0 x y => arcSetup params offset x0 y0 >>= fun s => pure (arcValue s x y) := by
  intro a b x0 y0 x y
  simp only [arcSetup, bind_assoc, pure_bind]
  repeat (refine bind_congr fun _ => ?_)
  simp only [arcValue, sub_moved]
  rfl

theorem relative_ringAz (d : ImgDesc XR) (params : List XR) (offset : Nat) : Relative fun x0 y0 x y => ringAzSetup d params offset x0 y0 >>= fun f => pure (ringAzValue f x y) := by
  intro a b x0 y0 x y
  simp only [ringAzSetup, bind_assoc, pure_bind]
  repeat (refine bind_congr fun _ => ?_)
  simp only [ringAzValue, ringAzBuild, sub_moved]
  rfl

theorem relative_genExp2 (doSub : Bool) (params : List XR) (offset : Nat) : Relative (genExp2Value doSub params offset) := by
  intro a b x0 y0 x y
  simp only [genExp2Value]
  repeat (refine bind_congr fun _ => ?_)
  exact planeValue_same rfl rfl rfl

theorem relative_gaussFloor (doSub : Bool) (floor : XR) (params : List XR) (offset : Nat) : Relative (gaussFloorValue doSub floor params offset) := by
  intro a b x0 y0 x y
  simp only [gaussFloorValue]
  repeat (refine bind_congr fun _ => ?_)
  exact planeValue_same rfl rfl rfl

theorem relative_n4608 (doSub : Bool) (params : List XR) (offset : Nat) : Relative (n4608Value doSub params offset) := by
  intro a b x0 y0 x y
  simp only [n4608Value, PFun.setup, bind_assoc]
  repeat (refine bind_congr fun _ => ?_)
  rename_i p
  rcases planeBuild_moved .brokenExp doSub defaultDesc (fin x0) (fin y0) (fin (x0 - a)) (fin (y0 - b)) p with ⟨f, h1, h2, h3, h4⟩ | ⟨e, h1, h2⟩
  · rw [h1, h4, ok_bind, ok_bind]
    simp only [ringAzSetup, bind_assoc, pure_bind]
    repeat (refine bind_congr fun _ => ?_)
    rw [planeValue_moved f a b x0 y0 x y h2 h3]
    refine bind_congr fun _ => ?_
    simp only [ringAzValue, ringAzBuild, sub_moved]
    rfl
  · rw [h1, h2]
    rfl

theorem relative_sky (d : ImgDesc XR) (params : List XR) (offset : Nat) : Relative (flatSkyValue d params offset) ∧ Relative (tiltedSkyValue d params offset) ∧
    Relative (checkerboardValue params offset) := by
  refine ⟨fun a b x0 y0 x y => rfl, fun a b x0 y0 x y => ?_, fun a b x0 y0 x y => ?_⟩
  · simp only [tiltedSkyValue, sub_moved]
  · simp only [checkerboardValue, sub_moved]

theorem relative_point (interp : XR → XR → Res XR) (n : Nat) (s itot : XR) : Relative (pointSource interp n s itot) := by
  intro a b x0 y0 x y
  simp only [pointSource, sub_moved]

theorem relative_pointRot (interp : Option (XR → XR → Res XR)) (n : Nat) (d : ImgDesc XR) (pa itot : XR) : Relative (pointSourceRot interp n d pa itot) := by
  intro a b x0 y0 x y
  simp only [pointSourceRot, sub_moved]

/-- Every function that is modelled depends only on the distances of a point from its centre, with whatever parameters and also where it fails. -/
theorem C120_functions (params : List XR) (offset : Nat) (doSub : Bool) (d : ImgDesc XR) :
    (∀ F : EFun, Relative (F.value doSub d params offset)) ∧ (∀ F : PFun XR, Relative (F.value doSub d params offset)) ∧ (∀ F : SpiralFun, Relative (F.value params offset)) ∧
      (∀ (integ : (XR → XR) → XR → XR → XR) (F : LFun), Relative (F.value integ d params offset)) ∧
      (Relative fun x0 y0 x y => arcSetup params offset x0 y0 >>= fun s => pure (arcValue s x y)) ∧
      (Relative fun x0 y0 x y => ringAzSetup d params offset x0 y0 >>= fun f => pure (ringAzValue f x y)) ∧
      Relative (genExp2Value doSub params offset) ∧ (∀ floor, Relative (gaussFloorValue doSub floor params offset)) ∧ Relative (n4608Value doSub params offset) ∧
      Relative (flatSkyValue d params offset) ∧ Relative (tiltedSkyValue d params offset) ∧ Relative (checkerboardValue params offset) ∧
      (∀ interp n s itot, Relative (pointSource interp n s itot)) ∧ (∀ interp n pa itot, Relative (pointSourceRot interp n d pa itot)) :=
  ⟨fun F => relative_efun F doSub d params offset, fun F => relative_pfun F doSub d params offset, fun F => relative_spiral F params offset,
    fun integ F => relative_los integ F d params offset, relative_arc params offset, relative_ringAz d params offset, relative_genExp2 doSub params offset,
    fun floor => relative_gaussFloor doSub floor params offset, relative_n4608 doSub params offset, (relative_sky d params offset).1, (relative_sky d params offset).2.1,
    (relative_sky d params offset).2.2, relative_point, fun interp n => relative_pointRot interp n d⟩

/-- A function of the column alone is not of this kind. -/
example : ¬ Relative fun _ _ x _ => .ok x := by
  intro h
  have := h 1 0 0 0 0 0
  simp at this

/-- A tilted sky seen from the section that begins at column 100 and row 50: the pixel 3 columns from the centre keeps its value. -/
example (d : ImgDesc XR) : tiltedSkyValue d [fin 1, fin 2, fin 0] 0 (fin (110 - 100)) (fin (60 - 50)) (fin (113 - 100)) (fin (60 - 50)) =
    tiltedSkyValue d [fin 1, fin 2, fin 0] 0 (fin 110) (fin 60) (fin 113) (fin 60) :=
  (C120_functions [fin 1, fin 2, fin 0] 0 true d).2.2.2.2.2.2.2.2.2.2.1 100 50 110 60 113 60

end Imfit
