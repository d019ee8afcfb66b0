import Verif.Model.LineSight
import Mathlib.Logic.Function.Basic

/-!
# Threads sharing one line-of-sight function object

`GetValue` of the three-dimensional functions fills an array on its own stack, stores the address of the array in the member `F.params` of the function object, and
passes a copy of `F` to `Integrate`, which evaluates the luminosity density many times, each time reading the array through the copied address
(`function_objects/func_expdisk3d.cpp:183-217`, `func_expdisk3d.h:46`, `integrator.cpp:30-52`, `integrator.h`; the same in the other six files). The function objects
are shared by all threads of the image loops (`core/model_object.cpp:1142-1174`), and nothing protects `F.params`.

Model: thread `t` has one stack frame, which holds the array while `GetValue` is running. The shared member holds the number of the thread whose array it points to.
A pixel is done in separate steps: fill the array; store the address; copy the address; one step per evaluation of the integrand, reading the array pointed to;
return and store the pixel. Reading through an address whose frame is gone is a fault. The memory model is sequential consistency. Simplified: the number of
evaluations is fixed, and the integrator is an arbitrary machine fed with the values read.
-/

namespace Imfit

/-- What a pixel needs: the array for a pixel and the integrator as a machine that reads an array at each evaluation. -/
structure LosJob (π σ α : Type) where
  pars : Nat → π
  evals : Nat
  ev : Nat → π → σ → σ
  s0 : σ
  res : σ → α

variable {π σ α : Type}

/-- Where a thread is inside `GetValue` for the pixel `c`. -/
inductive LosPc (σ : Type) where
  | filled (c : Nat)
  | stored (c : Nat)
  | copied (c : Nat) (ptr : Nat) (k : Nat) (s : σ)

/-- A thread: pixels still to do and the position in the current one. -/
structure LosThr (σ : Type) where
  todo : List Nat
  pc : Option (LosPc σ)

/-- Image, the member `F.params`, the arrays on the stacks, the threads. -/
structure LosState (π σ α : Type) where
  mem : List α
  ptr : Option Nat
  frame : Nat → Option π
  thr : Nat → LosThr σ

/-- One step of the thread `t`. -/
def losStep (J : LosJob π σ α) (st : LosState π σ α) (t : Nat) : Res (LosState π σ α) :=
  match (st.thr t).pc with
  | none =>
    match (st.thr t).todo with
    | [] => .ok st
    | c :: rest => .ok { st with frame := Function.update st.frame t (some (J.pars c)), thr := Function.update st.thr t ⟨rest, some (.filled c)⟩ }
  | some (.filled c) => .ok { st with ptr := some t, thr := Function.update st.thr t ⟨(st.thr t).todo, some (.stored c)⟩ }
  | some (.stored c) =>
    match st.ptr with
    | none => .error .uninit
    | some u => .ok { st with thr := Function.update st.thr t ⟨(st.thr t).todo, some (.copied c u 0 J.s0)⟩ }
  | some (.copied c u k s) =>
    if k < J.evals then
      match st.frame u with
      | none => .error .null
      | some p => .ok { st with thr := Function.update st.thr t ⟨(st.thr t).todo, some (.copied c u (k + 1) (J.ev k p s))⟩ }
    else do
      let mem ← wr st.mem c (J.res s)
      .ok { st with mem := mem, frame := Function.update st.frame t none, thr := Function.update st.thr t ⟨(st.thr t).todo, none⟩ }

/-- A run under a schedule. -/
def losRun (J : LosJob π σ α) : List Nat → LosState π σ α → Res (LosState π σ α)
  | [], st => .ok st
  | t :: rest, st => do
    let st1 ← losStep J st t
    losRun J rest st1

/-- Start of the loop over `n` pixels with `T` threads and `schedule(static, chunk)`. -/
def losStart (T chunk n : Nat) (mem : List α) : LosState π σ α :=
  ⟨mem, none, fun _ => none, fun t => ⟨(List.range n).filter fun k => (k / chunk) % T = t, none⟩⟩

/-- The pass for one line-of-sight function object; the array of a pixel is determined by its coordinates, and the integral is taken in one evaluation. -/
def losJob [FP α] (integ : (α → α) → α → α → α) (f : LosFn α) (X Y : Nat → α) : LosJob (α × α) α α :=
  { pars := fun c => (X c, Y c), evals := 1, ev := fun _ p _ => losValue integ f p.1 p.2, s0 := 0, res := id }

end Imfit
