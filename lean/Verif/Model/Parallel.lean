import Verif.Model.Image
import Mathlib.Logic.Function.Basic

/-!
# Multi-threaded image passes

The image passes are OpenMP loops, `#pragma omp parallel private(...)` with `#pragma omp for schedule(static, ompChunkSize)`
(`core/model_object.cpp:1142-1174, 1194-1217, 1288-1302`, `core/oversampled_region.cpp:301-329, 381-414`).

Model: each thread owns the list of array cells of its loop iterations. For one cell it runs private steps (one per image function) on private
variables, and then writes the shared array (`=`), or loads the cell and later stores the sum (`+=`, two separate steps). A schedule is an
arbitrary list of thread numbers; each entry lets that thread do one step. The function objects are only read. The memory model is
sequential consistency, which is what a race-free OpenMP program gets.
-/

namespace Imfit

variable {α σ : Type}

/-- What a pass does with a cell: private steps from `s0`, then `res` is stored (`accum = false`) or added (`accum = true`). -/
structure Job (α σ : Type) where
  prog : Nat → List (σ → Res σ)
  s0 : σ
  res : σ → α
  accum : Bool

/-- A thread's unfinished cell; `loaded` is the old value already read by `+=`. -/
structure Work (α σ : Type) where
  cell : Nat
  rest : List (σ → Res σ)
  s : σ
  loaded : Option α

/-- A thread: cells still to do and the cell in progress. -/
structure Thr (α σ : Type) where
  todo : List Nat
  work : Option (Work α σ)

/-- Shared array and threads. -/
structure PState (α σ : Type) where
  mem : List α
  thr : Nat → Thr α σ

/-- The end of a cell: `modelVector[k] = newValSum;` or the two halves of `modelVector[k] += newValSum;`. -/
def finishCell [FP α] (J : Job α σ) (mem : List α) (todo : List Nat) (w : Work α σ) : Res (List α × Thr α σ) :=
  if J.accum then
    match w.loaded with
    | none => do
      let v ← rd mem w.cell
      pure (mem, ⟨todo, some { w with loaded := some v }⟩)
    | some v => do
      let mem1 ← wr mem w.cell (v + J.res w.s)
      pure (mem1, ⟨todo, none⟩)
  else do
    let mem1 ← wr mem w.cell (J.res w.s)
    pure (mem1, ⟨todo, none⟩)

/-- One step of one thread. -/
def stepThr [FP α] (J : Job α σ) (mem : List α) (t : Thr α σ) : Res (List α × Thr α σ) :=
  match t.work with
  | none =>
    match t.todo with
    | [] => .ok (mem, t)
    | c :: rest => .ok (mem, ⟨rest, some ⟨c, J.prog c, J.s0, none⟩⟩)
  | some w =>
    match w.rest with
    | f :: rest => do
      let s ← f w.s
      pure (mem, ⟨t.todo, some { w with rest := rest, s := s }⟩)
    | [] => finishCell J mem t.todo w

/-- One scheduled step. -/
def stepP [FP α] (J : Job α σ) (st : PState α σ) (i : Nat) : Res (PState α σ) := do
  let p ← stepThr J st.mem (st.thr i)
  pure ⟨p.1, Function.update st.thr i p.2⟩

/-- A run under a schedule. -/
def runP [FP α] (J : Job α σ) : List Nat → PState α σ → Res (PState α σ)
  | [], st => .ok st
  | i :: rest, st => do
    let st1 ← stepP J st i
    runP J rest st1

/-- `schedule(static, chunk)` with `T` threads: iteration `k` belongs to thread `(k / chunk) mod T`. -/
def chunkOf (T chunk : Nat) (t : Nat) (n : Nat) : List Nat := (List.range n).filter fun k => (k / chunk) % T = t

/-- Cells of iteration `k` of a pixel loop: `i = k / cols`, `j = k % cols`, cell `i*cols + j`. `core/model_object.cpp:1154-1173`. -/
def pixelCells (cols k : Nat) : List Nat := [k / cols * cols + k % cols]

/-- Cells of iteration `i` of a row loop (`GetSingleFunctionImage`, `core/model_object.cpp:1291-1301`). -/
def rowCells (cols i : Nat) : List Nat := (List.range cols).map fun j => i * cols + j

/-- Start of a parallel pass over `n` iterations. -/
def startP (T chunk n : Nat) (cells : Nat → List Nat) (mem : List α) : PState α σ :=
  ⟨mem, fun t => ⟨(chunkOf T chunk t n).flatMap cells, none⟩⟩

/-- All threads have reached the barrier at the end of the loop. -/
def PState.done (st : PState α σ) : Prop := ∀ t, (st.thr t).todo = [] ∧ (st.thr t).work = none

/-- The pass over the functions with `IsPointSource() = want`. -/
def kahanJob [FP α] (want accum : Bool) (X Y : Nat → α) (fns : List (FnObj α)) : Job α (KS α) :=
  { prog := fun c => fns.map fun o s => pixelStep want (X c) (Y c) s o, s0 := ⟨0, 0⟩, res := KS.sum, accum := accum }

/-- The pass of `GetSingleFunctionImage`: one value per pixel. -/
def singleJob [FP α] (X Y : Nat → α) (o : FnObj α) : Job α (KS α) :=
  { prog := fun c => [fun s => do let v ← fnValue o (X c) (Y c); pure { s with sum := v }], s0 := ⟨0, 0⟩, res := KS.sum, accum := false }

end Imfit
