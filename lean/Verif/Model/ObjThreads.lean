import Verif.Model.ObjArrayList
import Verif.Model.Threads

/-!
# `reverse` of ObjectArrayList, with other threads beside it

`simdReverse(data, size)` on the pointers runs between `Py_BEGIN_ALLOW_THREADS` and `Py_END_ALLOW_THREADS`
(objects/ObjectArrayList.cpp 857-864). One list; its storage is a block of pointers, of which the first `size` are the list. The
loop is that of `Model/Threads.lean` for eight bytes. Other calls keep the lock: one step, as in `Model/ObjArrayList.lean`. Simplified:
the storage moves exactly when the list outgrows it; accesses happen one after the other (no weaker memory).
-/

namespace Verif.ObjThreads

open Verif.Threads

/-- The storage of the list (`blk` says which block it is), its size, the reference counts, and the calls of
`reverse` in
progress, by thread. Scaffolding of the model, no code of /repo. -/
structure State where
  blk : Nat
  cells : List Obj
  size : Nat
  heap : Heap
  tasks : Nat → Option (Rev Obj)

/-- What a call sees of the list. Scaffolding of the model, no code of /repo. -/
def State.list (s : State) : OState := ⟨s.cells.take s.size, s.heap⟩

/-- The list after a call. (`std::vector` in ObjectArrayList.h.) -/
def State.put (s : State) (o : OState) : State :=
  if o.vec.length ≤ s.cells.length then { s with cells := o.vec ++ s.cells.drop o.vec.length, size := o.vec.length, heap := o.heap }
  else { s with blk := s.blk + 1, cells := o.vec, size := o.vec.length, heap := o.heap }

/-- What the scheduler picks: a call that keeps the lock, a thread giving up a reference, the beginning of `reverse`
by thread
`t`, the next access of thread `t`. Scaffolding of the model, no code of /repo. -/
inductive Act
  | call (op : OOp)
  | release (o : Obj)
  | reverse (t : Nat)
  | tick (t : Nat)

/-- What a thread learns: nothing yet, an answer, an exception, both. Scaffolding of the model, no code of /repo. -/
inductive Obs
  | quiet
  | ret (v : OVal)
  | exc (e : Exc)
  | pending (v : OVal) (e : Exc)

/-- One step of the schedule. (ObjectArrayList.cpp 857-864; the other calls in Model/ObjArrayList.) -/
def step (cfg : Cfg) (H : OHost) (fuel : Nat) (s : State) : Act → Except UB (State × Obs)
  | .call op =>
    match ObjArray.step cfg H fuel s.list op with
    | .ok o v => .ok (s.put o, .ret v)
    | .exc o e => .ok (s.put o, .exc e)
    | .pending o v e => .ok (s.put o, .pending v e)
    | .ub u => .error u
  | .release o =>
    match s.heap.decref o with
    | .error u => .error u
    | .ok h => .ok ({ s with heap := h }, .quiet)
  | .reverse t =>
    .ok ({ s with tasks := Store.upd s.tasks t (some ⟨some s.blk, s.size, rounds s.size (widths cfg .i64) 0, .idle⟩) }, .quiet)
  | .tick t =>
    match s.tasks t with
    | none => .ok (s, .quiet)
    | some r =>
      if r.todo = [] then .ok ({ s with tasks := Store.upd s.tasks t none }, .ret .none)
      else if r.blk ≠ some s.blk then .error .useAfterFree
      else
        match r.access s.cells with
        | none => .error .outOfBounds
        | some (r', cs) => .ok ({ s with cells := cs, tasks := Store.upd s.tasks t (some r') }, .quiet)

/-- A schedule, and what was learnt at each step. Scaffolding of the model, no code of /repo. -/
def run (cfg : Cfg) (H : OHost) (fuel : Nat) : State → List Act → Except UB (State × List Obs)
  | s, [] => .ok (s, [])
  | s, a :: as =>
    match step cfg H fuel s a with
    | .error u => .error u
    | .ok (s, x) =>
      match run cfg H fuel s as with
      | .error u => .error u
      | .ok (s, xs) => .ok (s, x :: xs)

/-- A list with the elements `l`, and nothing in progress. Scaffolding of the model, no code of /repo. -/
def start (l : List Obj) (h : Heap) : State := ⟨0, l, l.length, h, fun _ => none⟩

end Verif.ObjThreads
