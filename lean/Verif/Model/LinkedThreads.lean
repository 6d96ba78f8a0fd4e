import Verif.Model.Nodes

/-!
# `reverse` of the linked lists, with other threads beside it

`std::reverse(list.begin(), list.end())` runs between `Py_BEGIN_ALLOW_THREADS` and `Py_END_ALLOW_THREADS` (IntLinkedList.cpp
843-845, ObjectLinkedList.cpp 764-766), so that other threads execute calls, on the same list too, between any two of its memory
accesses. The nodes are those of `Model/Nodes.lean`; the loop is libstdc++'s (`stl_algo.h`, `__reverse` for bidirectional
iterators). Accesses happen one after the other (no weaker memory). The other calls keep the lock: one step.
-/

namespace Verif.LinkedThreads

open Verif.Nodes

variable {α : Type}

/-- The access that comes next, with what has been loaded: `begin()`; `--last`; the two loads and two stores of
`iter_swap(first, last)`; `++first`; none. (libstdc++; through IntLinkedList.cpp 844, ObjectLinkedList.cpp 765.) -/
inductive Phase (α : Type)
  | begin
  | back
  | load
  | loadLast (x : α)
  | store (x y : α)
  | storeLast (x : α)
  | ahead
  | over

/-- `std::reverse` in progress on the list with header `h`. (IntLinkedList.cpp 844, ObjectLinkedList.cpp 765.) -/
structure Turn (α : Type) where
  h : Nat
  first : Nat
  last : Nat
  phase : Phase α

/-- One access. (libstdc++ `stl_algo.h`, `__reverse`; through IntLinkedList.cpp 844, ObjectLinkedList.cpp 765.) -/
def Turn.access (r : Turn α) (w : World α) : Except UB (Turn α × World α) :=
  match r.phase with
  | .begin =>
    if w.live r.h then
      .ok (⟨r.h, w.next r.h, r.h, if w.next r.h = r.h then .over else .back⟩, w)
    else .error .useAfterFree
  | .back =>
    if w.live r.last then
      .ok (⟨r.h, r.first, w.prev r.last, if r.first = w.prev r.last then .over else .load⟩, w)
    else .error .useAfterFree
  | .load =>
    match deref w r.first with
    | .error u => .error u
    | .ok x => .ok ({ r with phase := .loadLast x }, w)
  | .loadLast x =>
    match deref w r.last with
    | .error u => .error u
    | .ok y => .ok ({ r with phase := .store x y }, w)
  | .store x y =>
    match Nodes.store w r.first y with
    | .error u => .error u
    | .ok w => .ok ({ r with phase := .storeLast x }, w)
  | .storeLast x =>
    match Nodes.store w r.last x with
    | .error u => .error u
    | .ok w => .ok ({ r with phase := .ahead }, w)
  | .ahead =>
    if w.live r.first then
      .ok (⟨r.h, w.next r.first, r.last, if w.next r.first = r.last then .over else .back⟩, w)
    else .error .useAfterFree
  | .over => .ok (r, w)

/-- Memory, and the calls of `reverse` in progress, by thread. Scaffolding of the model, no code of /repo. -/
structure State (α : Type) where
  w : World α
  tasks : Nat → Option (Nat × Turn α)

/-- What the scheduler picks: a call that keeps the lock, the beginning of `reverse` by thread `t`, or the next
access of
thread `t`. Scaffolding of the model, no code of /repo. -/
inductive Act (α : Type)
  | call (e : Ev α)
  | reverse (t o : Nat)
  | tick (t : Nat)

/-- What a thread learns: nothing yet, or an answer. Scaffolding of the model, no code of /repo. -/
inductive Obs (α : Type)
  | quiet
  | ret (a : Ans α)

/-- One step of the schedule. (`Nodes.step` raises no exception.) (IntLinkedList.cpp 840-847, ObjectLinkedList.cpp
761-768; the other calls in Model/Nodes.) -/
def step (s : State α) : Act α → Except UB (State α × Obs α)
  | .call e =>
    match Nodes.step s.w e with
    | .ok w a => .ok (⟨w, s.tasks⟩, .ret a)
    | .exc w _ => .ok (⟨w, s.tasks⟩, .quiet)
    | .pending w a _ => .ok (⟨w, s.tasks⟩, .ret a)
    | .ub u => .error u
  | .reverse t o =>
    match s.w.objs o with
    | none => .ok (s, .quiet)
    | some h => .ok (⟨s.w, put s.tasks t (some (o, ⟨h, h, h, .begin⟩))⟩, .quiet)
  | .tick t =>
    match s.tasks t with
    | none => .ok (s, .quiet)
    | some (o, r) =>
      match r.phase with
      | .over => .ok (⟨s.w, put s.tasks t none⟩, .ret .none)
      | _ =>
        match r.access s.w with
        | .error u => .error u
        | .ok (r', w) => .ok (⟨w, put s.tasks t (some (o, r'))⟩, .quiet)

/-- A schedule, and what was learnt at each step. Scaffolding of the model, no code of /repo. -/
def run : State α → List (Act α) → Except UB (State α × List (Obs α))
  | s, [] => .ok (s, [])
  | s, a :: as =>
    match step s a with
    | .error u => .error u
    | .ok (s, x) =>
      match run s as with
      | .error u => .error u
      | .ok (s, xs) => .ok (s, x :: xs)

/-- No list and nothing in progress. Scaffolding of the model, no code of /repo. -/
def start : State α := ⟨World.start, fun _ => none⟩

end Verif.LinkedThreads
