import Verif.Model.Base
import Verif.VocabNodes

/-!
# `std::list` as linked nodes in memory

The containers of IntLinkedList and ObjectLinkedList down to the pointers: several list objects in one memory, each with a
header node inside the object and a ring of allocated nodes. `std::list` is library code; modelled after libstdc++
(`stl_list.h`, `list.tcc`, `list.cc`), as the methods in /repo call it (ints/IntLinkedList.cpp and
objects/ObjectLinkedList.cpp; line numbers below are of the former). Reading or writing a node that is not allocated is
undefined behaviour. Addresses are not reused here.
-/

namespace Verif.Nodes

variable {α : Type}

/-- Memory and list objects. A header has no value; `size` is the size field of the list whose header is at that
address;
`objs` gives the header of a list object. Scaffolding of the model, no code of /repo. -/
structure World (α : Type) where
  next : Nat → Nat
  prev : Nat → Nat
  val : Nat → Option α
  live : Nat → Bool
  size : Nat → Nat
  fresh : Nat
  objs : Nat → Option Nat

/-- No lists. Scaffolding of the model, no code of /repo. -/
def World.start : World α := ⟨id, id, fun _ => none, fun _ => false, fun _ => 0, 0, fun _ => none⟩

/-- Change a function at one point. Scaffolding of the model, no code of /repo. -/
def put {β : Type} (f : Nat → β) (a : Nat) (b : β) : Nat → β := fun x => if x = a then b else f x

/-- `_List_node_base::_M_hook`: link the node `a` in before `pos`. (libstdc++; through IntLinkedList.cpp 184, 208,
364, 757.) -/
def hook (w : World α) (a pos : Nat) : Except UB (World α) :=
  if w.live a && w.live pos && w.live (w.prev pos) then
    .ok { w with
      next := put (put w.next a pos) (w.prev pos) a
      prev := put (put w.prev a (w.prev pos)) pos a }
  else .error .useAfterFree

/-- `_List_node_base::_M_unhook`. (libstdc++; through IntLinkedList.cpp 279, 386, 540.) -/
def unhook (w : World α) (b : Nat) : Except UB (World α) :=
  if w.live b && w.live (w.prev b) && w.live (w.next b) then
    .ok { w with
      next := put w.next (w.prev b) (w.next b)
      prev := put w.prev (w.next b) (w.prev b) }
  else .error .useAfterFree

/-- `list.insert(pos, v)` (364, 648), `push_back` (184; `pos` is the header): a new node. -/
def insert (w : World α) (h pos : Nat) (v : α) : Except UB (World α) :=
  match hook { w with live := put w.live w.fresh true, val := put w.val w.fresh (some v), fresh := w.fresh + 1 }
      w.fresh pos with
  | .error u => .error u
  | .ok w => .ok { w with size := put w.size h (w.size h + 1) }

/-- `list.erase(b)` (279, 386, 540), `pop_back` (273): unlink and free the node; `end()` may not be erased. -/
def erase (w : World α) (h b : Nat) : Except UB (World α) :=
  if b = h then .error .badIterator
  else
    match unhook w b with
    | .error u => .error u
    | .ok w => .ok { w with live := put w.live b false, size := put w.size h (w.size h - 1) }

/-- `++it`, `k` times. (Utils.h 11-33.) -/
def forward (w : World α) : Nat → Nat → Except UB Nat
  | 0, a => .ok a
  | k + 1, a => if w.live a then forward w k (w.next a) else .error .useAfterFree

/-- `--it`, `k` times. (Utils.h 11-33.) -/
def backward (w : World α) : Nat → Nat → Except UB Nat
  | 0, a => .ok a
  | k + 1, a => if w.live a then backward w k (w.prev a) else .error .useAfterFree

/-- utils/Utils.h 11-33, `at`: from `end()` backwards or from `begin()` (one step from the header) forwards. -/
def at' (w : World α) (h i : Nat) : Except UB Nat :=
  if i ≥ w.size h then .ok h
  else if i > w.size h / 2 then backward w (w.size h - i) h
  else forward w (i + 1) h

/-- `*it`; the header has no value. (IntLinkedList.cpp 278, 314.) -/
def deref (w : World α) (a : Nat) : Except UB α :=
  if w.live a then
    match w.val a with
    | some v => .ok v
    | none => .error .badIterator
  else .error .useAfterFree

/-- `*it = v` (547). -/
def store (w : World α) (a : Nat) (v : α) : Except UB (World α) :=
  if w.live a then
    match w.val a with
    | some _ => .ok { w with val := put w.val a (some v) }
    | none => .error .badIterator
  else .error .useAfterFree

/-- The nodes from the iterator `a` to `stop`, with their values (147-152 and the other loops over a list). The number of
steps is bounded by the number of nodes ever allocated; beyond that it would go round in a circle. -/
def chain (w : World α) (stop : Nat) : Nat → Nat → Except UB (List (Nat × α))
  | 0, _ => .error .badIterator
  | k + 1, a =>
    if a = stop then .ok []
    else
      match deref w a with
      | .error u => .error u
      | .ok v =>
        match chain w stop k (w.next a) with
        | .error u => .error u
        | .ok vs => .ok ((a, v) :: vs)

/-- The nodes of the list with header `h`. Scaffolding of the model, no code of /repo. -/
def nodes (w : World α) (h : Nat) : Except UB (List (Nat × α)) :=
  if w.live h then chain w h (w.fresh + 1) (w.next h) else .error .useAfterFree

/-- The elements of the list with header `h`. Scaffolding of the model, no code of /repo. -/
def elems (w : World α) (h : Nat) : Except UB (List α) :=
  match nodes w h with
  | .error u => .error u
  | .ok xs => .ok (xs.map (·.2))

/-- `list.insert(pos, first, last)` (208, 705): copies of the values are made first (a temporary list), then linked in. -/
def insertAll (w : World α) (h pos : Nat) : List α → Except UB (World α)
  | [] => .ok w
  | v :: vs =>
    match insert w h pos v with
    | .error u => .error u
    | .ok w => insertAll w h pos vs

/-- `list.erase(a, stop)` (625), `k` bounds the steps. -/
def eraseTo (w : World α) (h stop : Nat) : Nat → Nat → Except UB (World α)
  | 0, _ => .error .badIterator
  | k + 1, a =>
    if a = stop then .ok w
    else
      match erase w h a with
      | .error u => .error u
      | .ok w' => eraseTo w' h stop k (w.next a)

/-- `list.clear()` (852): erase from `begin()` to `end()`. (`_M_clear` frees the nodes and resets the header once at the end;
the memory afterwards is the same.) -/
def clear (w : World α) (h : Nat) : Except UB (World α) :=
  if w.live h then eraseTo w h h (w.fresh + 1) (w.next h) else .error .useAfterFree

/-- `list.operator=(const list&)` (41, 165), `list.tcc`: overwrite values while both lists have nodes, then erase the rest or
append copies. `vs` are the values of the other list, `a` the iterator into this one. -/
def assign (w : World α) (h : Nat) : Nat → List α → Except UB (World α)
  | a, [] => eraseTo w h h (w.fresh + 1) a
  | a, v :: vs =>
    if a = h then insertAll w h h (v :: vs)
    else
      match store w a v with
      | .error u => .error u
      | .ok w' => assign w' h (w.next a) vs

/-- `std::reverse(first, last)` for bidirectional iterators (844): swap the values from both ends; `k` bounds the steps. -/
def reverse (w : World α) : Nat → Nat → Nat → Except UB (World α)
  | 0, _, _ => .error .badIterator
  | k + 1, first, last =>
    if first = last then .ok w
    else if !w.live last then .error .useAfterFree
    else if first = w.prev last then .ok w
    else
      match deref w first, deref w (w.prev last) with
      | .error u, _ => .error u
      | .ok _, .error u => .error u
      | .ok x, .ok y =>
        reverse { w with val := put (put w.val first (some y)) (w.prev last) (some x) } k (w.next first) (w.prev last)

/-- Link the nodes `as` in at the end, one after the other. (libstdc++; through IntLinkedList.cpp 208, 757, 796.) -/
def hookAll (w : World α) (h : Nat) : List Nat → Except UB (World α)
  | [] => .ok w
  | a :: as =>
    match hook w a h with
    | .error u => .error u
    | .ok w => hookAll w h as

/-- `list.sort(…)` (413-415): the same nodes in the order of their values, relinked. The merging is library code; here the
order is that of a stable sort, and the nodes are linked one by one into the emptied ring. -/
def sort (w : World α) (h : Nat) (le : α → α → Bool) : Except UB (World α) :=
  match nodes w h with
  | .error u => .error u
  | .ok xs =>
    hookAll { w with next := put w.next h h, prev := put w.prev h h } h
      ((xs.mergeSort fun x y => le x.2 y.2).map (·.1))

/-- A new empty list object: the header points to itself (24; `Py_CreateObj` of a linked list runs `tp_init`). -/
def create (w : World α) (o : Nat) : World α :=
  { w with
    next := put w.next w.fresh w.fresh
    prev := put w.prev w.fresh w.fresh
    val := put w.val w.fresh none
    live := put w.live w.fresh true
    size := put w.size w.fresh 0
    fresh := w.fresh + 1
    objs := put w.objs o (some w.fresh) }

/-- `copy.list = self.list`; nothing happens if they are the same object. (IntLinkedList.cpp 158-173,
ObjectLinkedList.cpp 113-131: `copy`.) -/
def assignFrom (w : World α) (h h' : Nat) : Except UB (World α) :=
  if h = h' then .ok w
  else
    match elems w h' with
    | .error u => .error u
    | .ok vs => if w.live h then assign w h (w.next h) vs else .error .useAfterFree

/-- Outcome of an operation that changes one list. Scaffolding of the model, no code of /repo. -/
def done (r : Except UB (World α)) : Out (World α) (Ans α) :=
  match r with
  | .error u => .ub u
  | .ok w => .ok w .none

/-- One operation. Operations on objects that do not exist, and new objects under a name in use, are none. (The list
operations of IntLinkedList.cpp and ObjectLinkedList.cpp, by call.) -/
def step (w : World α) (e : Ev α) : Out (World α) (Ans α) :=
  match e with
  | .create o =>
    match w.objs o with
    | some _ => .ok w .none
    | none => .ok (create w o) .none
  | .copy o c =>       -- 157-172: a new list, then assignment
    match w.objs o, w.objs c with
    | some h, none => done (assignFrom (create w c) w.fresh h)
    | _, _ => .ok w .none
  | .assign o p =>
    match w.objs o, w.objs p with
    | some h, some h' => done (assignFrom w h h')
    | _, _ => .ok w .none
  | .extend o p =>
    match w.objs o, w.objs p with
    | some h, some h' =>
      match elems w h' with
      | .error u => .ub u
      | .ok vs => done (insertAll w h h vs)
    | _, _ => .ok w .none
  | .on o op =>
    match w.objs o with
    | none => .ok w .none
    | some h =>
      match op with
      | .push v => done (insert w h h v)
      | .insertAt i v =>
        match at' w h i with
        | .error u => .ub u
        | .ok a => done (insert w h a v)
      | .eraseAt i =>
        match at' w h i with
        | .error u => .ub u
        | .ok a => done (erase w h a)
      | .setAt i v =>
        match at' w h i with
        | .error u => .ub u
        | .ok a => done (store w a v)
      | .get i =>
        match at' w h i with
        | .error u => .ub u
        | .ok a =>
          match deref w a with
          | .error u => .ub u
          | .ok v => .ok w (.val v)
      | .popBack => if w.live h then done (erase w h (w.prev h)) else .ub .useAfterFree
      | .eraseRange i j =>
        match at' w h i, at' w h j with
        | .error u, _ => .ub u
        | .ok _, .error u => .ub u
        | .ok a, .ok b => done (eraseTo w h b (w.fresh + 1) a)
      | .clear => done (clear w h)
      | .reverse => if w.live h then done (reverse w (w.fresh + 1) (w.next h) h) else .ub .useAfterFree
      | .sort le => done (sort w h le)
      | .toList =>
        match elems w h with
        | .error u => .ub u
        | .ok vs => .ok w (.vals vs)
  | .drop o =>         -- 96: the nodes are freed, then the object with its header
    match w.objs o with
    | none => .ok w .none
    | some h =>
      match clear w h with
      | .error u => .ub u
      | .ok w => .ok { w with live := put w.live h false, objs := put w.objs o none } .none

/-- What a loop over the list object `o` would read (141-155); `none` if there is no such object. -/
def contents (w : World α) (o : Nat) : Option (Except UB (List α)) := (w.objs o).map (elems w)

/-- The outcomes of a history, up to the first undefined behaviour. Scaffolding of the model, no code of /repo. -/
def run : World α → List (Ev α) → List (Out (World α) (Ans α))
  | _, [] => []
  | w, e :: es =>
    match step w e with
    | .ok w' a => .ok w' a :: run w' es
    | o => [o]

/-- The memory after a history without undefined behaviour. Scaffolding of the model, no code of /repo. -/
def runTo : World α → List (Ev α) → Option (World α)
  | w, [] => some w
  | w, e :: es =>
    match step w e with
    | .ok w' _ => runTo w' es
    | _ => none

end Verif.Nodes
