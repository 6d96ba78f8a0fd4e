import Verif.Model.Base

/-!
# `std::list` with node identity

A `std::list<T>` as a sequence of nodes; every node has an identity that is never reused, so an iterator to a
freed node is recognisable. Position `length` is `end()`. Also `at` of utils/Utils.h.
-/

namespace Verif

/-- A list object of IntLinkedList / ObjectLinkedList: nodes (identity, value), the next fresh identity and the
field `modCount` (unbounded here, `uint64_t` in the code). -/
structure LState (α : Type) where
  nodes : List (Nat × α)
  fresh : Nat
  modCount : Nat
  deriving DecidableEq, Repr

namespace LState

variable {α : Type}

/-- The values in order. Scaffolding of the model, no code of /repo. -/
def vals (s : LState α) : List α := s.nodes.map (·.2)

/-- The node identities in order. Scaffolding of the model, no code of /repo. -/
def ids (s : LState α) : List Nat := s.nodes.map (·.1)

/-- `list.size()`. (C++ library; called at IntLinkedList.cpp 272, 580.) -/
def size (s : LState α) : Nat := s.nodes.length

/-- `list.push_back(v)`. (C++ library; called at IntLinkedList.cpp 60, 81, 126, 184, 228, 724.) -/
def push (s : LState α) (v : α) : LState α :=
  { s with nodes := s.nodes ++ [(s.fresh, v)], fresh := s.fresh + 1 }

/-- `list.insert(end, first, last)` for a range of values outside the list. (C++ library; called at IntLinkedList.cpp
208, 705, 757, 796.) -/
def pushAll (s : LState α) : List α → LState α
  | [] => s
  | v :: vs => pushAll (s.push v) vs

/-- `list.erase(it)` for the node at position `p`. (C++ library; called at IntLinkedList.cpp 279, 386, 540.) -/
def erase (s : LState α) (p : Nat) : LState α := { s with nodes := s.nodes.eraseIdx p }

/-- `list.erase(first, last)`. (C++ library; called at IntLinkedList.cpp 621, 625.) -/
def eraseRange (s : LState α) (p q : Nat) : LState α := { s with nodes := s.nodes.take p ++ s.nodes.drop q }

/-- `list.insert(it, v)`: a new node before position `p`. (C++ library; called at IntLinkedList.cpp 364, 648, 674.) -/
def insert (s : LState α) (p : Nat) (v : α) : LState α :=
  { s with nodes := s.nodes.take p ++ (s.fresh, v) :: s.nodes.drop p, fresh := s.fresh + 1 }

/-- `*it = v` for the node at position `p`. (C++ library; called at IntLinkedList.cpp 597, 612, 633.) -/
def assign (s : LState α) (p : Nat) (v : α) : LState α :=
  { s with nodes := s.nodes.modify p fun n => (n.1, v) }

/-- `list.clear()`. (C++ library; called at IntLinkedList.cpp 791, 852.) -/
def clear (s : LState α) : LState α := { s with nodes := [] }

/-- `std::reverse(begin, end)`: the values are swapped, the nodes stay. (C++ library; called at IntLinkedList.cpp
844.) -/
def reverse (s : LState α) : LState α := { s with nodes := s.ids.zip s.vals.reverse }

/-- `modCount++`. (IntLinkedList.cpp 185, 209, 231, 280, 365, 387, 417, 443.) -/
def bump (s : LState α) : LState α := { s with modCount := s.modCount + 1 }

end LState

/-- `++it` repeated, from position `p` in a list of `n` nodes; incrementing `end()` is undefined. (C++ library;
called at Utils.h 26-32.) -/
def walkFwd (n : Nat) : Nat → Nat → Except UB Nat
  | 0, p => .ok p
  | k + 1, p => if p < n then walkFwd n k (p + 1) else .error .badIterator

/-- `--it` repeated; decrementing `begin()` is undefined. (C++ library; called at Utils.h 19-25.) -/
def walkBack : Nat → Nat → Except UB Nat
  | 0, p => .ok p
  | k + 1, p => if 0 < p then walkBack k (p - 1) else .error .badIterator

/-- utils/Utils.h 11-33, `at`, for a list of `n` nodes. -/
def listAt (n index : Nat) : Except UB Nat :=
  if index ≥ n then .ok n
  else if index > n / 2 then
    match walkBack 1 n with
    | .error u => .error u
    | .ok last => walkBack (n - index - 1) last
  else walkFwd n index 0

end Verif
