/-! # Operations on `std::list` containers -/

namespace Verif.Nodes

variable {α : Type}

/-- Operations on one list: what the methods of the linked lists do to their container. (Vocabulary of the list
operations; no code of /repo.) -/
inductive LOp (α : Type)
  | push (v : α)
  | insertAt (i : Nat) (v : α)
  | eraseAt (i : Nat)
  | setAt (i : Nat) (v : α)
  | get (i : Nat)
  | popBack
  | eraseRange (i j : Nat)
  | clear
  | reverse
  | sort (le : α → α → Bool)
  | toList

/-- Events: new lists, copies of lists (`copy()`, construction from the same class, assignment, `extend`), operations
on one
list, destruction. List objects are named by numbers. (Vocabulary of the list operations; no code of /repo.) -/
inductive Ev (α : Type)
  | create (o : Nat)
  | copy (o c : Nat)
  | assign (o p : Nat)
  | extend (o p : Nat)
  | on (o : Nat) (op : LOp α)
  | drop (o : Nat)

/-- Answers. (Vocabulary of the list operations; no code of /repo.) -/
inductive Ans (α : Type)
  | none
  | val (v : α)
  | vals (vs : List α)

end Verif.Nodes
