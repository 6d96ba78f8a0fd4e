import Verif.Vocab

/-!
# Vocabulary of the hash map
-/

namespace Verif

/-- Operations on a map. (Vocabulary of the operations in UnorderedDense.h.) -/
inductive MapOp (κ α : Type)
  | emplace (k : κ) (v : α)
  | assign (k : κ) (v : α)
  | tryEmplace (k : κ) (v : α)
  | at (k : κ)
  | contains (k : κ)
  | erase (k : κ)
  | size
  | clear
  | copy
  deriving DecidableEq, Repr

/-- Their answers. (Vocabulary of the operations in UnorderedDense.h.) -/
inductive MapAns (α : Type)
  | none
  | bool (b : Bool)
  | num (n : Nat)
  | val (v : α)
  deriving DecidableEq, Repr

end Verif
