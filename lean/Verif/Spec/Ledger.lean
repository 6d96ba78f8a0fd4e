import Verif.VocabLedger

/-!
# Specification: references of the int lists

What a call may do to the counts, in terms of the counts before and after and of what the caller receives.
-/

namespace Verif.Ledger

/-- The references a result consists of: the caller owns one to the object itself, a new Python list one to each element. -/
def Val.refs (self : Obj) : Val → List Obj
  | .none | .bool _ => []
  | .self => [self]
  | .int o => [o]
  | .list c xs => c :: xs
  | .new c => [c]

/-- The count of every object is what it was, plus one for every reference in `given`; `imm` are the objects without a
count. An object that did not exist had the count 0: unless it is in `given`, it is gone again. -/
def Balanced (imm : Obj → Bool) (rc rc' : Obj → Nat) (given : List Obj) : Prop :=
  ∀ o, imm o = false → rc' o = rc o + given.count o

/-- Calls without an operand whose items are looked at. -/
def Bare : Op → Prop
  | .extend _ | .iadd _ | .add _ | .cmp _ _ | .set (.slice _) (.inr _) => False
  | _ => True

/-- The objects of an operand exist: their identities are below `n`. Lists and tuples consist of existing objects. -/
def Operand.Known (n : Obj) : Operand → Prop
  | .items sh o it xs =>
    o < n ∧ (∀ i, it = some i → i < n) ∧ (∀ x ∈ xs, ∀ o, x.obj = some o → o < n) ∧
      (sh = .list ∨ sh = .tuple → ∀ x ∈ xs, x.obj.isSome)
  | _ => True

/-- The same for a call. -/
def Call.Known (n : Obj) : Call → Prop
  | .extend s | .iadd s | .add s | .setSlice _ s | .cmp _ s => s.Known n
  | .plain op => Bare op

/-- Calls of linked lists that make ints for the caller one by one, or fetch them from a list of the class. -/
def Leaky : Call → Prop
  | .plain (.get _) | .plain .toList => True
  | .add (.items _ _ _ _) | .add .notIterable => True
  | .setSlice _ (.same _) | .setSlice _ .self | .cmp _ (.same _) | .cmp _ .self => True
  | _ => False

end Verif.Ledger
