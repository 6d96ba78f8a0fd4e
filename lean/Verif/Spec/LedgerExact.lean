import Verif.Spec.Ledger
import Verif.Spec.ExactLinked

/-!
# Specification: how many references a call of an IntLinkedList loses

In terms of the elements, the operand and the result of the call. Nothing in this file mentions the model's functions.
-/

namespace Verif.Ledger

/-- How many ints a result consists of. -/
def Val.ints : Val → Nat
  | .int _ => 1
  | .list _ xs => xs.length
  | _ => 0

/-- How many pairs of elements a comparison looks at: up to the first two that differ. -/
def looked : List Int → List Int → Nat
  | x :: xs, y :: ys => if x = y then looked xs ys + 1 else 1
  | _, _ => 0

/-- The elements of an operand that is a list of the class; `l` are those of the list itself. -/
def Operand.own (l : List Int) : Operand → Option (List Int)
  | .same v => some v
  | .self => some l
  | _ => none

/-- The references that a call on the list `l` takes and never releases; `result` is none if it raises. One for each int of
the result of `l[i]`, `l[a:b]` and `to_list`; one for each element for `+`, unless the operand is of the class; with an operand
of the class, one for each element that a comparison looks at (none if the lengths differ), and one for each element of the
operand for a slice assignment. All other calls lose none. -/
def lost (cfg : Cfg) (l : List Int) (c : Call) (result : Option Val) : Nat :=
  match c with
  | .plain (.get _) | .plain .toList =>
    match result with
    | some v => v.ints
    | none => 0
  | .add src =>
    match src.own l with
    | some _ => 0
    | none => l.length
  | .cmp _ src =>
    match src.own l with
    | some v => if v.length = l.length then looked l (v.map (LinkedList.seen cfg)) else 0
    | none => 0
  | .setSlice _ src =>
    match src.own l, result with
    | some v, some _ => v.length
    | _, _ => 0
  | _ => 0

/-- The operand, if it is a list of the class, has elements of the class. -/
def Operand.Stored (l : List Int) (s : Operand) : Prop := ∀ v, s.own l = some v → ∀ x ∈ v, FitsS 32 x

/-- The same for a call. -/
def Call.Stored (l : List Int) : Call → Prop
  | .setSlice _ s | .cmp _ s => s.Stored l
  | _ => True

end Verif.Ledger
