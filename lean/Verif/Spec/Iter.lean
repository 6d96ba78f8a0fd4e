import Verif.Model.ArrayIter

/-!
# Specification: Python's list iterators

The answers CPython's `list_iterator` / `list_reverseiterator` give when the `k`-th call finds the contents
`ls[k]`: position counted by the successful calls so far, exhausted for good after the first stop.
-/

namespace Verif.Spec

/-- `list_iterator` at position `i`. -/
def iterRun (i : Nat) : List (List α) → List (Next α)
  | [] => []
  | l :: ls =>
    match l[i]? with
    | some x => .yield x :: iterRun (i + 1) ls
    | none => .stop :: ls.map fun _ => .stop

/-- `list_reverseiterator` at position `i - 1` (`i = 0`: exhausted). -/
def revRun : Nat → List (List α) → List (Next α)
  | _, [] => []
  | 0, _ :: ls => .stop :: ls.map fun _ => .stop
  | i + 1, l :: ls =>
    match l[i]? with
    | some x => .yield x :: revRun i ls
    | none => .stop :: ls.map fun _ => .stop

/-- Number of successful calls. -/
def yields (as : List (Next α)) : Nat := as.countP fun | .yield _ => true | _ => false

end Verif.Spec
