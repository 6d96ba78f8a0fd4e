import Verif.Spec.Iter
import Verif.Spec.ObjList

/-!
# Specification: an object list and one of its iterators, used in turns

`OSizeKept`, `OTracked` are the domains of the iterator theorems (C28) on ObjectLinkedList.
-/

namespace Verif

/-- One event of a session. -/
inductive OSEv
  | call (op : OOp)
  | next
  deriving DecidableEq, Repr

/-- The API calls of a session. -/
def OSEv.calls (es : List OSEv) : List OOp := es.filterMap fun | .call op => some op | .next => none

namespace Spec

/-- The contents a Python list has at each `next()` of the session. -/
def ocontentsAt (H : OHost) (l : List Obj) : List OSEv → List (List Obj)
  | [] => []
  | .call op :: es => ocontentsAt H (ostep H l op).1 es
  | .next :: es => l :: ocontentsAt H l es

/-- The answers of a Python list iterator in the session. -/
def osession (H : OHost) (l : List Obj) (es : List OSEv) : List (Next Obj) := iterRun 0 (ocontentsAt H l es)

end Spec

/-- Calls that leave the number of elements alone: all reading calls, `l[i] = o`, `reverse()`. -/
def OSizeKept : OOp → Prop
  | .index .. | .count _ | .contains _ | .get _ | .add _ | .mul _ | .rmul _ | .cmp .. | .copy | .toList | .len
  | .reverse | .resize _ | .setItem _ _ => True
  | _ => False

/-- Calls that leave the number of elements alone, and the growing and shrinking calls `append`, `insert`, `remove`,
`pop()`, `extend`. -/
def OTracked : OOp → Prop
  | .append _ | .insert _ _ | .remove _ | .pop none | .extend _ => True
  | op => OSizeKept op

instance (op : OOp) : Decidable (OSizeKept op) := by unfold OSizeKept; split <;> infer_instance
instance (op : OOp) : Decidable (OTracked op) := by unfold OTracked; split <;> infer_instance

end Verif
