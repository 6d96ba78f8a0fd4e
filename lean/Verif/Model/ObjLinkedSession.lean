import Verif.Model.LinkedIter
import Verif.Model.ObjLinkedList
import Verif.Spec.ObjSession

/-! # An ObjectLinkedList and one of its iterators used in turns -/

namespace Verif.ObjLinked

/-- Answers of the `next()` calls of a session (objects/ObjectLinkedListIter.cpp 55-96: as the iterator of IntLinkedList,
with a `Py_INCREF` of the element); the session ends at undefined behaviour of a call (without answer) or of a
`next()`. -/
def session (H : OHost) (strict : Bool) (s : OLState) (it : LIter) : List OSEv → List (Next Obj)
  | [] => []
  | .call op :: es =>
    match (step H strict s op).state? with
    | some s' => session H strict s' it es
    | none => []
  | .next :: es =>
    match it.next s.list with
    | (_, .ub u) => [.ub u]
    | (it', .stop) => .stop :: session H strict s it' es
    | (it', .yield o) =>
      match s.heap.incref o with
      | .error u => [.ub u]
      | .ok h => .yield o :: session H strict ⟨s.list, h⟩ it' es

end Verif.ObjLinked
