import Verif.Model.LinkedIter
import Verif.Model.IntLinkedList
import Verif.Spec.Session

/-! # An IntLinkedList and one of its iterators used in turns -/

namespace Verif.LinkedList

/-- Answers of the `next()` calls of a session; the session ends at undefined behaviour of a call (without
answer) or of a `next()`. Scaffolding of the model, no code of /repo. -/
def session (cfg : Cfg) (strict : Bool) (s : S) (it : LIter) : List Ev → List (Next Int)
  | [] => []
  | .call op :: es =>
    match (step cfg strict s op).state? with
    | some s' => session cfg strict s' it es
    | none => []
  | .next :: es =>
    match it.next s with
    | (_, .ub u) => [.ub u]
    | (it', a) => a :: session cfg strict s it' es

end Verif.LinkedList
