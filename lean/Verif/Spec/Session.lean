import Verif.Spec.Iter
import Verif.Spec.PyList

/-!
# Specification: one iterator and its list, used in turns

A session is a sequence of API calls on the list and `next()` calls on one iterator over it.
-/

namespace Verif

/-- One event of a session. -/
inductive Ev
  | call (op : Op)
  | next
  deriving DecidableEq, Repr

/-- The API calls of a session. -/
def Ev.calls (es : List Ev) : List Op := es.filterMap fun | .call op => some op | .next => none

namespace Spec

/-- The contents a Python list of 32-bit ints has at each `next()` of the session. -/
def contentsAt (l : List Int) : List Ev → List (List Int)
  | [] => []
  | .call op :: es => contentsAt (step 32 l op).1 es
  | .next :: es => l :: contentsAt l es

/-- The answers of a Python list iterator in the session. -/
def session (l : List Int) (es : List Ev) : List (Next Int) := iterRun 0 (contentsAt l es)

end Spec
end Verif
