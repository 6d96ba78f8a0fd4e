import Verif.Vocab

/-!
# Elements with methods of their own

Elements of an object list are instances of user classes: `__del__` runs when the last reference is dropped, `__eq__` when the
list is compared. Pure data, shared by the specification and the model.
-/

namespace Verif.Elems

/-- The two object lists. (Vocabulary: the Python objects in an object list; no code of /repo.) -/
inductive Shape
  | array
  | linked
  deriving DecidableEq

/-- What `__eq__` or `__ne__` answers. (Vocabulary: the Python objects in an object list; no code of /repo.) -/
inductive Reply
  | val (b : Bool)
  | err (e : Exc)
  | notImplemented

/-- `==` or `!=`. (Vocabulary: the Python objects in an object list; no code of /repo.) -/
inductive Rel
  | eq
  | ne
  deriving DecidableEq

/-- A method that is busy elsewhere: it may take and drop references to any object, but does not touch the list. It
maps the
numbers of references held outside the list. (Vocabulary: the Python objects in an object list; no code of /repo.) -/
abbrev Effect := (Nat → Nat) → Nat → Nat

end Verif.Elems
