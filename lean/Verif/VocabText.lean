import Verif.VocabElems

/-!
# Vocabulary for `repr`

Pure data, shared by the specification and the model.
-/

namespace Verif.Text

open Verif.Elems (Shape)

/-- Characters of a string. (Vocabulary: what Python code passes and sees; no code of /repo.) -/
abbrev Str := List Char

/-- What `repr` may raise: the limit of nested calls is reached, or an exception of an element's `__repr__`.
(Vocabulary: what Python code passes and sees; no code of /repo.) -/
inductive Fault
  | recursion
  | user (n : Nat)
  deriving DecidableEq

/-- A string or an exception. (Vocabulary: what Python code passes and sees; no code of /repo.) -/
abbrev Answer := Except Fault Str

/-- Contents of the lists, as Python code sees them. (Vocabulary: what Python code passes and sees; no code of
/repo.) -/
abbrev View := Nat → List Nat

end Verif.Text
