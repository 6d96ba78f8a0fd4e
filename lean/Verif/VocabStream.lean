import Verif.Vocab

/-!
# Standard input and output

Pure data, shared by the specification and the model: a Python string is the list of its code points, a stream the list of its
bytes.
-/

namespace Verif.Stream

/-- A Python string: code points, surrogates included. (Vocabulary of Unsafe.cpp 312-354.) -/
abbrev Str := List Nat

/-- An argument where a string is expected. (Vocabulary of Unsafe.cpp 312-354.) -/
inductive StrArg
  | str (s : Str)
  | other

/-- Calls. `sends` is how many of the waiting bytes the C library writes out on its own during the call. (Vocabulary
of Unsafe.cpp 312-354.) -/
inductive Put
  | fputs (s : StrArg) (sends : Nat)
  | fflush

end Verif.Stream
