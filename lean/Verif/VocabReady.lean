import Verif.VocabMethods
import Verif.VocabWith

/-!
# Uses of a class and its lists in a program

What a program does, as far as it concerns the question whether attributes are found.
-/

namespace Verif.Ready

/-- The classes of the library that a program names: the list classes and those of pyfastutil.unsafe. (Vocabulary: what a Python
program does and sees; no code of /repo.) -/
inductive Cls
  | list (c : Verif.Methods.Cls)
  | tool (t : Verif.With.Tool)
  deriving DecidableEq, Repr

/-- How a method call is written: `l.m(a, b)`, `l.m(a, k=b)`, `l.m(*a)` or `l.m(**k)`. (Vocabulary: what a Python
program does and sees; no code of /repo.) -/
inductive Form
  | plain | keywords | starred
  deriving DecidableEq, Repr

/-- Uses of an object without a name: the constructor call, `len`, subscripts, iteration, operators, comparisons, `in`,
`repr` and
`str`, `hash`, truth value, `list(l)`; what such a use does, TypeErrors included, is another matter. (Vocabulary: what a Python program does and sees; no code of /repo.) -/
inductive SlotUse
  | construct | len | subscript | iterate | operator | compare | contains | text | hash | truth | convert
  deriving DecidableEq, Repr

/-- One step of a program. (Vocabulary: what a Python program does and sees; no code of /repo.) -/
inductive Event
  | slot (u : SlotUse)
  /-- `l.name(…)` -/
  | call (name : String) (f : Form)
  /-- `l.name` that is not called at once, `getattr(l, name)` -/
  | fetch (name : String)
  /-- `hasattr(l, name)`, `getattr(l, name, default)` -/
  | test (name : String)
  /-- `l.name = x` for a name that is not a data descriptor -/
  | assign (name : String)
  /-- a special method that a built-in function looks for in the class: `reversed(l)`, `format(l)`, `dir(l)`, `with u:`, … -/
  | special (name : String)
  /-- `C.name` -/
  | ofClass (name : String)
  /-- `class D(C): …` -/
  | subclass
  /-- `isinstance(l, A)` with an abstract class of `collections.abc` or `typing` -/
  | abstract
  /-- `isinstance(l, D)` with another class -/
  | concrete
  deriving DecidableEq, Repr

/-- What can be seen. (Vocabulary: what a Python program does and sees; no code of /repo.) -/
inductive Seen
  /-- the step is done -/
  | done
  /-- the attribute is found -/
  | found
  /-- no such attribute, without an exception -/
  | absent
  | attributeError
  | typeError
  deriving DecidableEq, Repr

/-- Names that a list, or a class, has as attributes, inherited ones included. (Vocabulary: what a Python program
does and sees; no code of /repo.) -/
structure Attrs where
  ofList : Cls → String → Bool
  ofClass : Cls → String → Bool

/-- A program: steps, each with the class it concerns. (Vocabulary: what a Python program does and sees; no code of
/repo.) -/
abbrev History := List (Cls × Event)

end Verif.Ready
