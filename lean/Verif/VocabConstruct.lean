import Verif.VocabForeign

/-!
# Calls of a constructor

Everything a Python program can write between the parentheses of `IntArrayList(…)`: positional and keyword arguments that
are objects of any kind. The code of these objects works on a state `W` (whatever of the program they can reach, the
arguments included). Pure data, shared by the specification and the model.
-/

namespace Verif.Construct

open Foreign

/-- The content of a Python list, which code may change at any time: the block of memory in which it keeps its
elements,
and the elements (numbers of objects). (Vocabulary of constructor calls: what IntArrayList.cpp 42-111 and the others
are given.) -/
structure PyList (W : Type) where
  block : W → Nat
  items : W → List Nat

/-- What an argument is to a constructor.
* `int v`: an `int` (or an object of a subclass, such as `bool`),
* `same xs`: a list of the class under construction,
* `list p`: a Python list,
* `sub p it`: an object of a class derived from `list`, with its own `__iter__`,
* `tuple xs`: a tuple,
* `other it`: any other object; `it` is what asking it for an iterator does (TypeError if it is not iterable).
(Vocabulary of constructor calls: what IntArrayList.cpp 42-111 and the others are given.) -/
inductive Given (W : Type)
  | int (v : Int)
  | same (xs : List Int)
  | list (p : PyList W)
  | sub (p : PyList W) (it : W → W × Except Exc (Feed W))
  | tuple (xs : List Nat)
  | other (it : W → W × Except Exc (Feed W))

/-- An argument: what it is, and what its `__index__` does (raising TypeError if it has none). (Vocabulary of
constructor calls: what IntArrayList.cpp 42-111 and the others are given.) -/
structure Thing (W : Type) where
  what : Given W
  index : Live W

/-- A call: positional arguments, and keyword arguments with their names. (Vocabulary of constructor calls: what
IntArrayList.cpp 42-111 and the others are given.) -/
structure Call (W : Type) where
  args : List (Thing W)
  kwargs : List (String × Thing W)

end Verif.Construct
