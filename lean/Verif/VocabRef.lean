import Verif.VocabObj

/-!
# Vocabulary of the object calls of the Unsafe class

Pure data, shared by specification and model. An object is identified by its address, as in CPython.
-/

namespace Verif

/-- What a client does with objects: the calls of `Unsafe`, binding another name to an object it has, and giving up a
name. (Vocabulary of Unsafe.cpp 245-251, 298-310.) -/
inductive REvent
  | getAddress (o : Obj)
  | asObject (a : Arg)
  | incref (o : Obj)
  | decref (o : Obj)
  | refcnt (o : Obj)
  | bind (o : Obj)
  | drop (o : Obj)
  deriving DecidableEq, Repr

/-- Results. (Vocabulary of Unsafe.cpp 245-251, 298-310.) -/
inductive RVal
  | none
  | int (n : Nat)
  | obj (o : Obj)
  deriving DecidableEq, Repr

end Verif
