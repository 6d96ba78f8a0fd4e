import Verif.Vocab

/-!
# Vocabulary for the object lists

Objects are identities; the only thing the library looks at is whether an object is an `int`, and what
Python's comparison answers. Pure data, shared by specifications and model.
-/

namespace Verif

/-- Identity of a Python object. (Vocabulary: what Python code passes and sees; no code of /repo.) -/
abbrev Obj := Nat

/-- The Python side of the objects: `None`, which objects are ints, and what the rich comparison of two
objects answers (or raises). Comparison is taken to have no effect on lists or reference counts. (Vocabulary: what
Python code passes and sees; no code of /repo.) -/
structure OHost where
  none : Obj
  isInt : Obj → Bool
  rich : CmpOp → Obj → Obj → Except Exc Bool

/-- Right-hand operands and iterable arguments. (Vocabulary: what Python code passes and sees; no code of /repo.) -/
inductive OSrc
  | same (v : List Obj)                         -- another list of the same class
  | self                                        -- the list itself
  | list (xs : List Obj)                        -- Python list
  | tuple (xs : List Obj)                       -- Python tuple
  | seq (xs : List Obj)                         -- any other sized sequence
  | seqNoLen (xs : List Obj)                    -- has `__getitem__`/`__iter__` but no `__len__`
  | iter (xs : List Obj) (fail : Option Exc)    -- other iterable; after `xs` it stops or raises
  | notIterable
  deriving DecidableEq, Repr

/-- API calls on one object list (sorting has its own model). (Vocabulary: what Python code passes and sees; no code
of /repo.) -/
inductive OOp
  | append (o : Obj)
  | extend (s : OSrc)
  | insert (i : Arg) (o : Obj)
  | pop (i : Option Arg)
  | remove (o : Obj)
  | index (o : Obj) (start stop : Option Arg)
  | count (o : Obj)
  | contains (o : Obj)
  | get (k : Key)
  | setItem (i : Arg) (o : Obj)
  | setSlice (s : SliceArg) (src : OSrc)
  | del (k : Key)
  | iadd (s : OSrc)
  | add (s : OSrc)
  | mul (n : Int)
  | rmul (a : Arg)
  | imul (n : Int)
  | cmp (op : CmpOp) (s : OSrc)
  | reverse
  | resize (a : Arg)
  | clear
  | copy
  | toList
  | len
  deriving DecidableEq, Repr

/-- Results. (Vocabulary: what Python code passes and sees; no code of /repo.) -/
inductive OVal
  | none
  | self                      -- the list object itself
  | obj (o : Obj)             -- a reference to an object
  | int (n : Int)
  | bool (b : Bool)
  | list (xs : List Obj)      -- a new Python list
  | newList (xs : List Obj)   -- a new list of the same class
  deriving DecidableEq, Repr

/-- What a client does with one list: call a method, or give up one of its own references to an object. (Vocabulary:
what Python code passes and sees; no code of /repo.) -/
inductive OEvent
  | call (op : OOp)
  | drop (o : Obj)
  deriving DecidableEq, Repr

end Verif
