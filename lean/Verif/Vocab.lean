/-!
# Vocabulary

The syntax of API calls and Python objects as far as the library distinguishes them: exceptions,
argument objects, slices, right-hand operands, operations. Pure data, no behaviour; shared by the
specifications (`Verif/Spec`) and the model (`Verif/Model`).
-/

namespace Verif

/-- Python exceptions the modelled code can raise (`user n` = raised by user code, e.g. an iterator,
a key function or a comparison). (Vocabulary: what Python code passes and sees; /repo has no such definition.) -/
inductive Exc
  | indexError | valueError | typeError | overflowError | runtimeError | memoryError
  | notImplementedError | systemError | osError | user (n : Nat)
  deriving DecidableEq, Repr

/-- An argument object as far as the integer code can tell: a Python `int` (or subclass), an object with
`__index__`, or anything else. (Vocabulary: what Python code passes and sees; /repo has no such definition.) -/
inductive Arg
  | int (v : Int)
  | index (v : Int)
  | other
  deriving DecidableEq, Repr

/-- A slice object; `none` = the field is `None`. (Vocabulary: what Python code passes and sees; /repo has no such
definition.) -/
structure SliceArg where
  start : Option Arg
  stop : Option Arg
  step : Option Arg
  deriving DecidableEq, Repr

/-- Right-hand operands and iterable arguments. (Vocabulary: what Python code passes and sees; /repo has no such
definition.) -/
inductive Src
  | same (v : List Int)                         -- another list of the same class
  | self                                        -- the list itself
  | list (xs : List Arg)                        -- Python list
  | tuple (xs : List Arg)                       -- Python tuple
  | seq (xs : List Arg)                         -- any other sized sequence
  | seqNoLen (xs : List Arg)                    -- has `__getitem__`/`__iter__` but no `__len__`
  | iter (xs : List Arg) (fail : Option Exc)    -- other iterable; after `xs` it stops or raises
  | notIterable
  deriving DecidableEq, Repr

/-- Index argument of `l[k]`. (Vocabulary: what Python code passes and sees; /repo has no such definition.) -/
inductive Key
  | idx (a : Arg)          -- `Arg.other` = neither an index nor a slice
  | slice (s : SliceArg)
  deriving DecidableEq, Repr

/-- `Py_EQ` … `Py_GE`. (Vocabulary: what Python code passes and sees; /repo has no such definition.) -/
inductive CmpOp
  | eq | ne | lt | le | gt | ge
  deriving DecidableEq, Repr

/-- API calls on one int list (sorting has its own model). (Vocabulary: what Python code passes and sees; /repo has
no such definition.) -/
inductive Op
  | append (a : Arg)
  | extend (s : Src)
  | insert (i a : Arg)
  | pop (i : Option Arg)
  | remove (a : Arg)
  | index (a : Arg) (start stop : Option Arg)
  | count (a : Arg)
  | contains (a : Arg)
  | get (k : Key)
  | set (k : Key) (v : Arg ⊕ Src)
  | del (k : Key)
  | iadd (s : Src)
  | add (s : Src)
  | mul (n : Int)
  | rmul (a : Arg)
  | imul (n : Int)
  | cmp (op : CmpOp) (s : Src)
  | reverse
  | resize (a : Arg)
  | clear
  | copy
  | toList
  | len
  | repr
  deriving DecidableEq, Repr

end Verif
