import Verif.VocabObj

/-!
# Vocabulary of the reference ledger of the int lists

The operands of the int lists once more, with the identities of the objects involved. Pure data, shared by specification and
model.
-/

namespace Verif.Ledger

/-- An item handed to an int list: an object (`none`: one that comes into being when the item is fetched, as from
`range`), and
what the integer code can tell about it. (Vocabulary: what Python code passes and sees; no code of /repo.) -/
structure Item where
  obj : Option Obj
  arg : Arg
  deriving DecidableEq, Repr

/-- What kind of iterable the items come from. (Vocabulary: what Python code passes and sees; no code of /repo.) -/
inductive Shape
  | list | tuple | seq | seqNoLen
  | iter (fail : Option Exc)
  deriving DecidableEq, Repr

/-- Operands. `obj` is the operand itself; `it` is the object its `__iter__` returns, `none` for a new object.
(Vocabulary: what Python code passes and sees; no code of /repo.) -/
inductive Operand
  | same (v : List Int)
  | self
  | items (sh : Shape) (obj : Obj) (it : Option Obj) (xs : List Item)
  | notIterable
  deriving DecidableEq, Repr

/-- Calls with an operand. (Vocabulary: what Python code passes and sees; no code of /repo.) -/
inductive Call
  | extend (s : Operand)
  | iadd (s : Operand)
  | add (s : Operand)
  | setSlice (sl : SliceArg) (s : Operand)
  | cmp (op : CmpOp) (s : Operand)
  | plain (op : Op)     -- any other call: its arguments are borrowed from the caller
  deriving DecidableEq, Repr

/-- Results of a call, with the identities of the objects that the caller receives. (Vocabulary: what Python code
passes and sees; no code of /repo.) -/
inductive Val
  | none
  | self                                             -- another reference to the list
  | bool (b : Bool)
  | int (o : Obj)
  | list (c : Obj) (xs : List Obj)                   -- a new Python list and its elements
  | new (c : Obj)                                    -- a new list of the class, or a string
  deriving DecidableEq, Repr

/-- The same operand without identities. (Vocabulary: what Python code passes and sees; no code of /repo.) -/
def Operand.plain : Operand → Src
  | .same v => .same v
  | .self => .self
  | .items .list _ _ xs => .list (xs.map (·.arg))
  | .items .tuple _ _ xs => .tuple (xs.map (·.arg))
  | .items .seq _ _ xs => .seq (xs.map (·.arg))
  | .items .seqNoLen _ _ xs => .seqNoLen (xs.map (·.arg))
  | .items (.iter f) _ _ xs => .iter (xs.map (·.arg)) f
  | .notIterable => .notIterable

/-- The same call without identities. (Vocabulary: what Python code passes and sees; no code of /repo.) -/
def Call.toOp : Call → Op
  | .extend s => .extend s.plain
  | .iadd s => .iadd s.plain
  | .add s => .add s.plain
  | .setSlice sl s => .set (.slice sl) (.inr s.plain)
  | .cmp op s => .cmp op s.plain
  | .plain op => op

end Verif.Ledger
