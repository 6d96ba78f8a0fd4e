import Verif.VocabObj

/-!
# Calls by name

`l.name(*args, **kwargs)`: what a Python program can write. Pure data, shared by the specification and the model.
-/

namespace Verif.Methods

/-- Names of the methods of a list, special methods included. -/
inductive Name
  | append | extend | insert | pop | remove | index | count | sort | reverse | clear | copy
  | toList | resize | fromRange
  | len | add | mul | rmul | iadd | imul | getitem | setitem | delitem | contains
  | iter | reversed | repr | str | hash | lt | le | eq | ne | gt | ge
  deriving DecidableEq, Repr

/-- The classes. (Vocabulary of method calls in Python; no code of /repo.) -/
inductive Cls
  | intArray | bigIntArray | intLinked | objArray | objLinked
  deriving DecidableEq, Repr

/-- An argument object, as far as a call can tell: what it is as an int, whether it is a slice, what it is as an
operand or
iterable, whether it is `None`, its truth value, and its identity. (Vocabulary of method calls in Python; no code of
/repo.) -/
structure Thing (S : Type) where
  arg : Arg
  slice : Option SliceArg
  src : S
  isNone : Bool
  truth : Bool
  obj : Obj
  deriving DecidableEq, Repr

/-- The arguments of a call. (Vocabulary of method calls in Python; no code of /repo.) -/
structure Args (S : Type) where
  pos : List (Thing S)
  kw : List (String × Thing S)
  deriving DecidableEq, Repr

/-- What a call asks of the list once its arguments have found their places. (Vocabulary of method calls in Python;
no code of /repo.) -/
inductive Request (S : Type)
  | append (x : Thing S)
  | extend (x : Thing S)
  | insert (i x : Thing S)
  | pop (i : Option (Thing S))
  | remove (x : Thing S)
  | index (x : Thing S) (start stop : Option (Thing S))
  | count (x : Thing S)
  | sort (key : Option (Thing S)) (descending : Bool)
  | reverse
  | clear
  | copy
  | toList
  | resize (n : Thing S)
  | range (a : Thing S) (b c : Option (Thing S))
  | len
  | add (x : Thing S)
  | mul (n : Thing S)
  | iadd (x : Thing S)
  | imul (n : Thing S)
  | get (k : Thing S)
  | set (k x : Thing S)
  | del (k : Thing S)
  | contains (x : Thing S)
  | iter
  | reversed
  | repr
  | cmp (op : CmpOp) (x : Thing S)
  deriving DecidableEq, Repr

/-- The object as a subscript. (Vocabulary of method calls in Python; no code of /repo.) -/
def Thing.key {S : Type} (t : Thing S) : Key :=
  match t.slice with
  | some s => .slice s
  | none => .idx t.arg

/-- The request as a call on an int list, where there is one. (Vocabulary of method calls in Python; no code of
/repo.) -/
def Request.op : Request Src → Option Op
  | .append x => some (.append x.arg)
  | .extend x => some (.extend x.src)
  | .insert i x => some (.insert i.arg x.arg)
  | .pop i => some (.pop (i.map Thing.arg))
  | .remove x => some (.remove x.arg)
  | .index x i j => some (.index x.arg (i.map Thing.arg) (j.map Thing.arg))
  | .count x => some (.count x.arg)
  | .reverse => some .reverse
  | .clear => some .clear
  | .copy => some .copy
  | .toList => some .toList
  | .resize n => some (.resize n.arg)
  | .len => some .len
  | .add x => some (.add x.src)
  | .iadd x => some (.iadd x.src)
  | .get k => some (.get k.key)
  | .set k x => some (.set k.key (match k.slice with | some _ => .inr x.src | none => .inl x.arg))
  | .del k => some (.del k.key)
  | .contains x => some (.contains x.arg)
  | .repr => some .repr
  | .cmp op x => some (.cmp op x.src)
  | .mul _ | .imul _ | .sort _ _ | .range _ _ _ | .iter | .reversed => none

/-- The request as a call on an object list, where there is one. (Vocabulary of method calls in Python; no code of
/repo.) -/
def Request.oop : Request OSrc → Option OOp
  | .append x => some (.append x.obj)
  | .extend x => some (.extend x.src)
  | .insert i x => some (.insert i.arg x.obj)
  | .pop i => some (.pop (i.map Thing.arg))
  | .remove x => some (.remove x.obj)
  | .index x i j => some (.index x.obj (i.map Thing.arg) (j.map Thing.arg))
  | .count x => some (.count x.obj)
  | .reverse => some .reverse
  | .clear => some .clear
  | .copy => some .copy
  | .toList => some .toList
  | .resize n => some (.resize n.arg)
  | .len => some .len
  | .add x => some (.add x.src)
  | .iadd x => some (.iadd x.src)
  | .get k => some (.get k.key)
  | .set k x => some (match k.slice with | some s => .setSlice s x.src | none => .setItem k.arg x.obj)
  | .del k => some (.del k.key)
  | .contains x => some (.contains x.obj)
  | .cmp op x => some (.cmp op x.src)
  | .mul _ | .imul _ | .sort _ _ | .range _ _ _ | .iter | .reversed | .repr => none

end Verif.Methods
