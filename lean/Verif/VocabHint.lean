import Verif.Vocab

/-!
# Vocabulary: iterables and their length hints

What `extend` and `+=` see of an iterable of a user class whose iterator is one of C (such as `iter(self.data)`): what its `__len__` and
`__length_hint__` do, the items its iterator will yield. No code of /repo.
-/

namespace Verif.Hint

/-- An exception; StopIteration plays a part of its own. (Vocabulary: what Python code passes and sees; /repo has no such
definition.) -/
inductive Raised
  | stopIteration
  | exc (e : Exc)
  deriving DecidableEq, Repr

/-- What a special method did. (Vocabulary: what Python code passes and sees; /repo has no such definition.) -/
inductive Answer
  | absent                -- the class does not have it
  | raised (x : Raised)
  | notImplemented        -- returned `NotImplemented`
  | notInt                -- returned something else that is no int
  | int (v : Int)
  deriving DecidableEq, Repr

/-- An iterable: what its `__len__` and `__length_hint__` do, which may change the list of the call (`σ`); the items the iterator of it has
yet to yield; the exception after them, if any. (Vocabulary: what Python code passes and sees; /repo has no such
definition.) -/
structure Iterable (σ β : Type) where
  len : σ → σ × Answer
  hint : σ → σ × Answer
  items : List β
  fin : Option Exc

/-- How a call went: the list afterwards, the items the iterator still has, the result. (Vocabulary: what Python code
passes and sees; /repo has no such definition.) -/
structure Went (σ β ρ : Type) where
  list : σ
  left : List β
  result : Except Raised ρ

/-- `__length_hint__` as `operator.length_hint` asks for it: a TypeError counts as no answer. (CPython's
`PyObject_LengthHint`, second half.) -/
def askHint : Answer → Except Raised Int
  | .absent | .notImplemented | .raised (.exc .typeError) => .ok 0
  | .raised x => .error x
  | .notInt => .error (.exc .typeError)
  | .int v => if 0 ≤ v ∧ v ≤ 2 ^ 63 - 1 then .ok v else .error (.exc .valueError)

/-- `operator.length_hint(x, 0)`: `len(x)` if there is a `__len__` that does not raise TypeError, else `__length_hint__`.
(CPython's `PyObject_LengthHint`, called at IntArrayList.cpp 264, 755, ObjectArrayList.cpp 239, 717.) -/
def lengthHint (o : Iterable σ β) (l : σ) : σ × Except Raised Int :=
  match o.len l with
  | (l, .int v) =>
    (l, if v < 0 then .error (.exc .valueError) else if v ≤ 2 ^ 63 - 1 then .ok v else .error (.exc .overflowError))
  | (l, .raised x) =>
    if x = .exc .typeError then ((o.hint l).1, askHint (o.hint l).2) else (l, .error x)
  | (l, _) => ((o.hint l).1, askHint (o.hint l).2)

end Verif.Hint
