import Verif.Model.IntArrayList

/-!
# Iterators of the three array lists

ints/IntArrayListIter.cpp; ints/BigIntArrayListIter.cpp and objects/ObjectArrayListIter.cpp are the same
up to the element type, so the element type is a parameter. The list itself is passed to every call with the
contents it has at that moment.
-/

namespace Verif

/-- Answer of one `next()` call. (IntArrayListIter.cpp 36-70.) -/
inductive Next (α : Type)
  | yield (x : α)
  | stop
  | ub (u : UB)
  deriving DecidableEq, Repr

/-- Iterator object; `index = none` is `SIZE_MAX`. (IntArrayListIter.h, the object's fields; IntArrayListIter.cpp
14-29.) -/
structure ArrIter where
  index : Option Nat
  reversed : Bool
  deriving DecidableEq, Repr

namespace ArrIter

/-- IntArrayListIter.cpp 14-29, `create`. -/
def create (l : List α) (reversed : Bool) : ArrIter :=
  if reversed then ⟨some (if l.isEmpty then 0 else l.length - 1), true⟩ else ⟨some 0, false⟩

/-- `vector[i]`. (IntArrayListIter.cpp 36-70: no bounds check in the reversed direction.) -/
def read (l : List α) (i : Nat) : Next α :=
  match l[i]? with
  | some x => .yield x
  | none => .ub .outOfBounds

/-- IntArrayListIter.cpp 36-70, `next`. A forward index never is `SIZE_MAX`. -/
def next (it : ArrIter) (l : List α) : ArrIter × Next α :=
  if l.isEmpty then (it, .stop)
  else if it.reversed then
    match it.index with
    | some 0 => ({ it with index := none }, read l 0)
    | none => (it, .stop)
    | some (i + 1) => ({ it with index := some i }, read l (i + 1))
  else
    match it.index with
    | none => (it, .stop)
    | some i =>
      if i ≥ l.length then (it, .stop)
      else ({ it with index := some (i + 1) }, read l i)

/-- Answers of a sequence of `next()` calls, the `k`-th one finding the contents `ls[k]`; ends at undefined
behaviour. Any modification of the list between calls is a choice of `ls`. Scaffolding of the model, no code of
/repo. -/
def run (it : ArrIter) : List (List α) → List (Next α)
  | [] => []
  | l :: ls =>
    match next it l with
    | (_, .ub u) => [.ub u]
    | (it', a) => a :: run it' ls

end ArrIter
end Verif
