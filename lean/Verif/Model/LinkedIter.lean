import Verif.Model.StdList
import Verif.Model.ArrayIter

/-!
# Iterators of the two linked lists

ints/IntLinkedListIter.cpp; objects/ObjectLinkedListIter.cpp is the same up to the element type, so the element
type is a parameter. The list object is passed to every call in the state it has at that moment.
-/

namespace Verif

/-- Iterator object: `index` (`none` = `SIZE_MAX`), `cacheIter` (a node identity, `none` = `end()`),
`cacheModCount`, `reversed`. (IntLinkedListIter.h.) -/
structure LIter where
  index : Option Nat
  cache : Option Nat
  cacheMod : Nat
  reversed : Bool
  deriving DecidableEq, Repr

namespace LIter

variable {α : Type}

/-- The iterator to position `p` (`end()` past the last node). (Utils.h 11-33.) -/
def atPos (s : LState α) (p : Nat) : Option Nat := s.ids[p]?

/-- IntLinkedListIter.cpp 15-33, `create`. For the reversed iterator of an empty list `--end()` (24) is formally
undefined; libstdc++ yields `end()` again. -/
def create (s : LState α) (reversed : Bool) : LIter :=
  if reversed then ⟨some (if s.size = 0 then 0 else s.size - 1), atPos s (s.size - 1), s.modCount, true⟩
  else ⟨some 0, atPos s 0, s.modCount, false⟩

/-- Position of the node `cacheIter` refers to. Dereferencing `end()` or a node that no longer exists is
undefined. Scaffolding of the model, no code of /repo. -/
def locate (s : LState α) : Option Nat → Except UB Nat
  | none => .error .outOfBounds
  | some id =>
    match s.ids.idxOf? id with
    | none => .error .useAfterFree
    | some p => .ok p

/-- IntLinkedListIter.cpp 40-53, `updateCache`, for `index ≠ SIZE_MAX`. -/
def updateCache (it : LIter) (s : LState α) (i : Nat) : Except UB LIter :=
  if it.cacheMod = s.modCount then .ok it
  else
    match listAt s.size i with
    | .error u => .error u
    | .ok p =>
      .ok { it with
        index := if it.reversed then (if i = 0 then none else some (i - 1)) else some (i + 1)
        cache := atPos s p
        cacheMod := s.modCount }

/-- `index--` on `size_t`; `SIZE_MAX - 1` does not occur. (IntLinkedListIter.cpp, `next`.) -/
def decIndex : Option Nat → Option Nat
  | some (i + 1) => some i
  | _ => none

/-- `*cacheIter` and then `cacheIter--` / `cacheIter++` (77-80, 88-91). -/
def readMove (it : LIter) (s : LState α) : LIter × Next α :=
  match locate s it.cache with
  | .error u => (it, .ub u)
  | .ok p =>
    match s.vals[p]? with
    | none => (it, .ub .outOfBounds)
    | some x =>
      if it.reversed then
        match p with
        | 0 => (it, .ub .badIterator)
        | p + 1 => ({ it with index := decIndex it.index, cache := atPos s p }, .yield x)
      else ({ it with index := it.index.map (· + 1), cache := atPos s (p + 1) }, .yield x)

/-- IntLinkedListIter.cpp 55-93, `next`. A forward index never is `SIZE_MAX`. -/
def next (it : LIter) (s : LState α) : LIter × Next α :=
  if s.size = 0 then (it, .stop)
  else if it.reversed then
    match it.index with
    | some 0 =>
      ({ it with index := none }, match s.vals[s.size - 1]? with | some x => .yield x | none => .ub .outOfBounds)
    | none => (it, .stop)
    | some (i + 1) =>
      match updateCache it s (i + 1) with
      | .error u => (it, .ub u)
      | .ok it => readMove it s
  else
    match it.index with
    | none => (it, .stop)
    | some i =>
      if i ≥ s.size then (it, .stop)
      else
        match updateCache it s i with
        | .error u => (it, .ub u)
        | .ok it => readMove it s

/-- Answers of a sequence of `next()` calls, the `k`-th one finding the list in state `ls[k]`; ends at undefined
behaviour. Scaffolding of the model, no code of /repo. -/
def run (it : LIter) : List (LState α) → List (Next α)
  | [] => []
  | s :: ss =>
    match next it s with
    | (_, .ub u) => [.ub u]
    | (it', a) => a :: run it' ss

end LIter
end Verif
