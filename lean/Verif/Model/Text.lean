import Verif.Model.Base
import Verif.VocabText

/-!
# `repr` of object lists

objects/ObjectArrayList.cpp and objects/ObjectLinkedList.cpp, `repr` and `str`, for lists whose elements are lists again or
objects with a `__repr__` of their own, which is arbitrary code and may change lists. References are not counted here
(an element destroyed while its `__repr__` runs is kept alive by the call). Strings are always allocated.
-/

namespace Verif.Text

open Verif.Elems (Shape)

/-- The contents of the lists: the address of the node (only meaningful for linked lists) and the element.
Scaffolding of the model, no code of /repo. -/
abbrev World := Nat → List (Nat × Nat)

/-- `__repr__` of the objects that are not lists of ours. Scaffolding of the model, no code of /repo. -/
abbrev Code := Nat → World → World × Answer

/-- Outcome of a call; `none`: the loop does not end within the given number of rounds. Scaffolding of the model, no
code of /repo. -/
abbrev Res := Option (Except UB (World × Answer))

/-- The node after the node `a`. (`++it` in ObjectLinkedList.cpp, `repr`.) -/
def after (a : Nat) : List (Nat × Nat) → Option Nat
  | [] => none
  | (b, _) :: cs => if b = a then cs.head?.map (·.1) else after a cs

/-- ObjectArrayList.cpp 1128-1132, ObjectLinkedList.cpp 1039-1043: the last element (`vector[size() - 1]`, `list.back()`) and
the bracket. `PyUnicode_AppendAndDel` of a null pointer clears the string, so that an exception of this last call is passed
on (PyUnicode_Append's contract). -/
def finish (rep : Nat → World → Res) (o : Nat) (text : Str) (w : World) : Res :=
  match (w o).getLast? with
  | none => some (.error .outOfBounds)
  | some (_, x) =>
    match rep x w with
    | none => none
    | some (.error u) => some (.error u)
    | some (.ok (w, .error e)) => some (.ok (w, .error e))
    | some (.ok (w, .ok t)) => some (.ok (w, .ok (text ++ t ++ "]".toList)))

/-- ObjectArrayList.cpp 1117-1126, the loop. `vec.size() - 1` is computed anew each time, in `size_t`: for an empty vector it
is 2^64 - 1, which no counter reaches. -/
def arrayLoop (rep : Nat → World → Res) (o : Nat) : Nat → Nat → Str → World → Res
  | 0, _, _, _ => none
  | fuel + 1, i, text, w =>
    if (w o).length = 0 ∨ i < (w o).length - 1 then
      match (w o)[i]? with
      | none => some (.error .outOfBounds)
      | some (_, x) =>
        match rep x w with
        | none => none
        | some (.error u) => some (.error u)
        | some (.ok (w, .error e)) => some (.ok (w, .error e))
        | some (.ok (w, .ok t)) => arrayLoop rep o fuel (i + 1) (text ++ t ++ ", ".toList) w
    else finish rep o text w

/-- ObjectLinkedList.cpp 1027-1037, the loop, with the iterator `it` (`none`: `end()`). -/
def linkedLoop (rep : Nat → World → Res) (o : Nat) : Nat → Nat → Option Nat → Str → World → Res
  | 0, _, _, _, _ => none
  | fuel + 1, i, it, text, w =>
    if (w o).length = 0 ∨ i < (w o).length - 1 then
      match it with
      | none => some (.error .badIterator)
      | some a =>
        match (w o).lookup a with
        | none => some (.error .useAfterFree)
        | some x =>
          match rep x w with
          | none => none
          | some (.error u) => some (.error u)
          | some (.ok (w, .error e)) => some (.ok (w, .error e))
          | some (.ok (w, .ok t)) =>
            match (w o).lookup a with
            | none => some (.error .useAfterFree)
            | some _ => linkedLoop rep o fuel (i + 1) (after a (w o)) (text ++ t ++ ", ".toList) w
    else finish rep o text w

/-- `PyObject_Repr(o)` with `limit` nested calls left: beyond the limit it raises RecursionError; a list of ours
(ObjectArrayList.cpp 1102-1133, ObjectLinkedList.cpp 1012-1044) does not look whether its `repr` is under way already. -/
def repr (kind : Nat → Option Shape) (code : Code) (fuel : Nat) : Nat → Nat → World → Res
  | 0, _, w => some (.ok (w, .error .recursion))
  | limit + 1, o, w =>
    match kind o with
    | none => some (.ok (code o w))
    | some s =>
      if (w o).length = 0 then some (.ok (w, .ok "[]".toList))
      else
        match s with
        | .array => arrayLoop (repr kind code fuel limit) o fuel 0 "[".toList w
        | .linked => linkedLoop (repr kind code fuel limit) o fuel 0 ((w o).head?.map (·.1)) "[".toList w

/-- What Python code sees of the lists. Scaffolding of the model, no code of /repo. -/
def view (w : World) : View := fun o => (w o).map (·.2)

/-- Every node occurs once in its list. Scaffolding of the model, no code of /repo. -/
def NodesOk (w : World) : Prop := ∀ o, ((w o).map (·.1)).Nodup

/-- The code replaces elements at most: nodes and lengths stay. Scaffolding of the model, no code of /repo. -/
def SameNodes (w w' : World) : Prop := ∀ o, (w' o).map (·.1) = (w o).map (·.1)

end Verif.Text
