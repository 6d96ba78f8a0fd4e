import Verif.VocabHint
import Verif.Model.IntArrayList
import Verif.Model.IntLinkedList
import Verif.Model.ObjArrayList

/-!
# `extend` and `+=` with an iterable whose length hint may fail

IntArrayList.cpp 257-289, 748-782, BigIntArrayList.cpp 257-289, 750-784, ObjectArrayList.cpp 232-262, 710-742. The code asks for a hint
(`PyObject_LengthHint`) and looks only whether it is positive; if asking failed, the exception stays pending while the
items are fetched. Simplified: there is memory enough (see C53, C60); the iterator and the conversions of the items are
implemented in C, so that no Python code runs while the exception is pending.
-/

namespace Verif.Hint

/-- Item loop of the int array lists (271-281, 762-772): the list, the items left, the exception. -/
def loop (K : Kind) : List Arg → List Int → List Int × List Arg × Option Exc
  | [], l => (l, [], none)
  | a :: as, l =>
    match toElem K a with
    | (_, some e) => (l, as, some e)
    | (v, none) => loop K as (l ++ [v])

/-- IntArrayList.cpp 257-289 `extend` and 748-782 `+=` (`r` is the result). With an exception pending, the first item is fetched
and converted (272), and then the exception is noticed (275); a new exception replaces the pending one. Without an item
`PyIter_Next` clears a pending StopIteration, whoever raised it. -/
def extend (K : Kind) (r : ρ) (l : List Int) (o : Iterable (List Int) Arg) : Went (List Int) Arg ρ :=
  match lengthHint o l with
  | (l, .ok _) =>
    match loop K o.items l with
    | (l, as, some e) => ⟨l, as, .error (.exc e)⟩
    | (l, as, none) =>
      match o.fin with
      | some e => ⟨l, as, .error (.exc e)⟩
      | none => ⟨l, as, .ok r⟩
  | (l, .error x) =>
    match o.items with
    | a :: as =>
      match toElem K a with
      | (_, some e) => ⟨l, as, .error (.exc e)⟩
      | (_, none) => ⟨l, as, .error x⟩
    | [] =>
      match o.fin with
      | some e => ⟨l, [], .error (.exc e)⟩
      | none => ⟨l, [], if x = .stopIteration then .ok r else .error x⟩

/-- ObjectArrayList.cpp 232-262 `extend` and 710-742 `+=`: the item fetched while the exception is pending is neither stored nor
released (247-250, 727-730). -/
def extendObj (r : ρ) (s : OState) (o : Iterable OState Obj) : Went OState Obj ρ :=
  match lengthHint o s with
  | (s, .ok _) =>
    match o.fin with
    | some e => ⟨ObjArray.pushNew o.items s, [], .error (.exc e)⟩
    | none => ⟨ObjArray.pushNew o.items s, [], .ok r⟩
  | (s, .error x) =>
    match o.items with
    | a :: as => ⟨⟨s.vec, s.heap.gain a⟩, as, .error x⟩
    | [] =>
      match o.fin with
      | some e => ⟨s, [], .error (.exc e)⟩
      | none => ⟨s, [], if x = .stopIteration then .ok r else .error x⟩

/-- IntLinkedList.cpp 213-240 `extend` (`bump`) and 709-736 `+=`: no hint is asked for. -/
def extendLinked (bump : Bool) (r : Ret) (s : LState Int) (o : Iterable (LState Int) Arg) : LinkedList.LLOut :=
  LinkedList.pushItems bump s o.items o.fin r

end Verif.Hint
