import Verif.Model.Heap
import Verif.Model.Unsafe
import Verif.VocabRef

/-!
# Unsafe: objects and addresses

Model of unsafe/Unsafe.cpp 245-251 and 298-310. An object is its address. Simplified: only the reference counts of
objects are modelled; an address of something that is not a live object gives undefined behaviour as soon as it is
returned as an object. The address of an object is positive.
-/

namespace Verif.UnsafeObj

/-- Outcomes of a call. Scaffolding of the model, no code of /repo. -/
abbrev ROut := Out Heap RVal

/-- Unsafe.cpp 249-251, `as_object`: the pointer is returned as it is; the interpreter takes it as a new reference.
A null pointer without an exception is answered with SystemError by the interpreter. -/
def asObject (h : Heap) (a : Arg) : ROut :=
  match Unsafe.asVoidPtr a with
  | .error e => .exc h e
  | .ok p => if p = 0 then .exc h .systemError else if h.live p then .ok h (.obj p) else .ub .useAfterFree

/-- One event. `get_address` is Unsafe.cpp 245-247, `incref` 298-301, `decref` 303-306, `refcnt` 308-310 (method
table 356-382); `bind` and `drop` are the interpreter's own reference counting for the client's names. -/
def step (h : Heap) : REvent → ROut
  | .getAddress o => .ok h (.int o)
  | .asObject a => asObject h a
  | .incref o => withHeap (h.incref o) fun h => .ok h .none
  | .decref o => withHeap (h.decref o) fun h => .ok h .none
  | .refcnt o => if h.live o then .ok h (.int (h.rc o)) else .ub .useAfterFree
  | .bind o => withHeap (h.incref o) fun h => .ok h .none
  | .drop o => withHeap (h.decref o) fun h => .ok h .none

/-- Reference counts after a history; `none` after undefined behaviour. Scaffolding of the model, no code of /repo. -/
def play (h : Heap) : List REvent → Option Heap
  | [] => some h
  | e :: es =>
    match (step h e).state? with
    | none => none
    | some h => play h es

end Verif.UnsafeObj
