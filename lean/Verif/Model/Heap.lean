import Verif.Model.Base
import Verif.VocabObj

/-!
# Reference counts

The reference count of every object, as `Py_INCREF` / `SAFE_DECREF` (utils/PythonUtils.h 12-42) see it. An
object whose count is 0 has been freed; touching it is undefined behaviour. Immortal objects (None, True,
False, small ints from CPython 3.12) are never freed and their count is not tracked: `SAFE_DECREF` does lower the count of an
immortal object, `Py_INCREF` does not raise it, and when it reaches 0 the destructor of such an object sets it to its old
value (CPython, `none_dealloc` and the like), so nothing can be seen of it. Freeing an object runs no
user code here (no `__del__`, no containers among the elements).
-/

namespace Verif

/-- Immortal objects and reference counts. (CPython's `ob_refcnt`.) -/
structure Heap where
  imm : Obj → Bool
  rc : Obj → Nat

namespace Heap

/-- Change one count. Scaffolding of the model, no code of /repo. -/
def set (h : Heap) (o : Obj) (n : Nat) : Heap := { h with rc := fun x => if x = o then n else h.rc x }

/-- The object may be dereferenced. Scaffolding of the model, no code of /repo. -/
def live (h : Heap) (o : Obj) : Bool := h.imm o || decide (0 < h.rc o)

/-- `Py_INCREF(o)`. (CPython's; called for instance at ObjectArrayList.cpp 70-80.) -/
def incref (h : Heap) (o : Obj) : Except UB Heap :=
  if h.imm o then .ok h
  else if h.rc o = 0 then .error .useAfterFree
  else .ok (h.set o (h.rc o + 1))

/-- `SAFE_DECREF(o)` / `PyFast_DECREF(o)` (utils/PythonUtils.h 19-25, 37-42); the object is freed when the count
reaches 0. -/
def decref (h : Heap) (o : Obj) : Except UB Heap :=
  if h.imm o then .ok h
  else if h.rc o = 0 then .error .useAfterFree
  else .ok (h.set o (h.rc o - 1))

/-- A C-API call that returns a new reference to `o` (`PyIter_Next`, `PySequence_GetItem`). (Called at
ObjectArrayList.cpp 90, 578, 642 and so on.) -/
def gain (h : Heap) (o : Obj) : Heap := if h.imm o then h else h.set o (h.rc o + 1)

/-- `Py_INCREF` of each element in order. (The loops around `Py_INCREF` in ObjectArrayList.cpp and
ObjectLinkedList.cpp.) -/
def increfs (h : Heap) : List Obj → Except UB Heap
  | [] => .ok h
  | o :: os =>
    match h.incref o with
    | .error u => .error u
    | .ok h => increfs h os

/-- `SAFE_DECREF` of each element in order. (PythonUtils.h 38-42, in the loops of ObjectArrayList.cpp and
ObjectLinkedList.cpp.) -/
def decrefs (h : Heap) : List Obj → Except UB Heap
  | [] => .ok h
  | o :: os =>
    match h.decref o with
    | .error u => .error u
    | .ok h => decrefs h os

end Heap

/-- Continue after an operation on the counts. Scaffolding of the model, no code of /repo. -/
def withHeap (r : Except UB Heap) (k : Heap → Out σ α) : Out σ α :=
  match r with
  | .error u => .ub u
  | .ok h => k h

end Verif
