import Verif.VocabReady

/-!
# Type objects that nobody calls `PyType_Ready` on

The list types are static objects with a metatype (IntArrayList.cpp 19-21) whose slots are filled at import
(IntArrayList.cpp 1227-1246, BigIntArrayList.cpp 1229-1248, IntLinkedList.cpp 1137-1155, ObjectArrayList.cpp 1188-1206,
ObjectLinkedList.cpp 1098-1116; `tp_getattro` and `tp_setattro` are not among them) and which are then put into a module
(IntArrayList.cpp 1250-1267). The same holds for the classes of pyfastutil.unsafe (Unsafe.cpp 12-14, 385-396, 408-423; SIMD.cpp 94-96, 380-391, 403-418;
SIMDLowAVX512.cpp 28695-28697, 35641-35652, 35664-35679; ASM.cpp 22-24, 334-345, 357-372), which fill only `tp_init`, `tp_new`, `tp_dealloc`, `tp_alloc`, `tp_free`. `PyType_Ready`, which makes the dictionary and inherits the missing slots, is called nowhere in the
library; CPython calls it in some places when it meets such a type. Modelled are these places.

Simplified: an attribute that is found is not evaluated further; specialisation of instructions (CPython 3.11 prepares a type when
an attribute access has failed often enough) is left out.
-/

namespace Verif.Ready

/-- The types on which `PyType_Ready` has run. (CPython's `Py_TPFLAGS_READY`.) -/
abbrev State := Cls → Bool

/-- After the import of the library (PyFastUtil.cpp 33-61, IntArrayList.cpp 1250-1267; ints.py, objects.py and unsafe/__init__.py fetch the types
from their modules only). -/
def imported : State := fun _ => false

/-- `PyType_Ready` of CPython. -/
def ready (s : State) (c : Cls) : State := fun d => if d = c then true else s d

/-- `tp_getattro` and `tp_setattro`: those of `object` once the type is ready. (CPython's `inherit_slots`.) -/
inductive Accessor
  | generic
  deriving DecidableEq, Repr

/-- The accessor of a type. `PyType_Ready` of CPython fills them in; the types of /repo do not (IntArrayList.cpp
1227-1246). -/
def accessor (s : State) (c : Cls) : Option Accessor := if s c then some .generic else none

/-- `_PyType_Lookup` of CPython: prepares a type without `tp_mro`. -/
def typeLookup (A : Attrs) (s : State) (c : Cls) (name : String) : State × Bool := (ready s c, A.ofList c name)

/-- `PyObject_GenericGetAttr` of CPython (lists have no `__dict__`). -/
def genericGetAttr (A : Attrs) (s : State) (c : Cls) (name : String) : State × Seen :=
  let (s, b) := typeLookup A s c name
  (s, if b then .found else .attributeError)

/-- `PyObject_GetAttr` of CPython. -/
def getAttr (A : Attrs) (s : State) (c : Cls) (name : String) : State × Seen :=
  match accessor s c with
  | some .generic => genericGetAttr A s c name
  | none => (s, .attributeError)

/-- `PyObject_GetOptionalAttr` (`_PyObject_LookupAttr`) of CPython. -/
def optionalAttr (A : Attrs) (s : State) (c : Cls) (name : String) : State × Seen :=
  match accessor s c with
  | some .generic =>
    match genericGetAttr A s c name with
    | (s, .found) => (s, .found)
    | (s, _) => (s, .absent)
  | none => (s, .absent)

/-- `PyObject_SetAttr` of CPython with a name that is not a data descriptor. -/
def setAttr (s : State) (c : Cls) : Seen :=
  match accessor s c with
  | some .generic => .attributeError
  | none => .typeError

/-- `_PyObject_GetMethod` of CPython: prepares the type first. -/
def getMethod (A : Attrs) (s : State) (c : Cls) (name : String) : State × Seen :=
  let s := if s c then s else ready s c
  match accessor s c with
  | some .generic =>
    let (s, b) := typeLookup A s c name
    (s, if b then .found else .attributeError)
  | none => getAttr A s c name

/-- `type_getattro` of CPython: prepares the type first. -/
def classGetAttr (A : Attrs) (s : State) (c : Cls) (name : String) : State × Seen :=
  (if s c then s else ready s c, if A.ofClass c name then .found else .attributeError)

/-- How CPython compiles a method call (`maybe_optimize_method_call`): `LOAD_METHOD`, or `LOAD_ATTR` and a call. -/
def compiled (py311 : Bool) (f : Form) : Bool :=
  match f with
  | .plain => true
  | .keywords => if py311 then true else false
  | .starred => false

/-- `tp_hash` is filled: with `PyObject_HashNotImplemented` in the list types (IntArrayList.cpp 1241, BigIntArrayList.cpp 1243, IntLinkedList.cpp
1151, ObjectArrayList.cpp 1202, ObjectLinkedList.cpp 1112), not in the others (Unsafe.cpp 385-396 and the same in the three other files). -/
def hashFilled : Cls → Bool
  | .list _ => true
  | .tool _ => false

/-- A use of a slot. `PyObject_Hash` of CPython prepares a type without `tp_hash`; the other functions take a missing slot for what
it is. -/
def slotUse (s : State) (c : Cls) : SlotUse → State
  | .hash => if hashFilled c then s else if s c then s else ready s c
  | _ => s

/-- One step. Slots are called without preparation (IntArrayList.cpp 1231-1245 fills them); an abstract class asks for
`__class__` (`_abc__abc_instancecheck`). -/
def step (A : Attrs) (py311 : Bool) (s : State) (c : Cls) : Event → State × Seen
  | .slot u => (slotUse s c u, .done)
  | .call name f => if compiled py311 f then getMethod A s c name else getAttr A s c name
  | .fetch name => getAttr A s c name
  | .test name => optionalAttr A s c name
  | .assign _ => (s, setAttr s c)
  | .special name =>
    let (s, b) := typeLookup A s c name
    (s, if b then .found else .absent)
  | .ofClass name => classGetAttr A s c name
  | .subclass => (if s c then s else ready s c, .done)               -- `best_base`
  | .abstract =>
    match getAttr A s c "__class__" with
    | (s, .found) => (s, .done)
    | r => r
  | .concrete => ((optionalAttr A s c "__class__").1, .done)

/-- A program. Scaffolding of the model, no code of /repo. -/
def run (A : Attrs) (py311 : Bool) (h : History) : State :=
  h.foldl (fun s x => (step A py311 s x.1 x.2).1) imported

end Verif.Ready
