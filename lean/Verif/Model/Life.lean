import Verif.Model.Base

/-!
# The life of list objects

Creation, initialisation, use and destruction of the list classes: ints/IntArrayList.cpp 42-116 (BigIntArrayList.cpp the
same), ints/IntLinkedList.cpp 23-98, objects/ObjectArrayList.cpp 42-109, objects/ObjectLinkedList.cpp 22-89, and
utils/PythonUtils.h 12-42 (`SAFE_DECREF`). All types have `tp_new = PyType_GenericNew`, which only zeroes the memory,
and a `tp_init` that constructs the container there (`new(&self->vector) ...`), whatever is there already; `tp_dealloc`
releases the items of an object list, destroys the container and frees the object. No type supports the cycle collector.

Objects are numbers. Every object has a reference count; Python code holds references (`names`), object lists hold
references. A call of `tp_dealloc` needs a frame of the C stack while it releases the items, `D` nested ones fit.

Simplified: only the calls below; their effect on the elements is the one of the models of the classes. Other objects
(`other`) have no finaliser and refer to nothing. An object that is destroyed leaves the heap before its items are
released, not after: nothing refers to it any more. Storage is counted in blocks of the allocator: one for a vector that
has or had elements, one for each node of a linked list.
-/

namespace Verif.Life

/-- The classes; `other` stands for any object that is not one of ours. Scaffolding of the model, no code of /repo. -/
inductive Class
  | objArray | objLinked | intArray | intLinked | other
  deriving DecidableEq, Repr

/-- Is the container a `std::list`? (IntLinkedList.h, ObjectLinkedList.h.) -/
def Class.linked : Class → Bool
  | .objLinked | .intLinked => true
  | _ => false

/-- An element: a reference or an integer. Scaffolding of the model, no code of /repo. -/
inductive Elem
  | obj (x : Nat)
  | int (v : Int)
  deriving DecidableEq, Repr

/-- Can the class hold the element? Scaffolding of the model, no code of /repo. -/
def Class.holds : Class → Elem → Bool
  | .objArray, .obj _ | .objLinked, .obj _ => true
  | .intArray, .int _ | .intLinked, .int _ => true
  | _, _ => false

/-- The reference an element is. Scaffolding of the model, no code of /repo. -/
def Elem.ref? : Elem → Option Nat
  | .obj x => some x
  | .int _ => none

/-- The memory of the container: zeros, or a constructed container with its elements. (The fields `vector` and `list`
of the objects.) -/
inductive Body
  | zero
  | made (items : List Elem)
  deriving DecidableEq, Repr

/-- Elements; zeros are a vector without elements. Scaffolding of the model, no code of /repo. -/
def Body.items : Body → List Elem
  | .zero => []
  | .made l => l

/-- An object: reference count, class, container, blocks of the allocator it owns. Scaffolding of the model, no code
of /repo. -/
structure Cell where
  rc : Nat
  cls : Class
  body : Body
  blocks : Nat
  deriving DecidableEq, Repr

/-- The references an object holds. Scaffolding of the model, no code of /repo. -/
def Cell.refs (c : Cell) : List Nat := c.body.items.filterMap Elem.ref?

/-- The objects, the number of the next one, and the blocks allocated and not freed. Scaffolding of the model, no
code of /repo. -/
structure Heap where
  cells : Nat → Option Cell
  next : Nat
  blocks : Nat

/-- Pointwise update. Scaffolding of the model, no code of /repo. -/
def upd {α : Type} (f : Nat → α) (i : Nat) (v : α) : Nat → α := fun j => if j = i then v else f j

/-- Change the object `x`. Scaffolding of the model, no code of /repo. -/
def Heap.put (h : Heap) (x : Nat) (c : Cell) : Heap := { h with cells := upd h.cells x (some c) }

/-- `Py_INCREF`. (CPython's; called for instance at ObjectArrayList.cpp 70-80.) -/
def incref (h : Heap) (x : Nat) : Except UB Heap :=
  match h.cells x with
  | none => .error .useAfterFree
  | some c => .ok (h.put x { c with rc := c.rc + 1 })

/-- utils/PythonUtils.h 19-25, `PyFast_DECREF`, and the `tp_dealloc` functions: the last reference destroys the object.
`begin()` of a linked list made of zeros is null, and the loop over the items reads it. -/
def decref : Nat → Heap → Nat → Except UB Heap
  | 0, _, _ => .error .stackOverflow
  | D + 1, h, x =>
    match h.cells x with
    | none => .error .useAfterFree
    | some c =>
      if 1 < c.rc then .ok (h.put x { c with rc := c.rc - 1 })
      else if c.cls.linked && c.body == .zero then .error .nullDeref
      else c.refs.foldlM (fun h y => decref D h y) { h with cells := upd h.cells x none, blocks := h.blocks - c.blocks }

/-- Blocks of a new container with `n` elements. (`std::vector` and `std::list` of libstdc++.) -/
def Class.blocksFor (k : Class) (n : Nat) : Nat := if k.linked then n else if n = 0 then 0 else 1

/-- The program: the heap and the references Python code holds. Scaffolding of the model, no code of /repo. -/
structure World where
  heap : Heap
  names : List Nat

/-- Events: calls by Python code, and references it takes and drops. `new` is `cls.__new__(cls)`, `init` is
`o.__init__(items)` where `fails` tells that the iterable raised after `items`, `create` is `cls(items)`, `initFrom`
is
`o.__init__(p)` with a `p` of the same class. Scaffolding of the model, no code of /repo. -/
inductive Ev
  | new (k : Class)
  | init (o : Nat) (items : List Elem) (fails : Bool)
  | initFrom (o p : Nat)
  | create (k : Class) (items : List Elem) (fails : Bool)
  | append (o : Nat) (e : Elem)
  | pop (o : Nat)
  | get (o i : Nat)
  | len (o : Nat)
  | clear (o : Nat)
  | copy (o : Nat)
  | dup (x : Nat)
  | drop (x : Nat)
  deriving DecidableEq, Repr

/-- Answers. Scaffolding of the model, no code of /repo. -/
inductive Ans
  | none
  | size (n : Nat)
  | elem (e : Elem)
  | new (o : Nat)
  deriving DecidableEq, Repr

/-- Python code can only use objects it has a reference to, and the class must take the elements. Scaffolding of the
model, no code of /repo. -/
def World.may (w : World) (k : Class) (items : List Elem) : Bool :=
  items.all fun e => k.holds e && (match e with
    | .obj x => w.names.contains x
    | .int _ => true)

/-- A method of the list `o`, to which Python code must hold a reference. Scaffolding of the model, no code of /repo.
-/
def onList (w : World) (o : Nat) (f : Cell → Out World Ans) : Out World Ans :=
  if w.names.contains o then
    match w.heap.cells o with
    | none => .ub .useAfterFree
    | some c => if c.cls = .other then .exc w .typeError else f c
  else .exc w .typeError

/-- `PyType_GenericNew`: zeroed memory; the reference goes to the caller. (CPython; IntArrayList.cpp 1237.) -/
def alloc (w : World) (k : Class) (body : Body) (blocks : Nat) : World :=
  { heap :=
      { cells := upd w.heap.cells w.heap.next (some ⟨1, k, body, blocks⟩)
        next := w.heap.next + 1
        blocks := w.heap.blocks + blocks }
    names := w.heap.next :: w.names }

/-- `Py_INCREF` of all references among the elements. (ObjectArrayList.cpp 70-92.) -/
def increfAll (h : Heap) (items : List Elem) : Except UB Heap := (items.filterMap Elem.ref?).foldlM incref h

/-- `SAFE_DECREF` of all references among the elements. (ObjectArrayList.cpp 103-109.) -/
def decrefAll (D : Nat) (h : Heap) (items : List Elem) : Except UB Heap :=
  (items.filterMap Elem.ref?).foldlM (fun h y => decref D h y) h

/-- `tp_init` (see the header): the container is constructed over what is there, then the items are pushed, each with
a
reference of its own. (IntArrayList.cpp 42-111, ObjectArrayList.cpp 42-101.) -/
def initBody (h : Heap) (o : Nat) (c : Cell) (items : List Elem) : Except UB Heap :=
  increfAll ({ h with blocks := h.blocks + c.cls.blocksFor items.length }.put o
    { c with body := .made items, blocks := c.cls.blocksFor items.length }) items

/-- `tp_init` with a list of the same class (`self->vector = iter->vector`, ObjectArrayList.cpp 58-62,
ObjectLinkedList.cpp 38-42): the elements are copied, no reference is counted. -/
def initCopy (h : Heap) (o : Nat) (c : Cell) (items : List Elem) : Heap :=
  { h with blocks := h.blocks + c.cls.blocksFor items.length }.put o
    { c with body := .made items, blocks := c.cls.blocksFor items.length }

/-- A heap after an event, with the names. Scaffolding of the model, no code of /repo. -/
def finish (names : List Nat) (a : Ans) : Except UB Heap → Out World Ans
  | .error u => .ub u
  | .ok h => .ok ⟨h, names⟩ a

/-- One event. An event Python code cannot bring about is answered with TypeError and changes nothing. (The functions
named in the header, by event.) -/
def step (D : Nat) (w : World) (ev : Ev) : Out World Ans :=
  match ev with
  | .new k => .ok (alloc w k .zero 0) (.new w.heap.next)
  | .init o items fails =>
    onList w o fun c =>
      if w.may c.cls items then
        match initBody w.heap o c items with
        | .error u => .ub u
        | .ok h => if fails then .exc ⟨h, w.names⟩ .valueError else .ok ⟨h, w.names⟩ .none
      else .exc w .typeError
  | .initFrom o p =>
    onList w o fun c => onList w p fun d =>
      if c.cls = d.cls then
        if o = p then .ok ⟨initCopy w.heap o c [], w.names⟩ .none
        else if d.cls.linked && d.body == .zero then .ub .nullDeref
        else .ok ⟨initCopy w.heap o c d.body.items, w.names⟩ .none
      else .exc w .typeError
  | .create k items fails =>
    if k ≠ .other ∧ w.may k items then
      match initBody (alloc w k .zero 0).heap w.heap.next ⟨1, k, .zero, 0⟩ items with
      | .error u => .ub u
      | .ok h =>
        if fails then
          match decref D h w.heap.next with
          | .error u => .ub u
          | .ok h => .exc ⟨h, w.names⟩ .valueError
        else .ok ⟨h, w.heap.next :: w.names⟩ (.new w.heap.next)
    else .exc w .typeError
  | .append o e =>
    onList w o fun c =>
      if w.may c.cls [e] then
        if c.cls.linked && c.body == .zero then .ub .nullDeref
        else
          let blocks := if c.cls.linked then c.blocks + 1 else 1
          finish w.names .none (increfAll ({ w.heap with blocks := w.heap.blocks - c.blocks + blocks }.put o
            { c with body := .made (c.body.items ++ [e]), blocks := blocks }) [e])
      else .exc w .typeError
  | .pop o =>
    onList w o fun c =>
      if c.cls.linked && c.body == .zero then .ub .nullDeref
      else
        match c.body.items.getLast? with
        | none => .exc w .indexError
        | some e =>
          let blocks := if c.cls.linked then c.blocks - 1 else c.blocks
          .ok ⟨{ w.heap with blocks := w.heap.blocks - c.blocks + blocks }.put o
              { c with body := .made c.body.items.dropLast, blocks := blocks },
            e.ref?.toList ++ w.names⟩ (.elem e)
  | .get o i =>
    onList w o fun c =>
      match c.body.items[i]? with
      | none => .exc w .indexError
      | some e => finish (e.ref?.toList ++ w.names) (.elem e) (increfAll w.heap [e])
  | .len o =>
    onList w o fun c => .ok w (.size c.body.items.length)
  | .clear o =>
    onList w o fun c =>
      if c.cls.linked && c.body == .zero then .ub .nullDeref
      else
        let blocks := if c.cls.linked then 0 else c.blocks
        finish w.names .none (decrefAll D ({ w.heap with blocks := w.heap.blocks - c.blocks + blocks }.put o
          { c with body := .made [], blocks := blocks }) c.body.items)
  | .copy o =>
    onList w o fun c =>
      if c.cls.linked && c.body == .zero then .ub .nullDeref
      else
        finish (w.heap.next :: w.names) (.new w.heap.next)
          (increfAll (alloc w c.cls (.made c.body.items) (c.cls.blocksFor c.body.items.length)).heap c.body.items)
  | .dup x => if w.names.contains x then finish (x :: w.names) .none (incref w.heap x) else .exc w .typeError
  | .drop x => if w.names.contains x then finish (w.names.erase x) .none (decref D w.heap x) else .exc w .typeError

/-- The program before the first event. Scaffolding of the model, no code of /repo. -/
def empty : World := ⟨⟨fun _ => none, 0, 0⟩, []⟩

/-- A history of events; it ends where the process does. Scaffolding of the model, no code of /repo. -/
def run (D : Nat) : World → List Ev → Except UB World
  | w, [] => .ok w
  | w, e :: es =>
    match step D w e with
    | .ub u => .error u
    | .ok w' _ | .exc w' _ | .pending w' _ _ => run D w' es

end Verif.Life
