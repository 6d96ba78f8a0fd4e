import Verif.Model.Base
import Verif.VocabElems

/-!
# Object lists whose elements have methods of their own

objects/ObjectArrayList.cpp and objects/ObjectLinkedList.cpp: `clear`, `del l[i]`, slice assignment of a list of the same
length, `==` and `!=`, where dropping an element may run its `__del__` and comparing it its `__eq__` or `__ne__`. These are
arbitrary code, which may call methods of the list. The list is modelled down to its cells: the cells of the vector's block
(array) or the nodes (linked). Touching a cell that has been freed is undefined behaviour, and so is following a null pointer.
-/

namespace Verif.Elems

/-- A list and its elements. `cells` are the addresses of the cells in order, `mem` their contents (`none`: not
allocated,
`some none`: null pointer), `spare` the unused capacity of the vector. `held` counts the references to an object that
belong
to the list and to running methods of the list, `ext` all others; `gone` are the objects destroyed. Scaffolding of
the model, no code of /repo. -/
structure World where
  cells : List Nat
  mem : Nat → Option (Option Nat)
  fresh : Nat
  spare : Nat
  held : Nat → Nat
  ext : Nat → Nat
  gone : List Nat

/-- The code of the elements: `__del__`, and `__eq__`/`__ne__` of the first object with the second as argument.
Scaffolding of the model, no code of /repo. -/
structure Env where
  del : Nat → World → Except UB World
  cmp : Rel → Nat → Nat → World → Except UB (World × Reply)

/-- Change a function at one point. Scaffolding of the model, no code of /repo. -/
def put {β : Type} (f : Nat → β) (a : Nat) (b : β) : Nat → β := fun x => if x = a then b else f x

/-- utils/PythonUtils.h 20-26, `PyFast_DECREF` of a reference of the list or of one of its methods: at zero, `_Py_Dealloc`
runs `__del__`. -/
def release (env : Env) (x : Nat) (w : World) : Except UB World :=
  if w.held x = 0 then .error .useAfterFree
  else if w.held x - 1 + w.ext x = 0 then
    env.del x { w with held := put w.held x (w.held x - 1), gone := w.gone ++ [x] }
  else .ok { w with held := put w.held x (w.held x - 1) }

/-- utils/PythonUtils.h 38-42, `SAFE_DECREF(cell)`: the argument is a reference to the cell, which is set to null when
`_Py_Dealloc` has returned. -/
def safeDecref (env : Env) (a : Nat) (w : World) : Except UB World :=
  match w.mem a with
  | none => .error .useAfterFree
  | some none => .error .nullDeref
  | some (some x) =>
    match release env x w with
    | .error u => .error u
    | .ok w' =>
      match w'.mem a with
      | none => .error .useAfterFree
      | some _ => .ok { w' with mem := put w'.mem a (some none) }

/-- One `SAFE_DECREF` after the other, for cells given by pointers taken at the start. (ObjectArrayList.cpp 866-874.)
-/
def decrefAll (env : Env) : List Nat → World → Except UB World
  | [], w => .ok w
  | a :: as, w =>
    match safeDecref env a w with
    | .error u => .error u
    | .ok w => decrefAll env as w

/-- The node after `a`. (`++it` at ObjectLinkedList.cpp 773.) -/
def following (a : Nat) : List Nat → Option Nat
  | [] => none
  | b :: bs => if b = a then bs.head? else following a bs

/-- ObjectLinkedList.cpp 773-775: the iterator moves along the nodes as they are after `__del__` has run; it must still be at
a node of the list. -/
def walk (env : Env) : Nat → Option Nat → World → Option (Except UB World)
  | _, none, w => some (.ok w)
  | 0, some _, _ => none
  | k + 1, some a, w =>
    match safeDecref env a w with
    | .error u => some (.error u)
    | .ok w => if a ∈ w.cells then walk env k (following a w.cells) w else some (.error .useAfterFree)

/-- `vector.clear()`, `list.clear()`. (ObjectArrayList.cpp 866-874, ObjectLinkedList.cpp 776.) -/
def empty (w : World) : World :=
  { w with
    cells := []
    mem := fun a => if a ∈ w.cells then none else w.mem a
    spare := w.spare + w.cells.length }

/-- ObjectArrayList.cpp 866-874, ObjectLinkedList.cpp 770-778, `clear`. The array's loop runs from the `begin()` to the
`end()` it found; the loop along the nodes need not end (`none` if `fuel` steps do not suffice). -/
def clear (env : Env) (fuel : Nat) : Shape → World → Option (Except UB World)
  | .array, w =>
    match decrefAll env w.cells w with
    | .error u => some (.error u)
    | .ok w => some (.ok (empty w))
  | .linked, w =>
    match walk env fuel w.cells.head? w with
    | none => none
    | some (.error u) => some (.error u)
    | some (.ok w) => some (.ok (empty w))

/-- Move contents into cells, from the front. Scaffolding of the model, no code of /repo. -/
def fill (m : Nat → Option (Option Nat)) : List Nat → List (Option (Option Nat)) → Nat → Option (Option Nat)
  | a :: as, c :: cs => fill (put m a c) as cs
  | _, _ => m

/-- `vector.erase(begin() + i)`: the contents behind move down by one. (ObjectArrayList.cpp 500-516.) -/
def eraseAt (i : Nat) (w : World) : Except UB World :=
  if i < w.cells.length then
    .ok { w with
      cells := w.cells.dropLast
      mem := fill w.mem (w.cells.drop i) ((w.cells.drop (i + 1)).map w.mem ++ [none])
      spare := w.spare + 1 }
  else .error .outOfBounds

/-- `list.erase(it)`. (ObjectLinkedList.cpp 488.) -/
def eraseNode (a : Nat) (w : World) : Except UB World :=
  if a ∈ w.cells then .ok { w with cells := w.cells.erase a, mem := put w.mem a none }
  else .error .useAfterFree

/-- ObjectArrayList.cpp 500-516, ObjectLinkedList.cpp 471-488, `del l[i]`; the answer is the exception, if any. -/
def delete (env : Env) (s : Shape) (index : Int) (w : World) : Except UB (World × Option Exc) :=
  let size : Int := w.cells.length
  let index := if index < 0 then size + index else index
  if index < 0 ∨ index ≥ size then .ok (w, some .indexError)
  else
    match w.cells[index.toNat]? with
    | none => .error .outOfBounds
    | some a =>
      match safeDecref env a w with
      | .error u => .error u
      | .ok w =>
        match (match s with | .array => eraseAt index.toNat w | .linked => eraseNode a w) with
        | .error u => .error u
        | .ok w => .ok (w, none)

/-- ObjectArrayList.cpp 567-571, `fastCopy`, the loop: for each cell drop the old element and take a reference to the new one.
(The list assigned is another list, which `__del__` is taken not to change.) -/
def copyRefs (env : Env) : List Nat → List Nat → World → Except UB World
  | a :: as, y :: ys, w =>
    match safeDecref env a w with
    | .error u => .error u
    | .ok w => copyRefs env as ys { w with held := put w.held y (w.held y + 1) }
  | _, _, w => .ok w

/-- ObjectArrayList.cpp 572, `memcpy` into the cells found at the start. -/
def copyCells : List Nat → List Nat → World → Except UB World
  | a :: as, y :: ys, w =>
    match w.mem a with
    | none => .error .useAfterFree
    | some _ => copyCells as ys { w with mem := put w.mem a (some (some y)) }
  | _, _, w => .ok w

/-- ObjectArrayList.cpp 564, 588-594: `l[start:start+len(ys)] = ys` for a list `ys`. -/
def setSlice (env : Env) (start : Nat) (ys : List Nat) (w : World) : Except UB World :=
  match copyRefs env ((w.cells.drop start).take ys.length) ys w with
  | .error u => .error u
  | .ok w' => copyCells ((w.cells.drop start).take ys.length) ys w'

/-- `PyObject_RichCompareBool` for `==` and `!=`: identity first, then the method of the first object, then, if that
is not
implemented, the one of the second. The list does not hold a reference for the call: the first object may be gone.
(CPython; called at ObjectArrayList.cpp 895, 926, ObjectLinkedList.cpp 800, 832.) -/
def rich (env : Env) (r : Rel) (x y : Nat) (w : World) : Except UB (World × Except Exc Bool) :=
  if x = y then .ok (w, .ok (r == .eq))
  else
    match env.cmp r x y w with
    | .error u => .error u
    | .ok (w, .val b) => .ok (w, .ok b)
    | .ok (w, .err e) => .ok (w, .error e)
    | .ok (w, .notImplemented) =>
      if w.held x + w.ext x = 0 then .error .useAfterFree
      else
        match env.cmp r y x w with
        | .error u => .error u
        | .ok (w, .val b) => .ok (w, .ok b)
        | .ok (w, .err e) => .ok (w, .error e)
        | .ok (w, .notImplemented) => .ok (w, .ok (r == .ne))

/-- The element compared with item `i`: `vector[i]` unchecked (ObjectArrayList.cpp 891, 923), `*iter` (ObjectLinkedList.cpp
796, 829). -/
def current (s : Shape) (i : Nat) (it : Option Nat) (w : World) : Except UB Nat :=
  match s with
  | .array =>
    match w.cells[i]? with
    | none => .error .outOfBounds
    | some a =>
      match w.mem a with
      | some (some x) => .ok x
      | some none => .error .nullDeref
      | none => .error .useAfterFree
  | .linked =>
    match it with
    | none => .error .badIterator
    | some a =>
      match w.mem a with
      | some (some x) => .ok x
      | some none => .error .nullDeref
      | none => .error .useAfterFree

/-- `iter++` in the loop of the linked list. (ObjectLinkedList.cpp 790-811, 825-843.) -/
def advance (s : Shape) (it : Option Nat) (w : World) : Except UB (Option Nat) :=
  match s with
  | .array => .ok it
  | .linked =>
    match it with
    | none => .error .badIterator
    | some a => if a ∈ w.cells then .ok (following a w.cells) else .error .useAfterFree

/-- ObjectArrayList.cpp 886-906 and 920-937, ObjectLinkedList.cpp 790-811 and 825-843, the loops of `==` and `!=`. `items` are
what `PySequence_GetItem` returns (a new reference each). -/
def compareLoop (env : Env) (s : Shape) (r : Rel) : Nat → Option Nat → List Nat → World → Except UB (World × Except Exc Bool)
  | _, _, [], w => .ok (w, .ok (r == .eq))
  | i, it, y :: ys, w =>
    let w := { w with held := put w.held y (w.held y + 1) }
    match current s i it w with
    | .error u => .error u
    | .ok x =>
      match rich env r x y w with
      | .error u => .error u
      | .ok (w, res) =>
        match release env y w with
        | .error u => .error u
        | .ok w =>
          match res with
          | .error e => .ok (w, .error e)
          | .ok b =>
            if b = (r == .eq) then
              match advance s it w with
              | .error u => .error u
              | .ok it => compareLoop env s r (i + 1) it ys w
            else .ok (w, .ok (r == .ne))

/-- ObjectArrayList.cpp 876-938, ObjectLinkedList.cpp 780-844: `l == s`, `l != s` for a sequence `s` with the items `ys`. -/
def compare (env : Env) (s : Shape) (r : Rel) (ys : List Nat) (w : World) : Except UB (World × Except Exc Bool) :=
  if ys.length ≠ w.cells.length then .ok (w, .ok (r == .ne))
  else compareLoop env s r 0 w.cells.head? ys w

/-! ### Methods for the code of the elements -/

/-- `l[i]` (ObjectArrayList.cpp 449-466, ObjectLinkedList.cpp 411-433): the result is dropped again at once. -/
def read (i : Nat) (w : World) : Except UB World :=
  match w.cells[i]? with
  | none => .ok w          -- IndexError, which `__del__` swallows
  | some a =>
    match w.mem a with
    | some (some _) => .ok w
    | some none => .error .nullDeref
    | none => .error .useAfterFree

/-- `l.append(x)` (ObjectArrayList.cpp 182-192, ObjectLinkedList.cpp 133-144): a full vector moves to a new block, here of
twice the size. -/
def append (s : Shape) (x : Nat) (w : World) : Except UB World :=
  match s with
  | .linked =>
    .ok { w with
      cells := w.cells ++ [w.fresh]
      mem := put w.mem w.fresh (some (some x))
      fresh := w.fresh + 1
      held := put w.held x (w.held x + 1) }
  | .array =>
    if w.spare = 0 then
      let cells := (List.range (w.cells.length + 1)).map (w.fresh + ·)
      .ok { w with
        cells := cells
        mem := fill (fun a => if a ∈ w.cells then none else w.mem a) cells (w.cells.map w.mem ++ [some (some x)])
        fresh := w.fresh + 2 * w.cells.length + 2
        spare := w.cells.length + 1
        held := put w.held x (w.held x + 1) }
    else
      .ok { w with
        cells := w.cells ++ [w.fresh]
        mem := put w.mem w.fresh (some (some x))
        fresh := w.fresh + 1
        spare := w.spare - 1
        held := put w.held x (w.held x + 1) }

/-- A list at rest, with the elements `xs`: no null pointers, and the references that belong to it. Scaffolding of
the model, no code of /repo. -/
structure AtRest (w : World) (xs : List Nat) : Prop where
  mem : w.cells.map w.mem = xs.map fun x => some (some x)
  nodup : w.cells.Nodup
  low : ∀ a ∈ w.cells, a < w.fresh
  held : ∀ x, w.held x = xs.count x

/-- `__del__` that does not touch the list. Scaffolding of the model, no code of /repo. -/
def away (f : Nat → Effect) : Nat → World → Except UB World := fun x w => .ok { w with ext := f x w.ext }

end Verif.Elems
