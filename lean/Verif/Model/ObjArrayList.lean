import Verif.Model.Heap
import Verif.Model.IntArrayList

/-!
# ObjectArrayList

Model of objects/ObjectArrayList.cpp: a `std::vector<PyObject *>` together with the reference counts the
methods change. The list's own reference count is not tracked. `fast_memcpy` on distinct blocks is a plain copy
(C38). Allocation succeeds. Between two calls every element is a non-null pointer; where the code leaves a null
pointer in the vector the outcome is `nullDeref`.
-/

namespace Verif

/-- Contents and reference counts. (ObjectArrayList.h: `vector`.) -/
structure OState where
  vec : List Obj
  heap : Heap

/-- Outcomes of a call. Scaffolding of the model, no code of /repo. -/
abbrev OOut := Out OState OVal

/-- `PyObject_RichCompareBool`: identical objects are equal without asking them. (CPython; called at
ObjectArrayList.cpp 895, 926, 963, 997, 1031, 1065.) -/
def OHost.richBool (H : OHost) (op : CmpOp) (x y : Obj) : Except Exc Bool :=
  if x = y then
    match op with
    | .eq => .ok true
    | .ne => .ok false
    | op => H.rich op x y
  else H.rich op x y

/-- `PySequence_Check`. (CPython; called at ObjectArrayList.cpp 551, 879, 912.) -/
def OSrc.isSequence : OSrc → Bool
  | .same _ | .self | .list _ | .tuple _ | .seq _ | .seqNoLen _ => true
  | .iter _ _ | .notIterable => false

/-- `PySequence_Size(value)`, -1 without `__len__`; `cur` are the contents of the list itself. (CPython; called at
ObjectArrayList.cpp 556, 882, 916.) -/
def OSrc.size (cur : List Obj) : OSrc → Int
  | .same v => v.length
  | .self => cur.length
  | .list xs | .tuple xs | .seq xs => xs.length
  | .seqNoLen _ | .iter _ _ | .notIterable => -1

/-- Items by position (`PySequence_GetItem`). (CPython; called at ObjectArrayList.cpp 578, 642, 887.) -/
def OSrc.elems (cur : List Obj) : OSrc → List Obj
  | .same v => v
  | .self => cur
  | .list xs | .tuple xs | .seq xs | .seqNoLen xs | .iter xs _ => xs
  | .notIterable => []

namespace ObjArray

open ArrayList (findFrom sliceLoop)

/-! ## Construction and destruction -/

/-- `push_back` of every item an iterator yields; the new reference is stolen by the vector
(ObjectArrayList.cpp 88-90, 244-251, 724-733). -/
def pushNew : List Obj → OState → OState
  | [], s => s
  | o :: os, s => pushNew os ⟨s.vec ++ [o], s.heap.gain o⟩

/-- ObjectArrayList.cpp 42-101, constructor with an iterable (`none` = no argument, or a capacity). A list of the
same class is copied without `Py_INCREF` (57-61). -/
def init (h : Heap) (src : Option OSrc) : Out OState Unit :=
  match src with
  | none => .ok ⟨[], h⟩ ()
  | some (.same v) => .ok ⟨v, h⟩ ()                                          -- 57-61
  | some .self => .ok ⟨[], h⟩ ()                                             -- not possible for a new object
  | some (.list xs) | some (.tuple xs) => withHeap (h.increfs xs) fun h => .ok ⟨xs, h⟩ ()   -- 63-79
  | some (.seq xs) | some (.seqNoLen xs) => .ok (pushNew xs ⟨[], h⟩) ()      -- 81-92
  | some (.iter xs f) =>
    match f with
    | none => .ok (pushNew xs ⟨[], h⟩) ()
    | some e => .exc (pushNew xs ⟨[], h⟩) e
  | some .notIterable => .exc ⟨[], h⟩ .typeError                             -- 82-85

/-- ObjectArrayList.cpp 103-109, destructor. -/
def dealloc (s : OState) : Except UB Heap := s.heap.decrefs s.vec

/-! ## Methods -/

/-- ObjectArrayList.cpp 111-143, `resize`: new slots hold `None` without `Py_INCREF`, dropped slots are not
`DECREF`ed. -/
def resize (H : OHost) (s : OState) (a : Arg) : OOut :=
  match a with
  | .int v =>
    let n := (asSsize (.int v)).1
    if n < 0 then .exc s .valueError
    else .ok ⟨s.vec.take n.toNat ++ List.replicate (n.toNat - s.vec.length) H.none, s.heap⟩ .none
  | _ => .exc s .typeError

/-- ObjectArrayList.cpp 145-160, `to_list`. -/
def toList (s : OState) : OOut := withHeap (s.heap.increfs s.vec) fun h => .ok ⟨s.vec, h⟩ (.list s.vec)

/-- ObjectArrayList.cpp 162-180, `copy`. -/
def copy (s : OState) : OOut := withHeap (s.heap.increfs s.vec) fun h => .ok ⟨s.vec, h⟩ (.newList s.vec)

/-- ObjectArrayList.cpp 182-199, `append`. -/
def append (s : OState) (o : Obj) : OOut := withHeap (s.heap.incref o) fun h => .ok ⟨s.vec ++ [o], h⟩ .none

/-- Generic part of `extend` (229-261) and `+=` (710-742). -/
def extendIter (s : OState) (xs : List Obj) (f : Option Exc) (r : OVal) : OOut :=
  match f with
  | none => .ok (pushNew xs s) r
  | some e => .exc (pushNew xs s) e

/-- ObjectArrayList.cpp 201-262, `extend`. `l.extend(l)` calls `vector.insert(end, first, last)` with iterators
into the vector itself (214), which the C++ standard forbids. -/
def extend (s : OState) (src : OSrc) : OOut :=
  match src with
  | .same v => withHeap (s.heap.increfs v) fun h => .ok ⟨s.vec ++ v, h⟩ .none           -- 212-219
  | .self => .ub .badIterator
  | .list xs => withHeap (s.heap.increfs xs) fun h => .ok ⟨s.vec ++ xs, h⟩ .none        -- 221-229
  | .tuple xs | .seq xs | .seqNoLen xs => extendIter s xs none .none
  | .iter xs f => extendIter s xs f .none
  | .notIterable => .exc s .typeError

/-- ObjectArrayList.cpp 697-743, `+=`: the same-class path returns None (707). -/
def iadd (s : OState) (src : OSrc) : OOut :=
  match src with
  | .same v => withHeap (s.heap.increfs v) fun h => .ok ⟨s.vec ++ v, h⟩ .none
  | .self => withHeap (s.heap.increfs s.vec) fun _ => .ub .badIterator
  | .list xs | .tuple xs | .seq xs | .seqNoLen xs => extendIter s xs none .self
  | .iter xs f => extendIter s xs f .self
  | .notIterable => .exc s .typeError

/-- ObjectArrayList.cpp 265-304, `pop`: the list's reference passes to the caller. -/
def pop (s : OState) (a : Option Arg) : OOut :=
  match s.vec.getLast? with
  | none => .exc s .indexError
  | some last =>
    match a with
    | none => .ok ⟨s.vec.dropLast, s.heap⟩ (.obj last)
    | some a =>
      match asSsize a with
      | (_, some e) => .exc s e
      | (i, none) =>
        let i := if i < 0 then i + s.vec.length else i
        if i < 0 ∨ i ≥ s.vec.length then .exc s .indexError
        else
          match s.vec[i.toNat]? with
          | none => .ub .outOfBounds
          | some o => .ok ⟨s.vec.eraseIdx i.toNat, s.heap⟩ (.obj o)

/-- ObjectArrayList.cpp 306-345, `index`: pointer comparison. -/
def index (s : OState) (o : Obj) (start stop : Option Arg) : OOut :=
  let n : Int := s.vec.length
  let get (x : Option Arg) (d : Int) : CRes := match x with | none => (d, none) | some a => parseN a
  match get start 0, get stop n with
  | (_, some e), _ => .exc s e
  | (_, none), (_, some e) => .exc s e
  | (start, none), (stop, none) =>
    let start := if start < 0 then start + n else start
    let stop := if stop < 0 then stop + n else stop
    let start := if start < 0 then 0 else start
    let stop := if stop > n then n else stop
    if start > stop then .exc s .valueError
    else if stop < 0 then .ub .badIterator
    else
      match findFrom s.vec start.toNat stop.toNat o with
      | none => .exc s .valueError
      | some k => .ok s (.int k)

/-- ObjectArrayList.cpp 347-358, `count`: pointer comparison. -/
def count (s : OState) (o : Obj) : OOut := .ok s (.int (s.vec.count o))

/-- ObjectArrayList.cpp 360-388, `insert`. -/
def insert (s : OState) (i : Arg) (o : Obj) : OOut :=
  match parseN i with
  | (_, some e) => .exc s e
  | (i, none) =>
    let n : Int := s.vec.length
    let i := if i < 0 then max 0 (n + i) else if i > n then n else i
    if 0 ≤ i ∧ i ≤ n then
      withHeap (s.heap.incref o) fun h => .ok ⟨s.vec.take i.toNat ++ o :: s.vec.drop i.toNat, h⟩ .none
    else .ub .badIterator

/-- ObjectArrayList.cpp 390-415, `remove`: pointer comparison. -/
def remove (s : OState) (o : Obj) : OOut :=
  match findFrom s.vec 0 s.vec.length o with
  | none => .exc s .valueError
  | some k => withHeap (s.heap.decref o) fun h => .ok ⟨s.vec.eraseIdx k, h⟩ .none

/-- ObjectArrayList.cpp 449-466, `sq_item`. -/
def getItem (s : OState) (i : Int) : OOut :=
  let i := if i < 0 then s.vec.length + i else i
  if i < 0 ∨ i ≥ s.vec.length then .exc s .indexError
  else
    match s.vec[i.toNat]? with
    | none => .ub .outOfBounds
    | some o => withHeap (s.heap.incref o) fun h => .ok ⟨s.vec, h⟩ (.obj o)

/-- ObjectArrayList.cpp 468-498, `mp_subscript` (see `ArrayList.subscript` for the unchecked
`PySlice_Unpack`). -/
def subscript (s : OState) (k : Key) : OOut :=
  match k with
  | .idx .other => .ub .typeConfusion
  | .idx a =>
    match asSsizeIndex a with
    | (_, some e) => .exc s e
    | (i, none) => getItem s i
  | .slice sl =>
    match sliceUnpack sl with
    | .error e => .exc s e
    | .ok (start, stop, step) =>
      let (start, _, n) := adjustIndices s.vec.length start stop step
      match sliceLoop s.vec start step n.toNat 0 with
      | .error u => .ub u
      | .ok r => withHeap (s.heap.increfs r) fun h => .ok ⟨s.vec, h⟩ (.list r)

/-- ObjectArrayList.cpp 500-531, `sq_ass_item` (`none` = delete): the overwritten element is not `DECREF`ed. -/
def setItem (s : OState) (i : Int) (v : Option Obj) : OOut :=
  let i := if i < 0 then s.vec.length + i else i
  if i < 0 ∨ i ≥ s.vec.length then .exc s .indexError
  else
    match s.vec[i.toNat]? with
    | none => .ub .outOfBounds
    | some old =>
      match v with
      | none => withHeap (s.heap.decref old) fun h => .ok ⟨s.vec.eraseIdx i.toNat, h⟩ .none
      | some o => withHeap (s.heap.incref o) fun h => .ok ⟨s.vec.set i.toNat o, h⟩ .none

/-! ### Slice assignment

`SAFE_DECREF(slot)` sets the slot to null, so the vector is a list of possibly null pointers here. -/

/-- The vector while slots are being replaced (ObjectArrayList.cpp 564-650): null where an element was dropped. -/
abbrev Slots := List (Option Obj)

/-- The memory `src` points to: the vector itself when the value is the list. (ObjectArrayList.cpp 564-572.) -/
def srcSlots (src : OSrc) (slots : Slots) : Slots :=
  match src with
  | .self => slots
  | src => (src.elems []).map some

/-- First loop of `fastCopy` (568-571): `SAFE_DECREF(dest[i]); Py_INCREF(src[i]);`. -/
def swapRefs (src : OSrc) (start : Nat) : Nat → Nat → Slots → Heap → Except UB (Slots × Heap)
  | 0, _, v, h => .ok (v, h)
  | n + 1, i, v, h =>
    match v[start + i]? with
    | none => .error .outOfBounds
    | some none => .error .nullDeref
    | some (some d) =>
      match h.decref d with
      | .error u => .error u
      | .ok h =>
        match (srcSlots src (v.set (start + i) none))[i]? with
        | none => .error .outOfBounds
        | some none => .error .nullDeref
        | some (some o) =>
          match h.incref o with
          | .error u => .error u
          | .ok h => swapRefs src start n (i + 1) (v.set (start + i) none) h

/-- `fastCopy` (567-573): the loop, then the copy. When source and destination overlap the loop has already
dereferenced a null pointer. -/
def fastCopy (src : OSrc) (start n : Nat) (v : Slots) (h : Heap) : Except UB (Slots × Heap) :=
  match swapRefs src start n 0 v h with
  | .error u => .error u
  | .ok (v, h) => .ok (v.take start ++ (srcSlots src v).take n ++ v.drop (start + n), h)

/-- `genericCopy` (576-586): new reference to the item, release the slot, store. -/
def genericCopy (src : OSrc) (start : Nat) : Nat → Nat → Slots → Heap → Except UB (Slots × Heap)
  | 0, _, v, h => .ok (v, h)
  | n + 1, i, v, h =>
    match (src.elems [])[i]? with
    | none => .error .outOfBounds
    | some o =>
      match v[start + i]? with
      | none => .error .outOfBounds
      | some none => .error .nullDeref
      | some (some d) =>
        match (h.gain o).decref d with
        | .error u => .error u
        | .ok h => genericCopy src start n (i + 1) (v.set (start + i) (some o)) h

/-- The value has the type of the list or is a Python list (588-594, 600-606, 618-633). -/
def fast : OSrc → Bool
  | .same _ | .self | .list _ => true
  | _ => false

/-- The copying part of the three cases. (ObjectArrayList.cpp 564-650.) -/
def copyIn (src : OSrc) (start n : Nat) (v : Slots) (h : Heap) : Except UB (Slots × Heap) :=
  if fast src then fastCopy src start n v h else genericCopy src start n 0 v h

/-- Case 2, releasing (613-615): `for (i = newLength; i < sliceLength; i++) SAFE_DECREF(startPtr[i])`, from
slot `p` on. -/
def dropRefs (p : Nat) : Nat → Slots → Heap → Except UB (Slots × Heap)
  | 0, v, h => .ok (v, h)
  | n + 1, v, h =>
    match v[p]? with
    | none => .error .outOfBounds
    | some none => .error .nullDeref
    | some (some d) =>
      match h.decref d with
      | .error u => .error u
      | .ok h => dropRefs (p + 1) n (v.set p none) h

/-- Case 3, generic insertion (640-647), from item `i` on at slot `start + i`. -/
def insertNew (src : OSrc) (start : Nat) : Nat → Nat → Slots → Heap → Except UB (Slots × Heap)
  | 0, _, v, h => .ok (v, h)
  | n + 1, i, v, h =>
    match (src.elems [])[i]? with
    | none => .error .outOfBounds
    | some o =>
      if start + i ≤ v.length then
        insertNew src start n (i + 1) (v.take (start + i) ++ some o :: v.drop (start + i)) (h.gain o)
      else .error .badIterator

/-- All slots as objects; a null pointer left in the vector makes the list unusable. Scaffolding of the model, no
code of /repo. -/
def finishSlots (v : Slots) (h : Heap) (e : Option Exc) : OOut :=
  match v.mapM id with
  | none => .ub .nullDeref
  | some l =>
    match e with
    | none => .ok ⟨l, h⟩ .none
    | some e => .pending ⟨l, h⟩ .none e

/-- Cases 1 to 3 (587-650) for a slice of `n` elements from `start` to `stop` and a value of size `m` (`-1`, with
TypeError set, for a sequence without length). -/
def replace (src : OSrc) (start stop n m : Int) (s : OState) : OOut :=
  let v := s.vec.map some
  if m = n then
    match copyIn src start.toNat n.toNat v s.heap with
    | .error u => .ub u
    | .ok (v, h) => finishSlots v h none
  else if m < n then
    match copyIn src start.toNat m.toNat v s.heap with
    | .error u => .ub u
    | .ok (v, h) =>
      if start + m < 0 then .ub .outOfBounds
      else
        match dropRefs (start + m).toNat (n - m).toNat v h with
        | .error u => .ub u
        | .ok (v, h) =>
          if start + m ≤ stop ∧ stop ≤ v.length then
            finishSlots (v.take (start + m).toNat ++ v.drop stop.toNat) h (if m < 0 then some .typeError else none)
          else .ub .badIterator
  else
    match copyIn src start.toNat n.toNat v s.heap with
    | .error u => .ub u
    | .ok (v, h) =>
      if fast src then
        if src = .self then .ub .badIterator
        else if (start + n).toNat ≤ v.length then
          finishSlots (v.take (start + n).toNat ++ ((srcSlots src v).take m.toNat).drop n.toNat ++
            v.drop (start + n).toNat) h none
        else .ub .badIterator
      else
        match insertNew src start.toNat (m - n).toNat n.toNat v h with
        | .error u => .ub u
        | .ok (v, h) => finishSlots v h none

/-- ObjectArrayList.cpp 533-656, `mp_ass_subscript` with a slice and a value. -/
def setSlice (s : OState) (sl : SliceArg) (src : OSrc) : OOut :=
  match sliceUnpack sl with
  | .error e => .exc s e
  | .ok (start, stop, step) =>
    let (start, stop, n) := adjustIndices s.vec.length start stop step
    if !src.isSequence then .exc s .typeError
    else if step ≠ 1 then .exc s .notImplementedError
    else replace src start stop n (src.size s.vec) s

/-- Deletion through `mp_ass_subscript`: with a slice `PySequence_Check(NULL)` (550). -/
def del (s : OState) (k : Key) : OOut :=
  match k with
  | .idx .other => .ub .typeConfusion
  | .idx a =>
    match asSsizeIndex a with
    | (_, some e) => .exc s e
    | (i, none) => setItem s i none
  | .slice sl =>
    match sliceUnpack sl with
    | .error e => .exc s e
    | .ok _ => .ub .nullDeref

/-- Item assignment through `mp_ass_subscript` (533-540). -/
def setIdx (s : OState) (a : Arg) (o : Obj) : OOut :=
  match a with
  | .other => .ub .typeConfusion
  | a =>
    match asSsizeIndex a with
    | (_, some e) => .exc s e
    | (i, none) => setItem s i (some o)

/-! ### Arithmetic -/

/-- ObjectArrayList.cpp 658-695, `+` (see `ArrayList.add` for `Py_CreateObj`): a temporary Python list is built,
concatenated and released. -/
def add (s : OState) (src : OSrc) : OOut :=
  match src with
  | .same _ | .self => .exc s .memoryError
  | .list xs =>
    withHeap (s.heap.increfs s.vec) fun h =>
    withHeap (h.increfs (s.vec ++ xs)) fun h =>
    withHeap (h.decrefs s.vec) fun h => .ok ⟨s.vec, h⟩ (.list (s.vec ++ xs))
  | _ =>
    withHeap (s.heap.increfs s.vec) fun h =>
    withHeap (h.decrefs s.vec) fun h => .exc ⟨s.vec, h⟩ .typeError

/-- Loop of `*` (764-770): each round appends the elements and counts a reference for each. -/
def mulLoop (l : List Obj) : Nat → List Obj → Heap → Except UB (List Obj × Heap)
  | 0, acc, h => .ok (acc, h)
  | k + 1, acc, h =>
    match h.increfs l with
    | .error u => .error u
    | .ok h => mulLoop l k (acc ++ l) h

/-- ObjectArrayList.cpp 746-779, `*`. -/
def mul (s : OState) (n : Int) : OOut :=
  let n := if n < 0 then 0 else n
  if n = 0 then .ok s (.newList [])
  else
    match mulLoop s.vec n.toNat [] s.heap with
    | .error u => .ub u
    | .ok (r, h) => .ok ⟨s.vec, h⟩ (.newList r)

/-- `l.__rmul__(a)`. The type has `sq_repeat` (`*`), for which CPython makes a method `__rmul__` before it looks at the
method table; as METH_COEXIST is not set, the entry for ObjectArrayList.cpp 781-793 is skipped. The made method passes
`PyNumber_AsSsize_t(a, PyExc_OverflowError)`. -/
def rmul (s : OState) (a : Arg) : OOut :=
  match asLong a with
  | (_, some e) => .exc s e
  | (n, none) => mul s n

/-- Inner loop of `*=` (810-813): `for (j = 0; j < vector.size(); ++j) push_back(vector[j])`; the bound is read
again in every iteration. `none` = still running after `fuel` iterations. -/
def imulInner : Nat → Nat → List Obj → Heap → Option (Except UB (List Obj × Heap))
  | 0, _, _, _ => none
  | fuel + 1, j, v, h =>
    match v[j]? with
    | none => some (.ok (v, h))
    | some o =>
      match h.incref o with
      | .error u => some (.error u)
      | .ok h => imulInner fuel (j + 1) (v ++ [o]) h

/-- Outer loop of `*=` (809-814). -/
def imulOuter (fuel : Nat) : Nat → List Obj → Heap → Option (Except UB (List Obj × Heap))
  | 0, v, h => some (.ok (v, h))
  | k + 1, v, h =>
    match imulInner fuel 0 v h with
    | some (.ok (v, h)) => imulOuter fuel k v h
    | r => r

/-- ObjectArrayList.cpp 795-823, `*=`; with `n <= 0` the elements are not `DECREF`ed (804). A call that is still
running after `fuel` iterations of the inner loop is `neverReturns`. -/
def imul (fuel : Nat) (s : OState) (n : Int) : OOut :=
  let n := if n < 0 then 0 else n
  if n = 0 then .ok ⟨[], s.heap⟩ .self
  else
    match imulOuter fuel (n.toNat - 1) s.vec s.heap with
    | none => .ub .neverReturns
    | some (.error u) => .ub u
    | some (.ok (v, h)) => .ok ⟨v, h⟩ .self

/-- ObjectArrayList.cpp 825-847, `in`: False for anything but an int, pointer comparison for ints. -/
def contains (H : OHost) (s : OState) (o : Obj) : OOut :=
  if H.isInt o then .ok s (.bool (findFrom s.vec 0 s.vec.length o).isSome) else .ok s (.bool false)

/-- A pointer in memory: byte `b` of the pointer to `o` is `(o, b)`. (The memory behind `vector.data()`,
ObjectArrayList.cpp 857-864.) -/
def toPtrs (l : List Obj) : Bytes (Obj × Nat) := fun p => (l.getD (p / 8) 0, p % 8)

/-- Every eight bytes form a pointer. Scaffolding of the model, no code of /repo. -/
def whole (n : Nat) (m : Bytes (Obj × Nat)) : Bool :=
  (List.range n).all fun i => (List.range 8).all fun b => m (i * 8 + b) == ((m (i * 8)).1, b)

/-- ObjectArrayList.cpp 857-864, `reverse`: `simdReverse` on the pointers. -/
def reverse (cfg : Cfg) (s : OState) : OOut :=
  match qReverse cfg 8 s.vec.length (toPtrs s.vec) with
  | none => .ub .outOfBounds
  | some m =>
    if whole s.vec.length m then .ok ⟨(List.range s.vec.length).map fun i => (m (i * 8)).1, s.heap⟩ .none
    else .ub .typeConfusion

/-- ObjectArrayList.cpp 866-874, `clear`. -/
def clear (s : OState) : OOut := withHeap (s.heap.decrefs s.vec) fun h => .ok ⟨[], h⟩ .none

/-! ### Comparison -/

/-- One comparison in the loops: new reference to the item, `PyObject_RichCompareBool`, release (e.g.
888-898). -/
def compare1 (H : OHost) (op : CmpOp) (x y : Obj) (h : Heap) : Except UB (Except Exc Bool × Heap) :=
  let h := h.gain y
  if h.live x then
    match h.decref y with
    | .error u => .error u
    | .ok h => .ok (H.richBool op x y, h)
  else .error .useAfterFree

/-- Loops of `==` (`stop = false`, 887-904) and `!=` (`stop = true`, 920-935): answer `stop` at the first element
whose comparison answers `stop`. -/
def eqLoop (H : OHost) (op : CmpOp) (stop : Bool) : List Obj → List Obj → OState → OOut
  | x :: xs, y :: ys, s =>
    match compare1 H op x y s.heap with
    | .error u => .ub u
    | .ok (.error e, h) => .exc ⟨s.vec, h⟩ e
    | .ok (.ok b, h) => if b = stop then .ok ⟨s.vec, h⟩ (.bool stop) else eqLoop H op stop xs ys ⟨s.vec, h⟩
  | _, _, s => .ok s (.bool (!stop))

/-- ObjectArrayList.cpp 876-938, `==` and `!=`; an answer with the TypeError of `PySequence_Size` set for a
sequence without length. -/
def eqNe (H : OHost) (op : CmpOp) (stop : Bool) (s : OState) (src : OSrc) : OOut :=
  match src with
  | .iter _ _ | .notIterable => .ok s (.bool stop)
  | .seqNoLen _ => .pending s (.bool stop) .typeError
  | src =>
    if src.size s.vec ≠ s.vec.length then .ok s (.bool stop)
    else eqLoop H op stop s.vec (src.elems s.vec) s

/-- ObjectArrayList.cpp 940-1074: `lt`, `le`, `gt`, `ge`. Different sizes: all four answer `size < other size`;
otherwise the loop returns in its first iteration. -/
def ord (H : OHost) (op : CmpOp) (s : OState) (src : OSrc) : OOut :=
  match src with
  | .iter _ _ | .notIterable => .ok s (.bool false)
  | .seqNoLen _ => .exc s .typeError
  | src =>
    if src.size s.vec ≠ s.vec.length then .ok s (.bool (decide ((s.vec.length : Int) < src.size s.vec)))
    else
      match s.vec, src.elems s.vec with
      | x :: _, y :: _ =>
        match compare1 H op x y s.heap with
        | .error u => .ub u
        | .ok (.error e, h) => .exc ⟨s.vec, h⟩ e
        | .ok (.ok b, h) => .ok ⟨s.vec, h⟩ (.bool b)
      | _, _ => .ok s (.bool false)

/-- ObjectArrayList.cpp 1076-1094, `tp_richcompare`. -/
def compare (H : OHost) (op : CmpOp) (s : OState) (src : OSrc) : OOut :=
  match op with
  | .eq => eqNe H .eq false s src
  | .ne => eqNe H .ne true s src
  | op => ord H op s src

/-! ## One step of the API -/

/-- Dispatch (methods 1139-1158, slots 1168-1187). -/
def step (cfg : Cfg) (H : OHost) (fuel : Nat) (s : OState) : OOp → OOut
  | .append o => append s o
  | .extend src => extend s src
  | .insert i o => insert s i o
  | .pop i => pop s i
  | .remove o => remove s o
  | .index o i j => index s o i j
  | .count o => count s o
  | .contains o => contains H s o
  | .get k => subscript s k
  | .setItem i o => setIdx s i o
  | .setSlice sl src => setSlice s sl src
  | .del k => del s k
  | .iadd src => iadd s src
  | .add src => add s src
  | .mul n => mul s n
  | .rmul a => rmul s a
  | .imul n => imul fuel s n
  | .cmp op src => compare H op s src
  | .reverse => reverse cfg s
  | .resize a => resize H s a
  | .clear => clear s
  | .copy => copy s
  | .toList => toList s
  | .len => .ok s (.int s.vec.length)

/-- Outcomes of a history; it ends at undefined behaviour. Scaffolding of the model, no code of /repo. -/
def run (cfg : Cfg) (H : OHost) (fuel : Nat) (s : OState) : List OOp → List OOut
  | [] => []
  | op :: ops =>
    match step cfg H fuel s op with
    | .ok s' r => .ok s' r :: run cfg H fuel s' ops
    | .exc s' e => .exc s' e :: run cfg H fuel s' ops
    | o => [o]

/-- State after calls and releases by the client; `none` after undefined behaviour. Scaffolding of the model, no code
of /repo. -/
def play (cfg : Cfg) (H : OHost) (fuel : Nat) (s : OState) : List OEvent → Option OState
  | [] => some s
  | .call op :: es =>
    match step cfg H fuel s op with
    | .ok s' _ | .exc s' _ | .pending s' _ _ => play cfg H fuel s' es
    | .ub _ => none
  | .drop o :: es =>
    match s.heap.decref o with
    | .ok h => play cfg H fuel ⟨s.vec, h⟩ es
    | .error _ => none

end ObjArray
end Verif
