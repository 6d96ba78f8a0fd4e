import Verif.Model.ObjArrayList
import Verif.Model.StdList

/-!
# ObjectLinkedList

Model of objects/ObjectLinkedList.cpp: a `std::list<PyObject *>` with node identities and the reference counts.
`strict` selects how a range insertion of a list into itself is read (see `Model/IntLinkedList.lean`).
-/

namespace Verif

/-- Contents, `modCount` and reference counts. (ObjectLinkedList.h: `list`, `modCount`.) -/
structure OLState where
  list : LState Obj
  heap : Heap

/-- Outcomes of a call. Scaffolding of the model, no code of /repo. -/
abbrev OLOut := Out OLState OVal

namespace ObjLinked

open ArrayList (findFrom)

/-- Contents. Scaffolding of the model, no code of /repo. -/
def vec (s : OLState) : List Obj := s.list.vals

/-- `push_back` of every item an iterator yields, stealing the reference (ObjectLinkedList.cpp 67-69, 181-188,
633-642). -/
def pushNew : List Obj → OLState → OLState
  | [], s => s
  | o :: os, s => pushNew os ⟨s.list.push o, s.heap.gain o⟩

/-- ObjectLinkedList.cpp 23-81, constructor; a list of the same class is copied without `Py_INCREF` (39-43). -/
def init (h : Heap) (src : Option OSrc) : Out OLState Unit :=
  let mk (l : List Obj) (h : Heap) : OLState := ⟨LState.pushAll ⟨[], 0, 0⟩ l, h⟩
  match src with
  | none => .ok (mk [] h) ()
  | some (.same v) => .ok (mk v h) ()
  | some .self => .ok (mk [] h) ()
  | some (.list xs) | some (.tuple xs) => withHeap (h.increfs xs) fun h => .ok (mk xs h) ()
  | some (.seq xs) | some (.seqNoLen xs) => .ok (pushNew xs (mk [] h)) ()
  | some (.iter xs f) =>
    match f with
    | none => .ok (pushNew xs (mk [] h)) ()
    | some e => .exc (pushNew xs (mk [] h)) e
  | some .notIterable => .exc (mk [] h) .typeError

/-- ObjectLinkedList.cpp 83-89, destructor. -/
def dealloc (s : OLState) : Except UB Heap := s.heap.decrefs (vec s)

/-- ObjectLinkedList.cpp 91-111, `to_list`. -/
def toList (s : OLState) : OLOut := withHeap (s.heap.increfs (vec s)) fun h => .ok ⟨s.list, h⟩ (.list (vec s))

/-- ObjectLinkedList.cpp 113-131, `copy`. -/
def copy (s : OLState) : OLOut := withHeap (s.heap.increfs (vec s)) fun h => .ok ⟨s.list, h⟩ (.newList (vec s))

/-- ObjectLinkedList.cpp 133-151, `append`. -/
def append (s : OLState) (o : Obj) : OLOut :=
  withHeap (s.heap.incref o) fun h => .ok ⟨(s.list.push o).bump, h⟩ .none

/-- Generic part of `extend` (173-199, `bump`) and `+=` (627-653). -/
def extendIter (bump : Bool) (s : OLState) (xs : List Obj) (f : Option Exc) (r : OVal) : OLOut :=
  let s' := pushNew xs s
  let s' : OLState := if bump then ⟨s'.list.bump, s'.heap⟩ else s'
  match f with
  | none => .ok s' r
  | some e => .exc s' e

/-- ObjectLinkedList.cpp 153-200, `extend`. The references are counted after the insertion over the operand
(165-168): for `l.extend(l)` over the doubled list. -/
def extend (strict : Bool) (s : OLState) (src : OSrc) : OLOut :=
  match src with
  | .same v => withHeap (s.heap.increfs v) fun h => .ok ⟨(s.list.pushAll v).bump, h⟩ .none
  | .self =>
    if strict then .ub .badIterator
    else withHeap (s.heap.increfs (vec s ++ vec s)) fun h => .ok ⟨(s.list.pushAll (vec s)).bump, h⟩ .none
  | .list xs | .tuple xs | .seq xs | .seqNoLen xs => extendIter true s xs none .none
  | .iter xs f => extendIter true s xs f .none
  | .notIterable => .exc s .typeError

/-- ObjectLinkedList.cpp 614-654, `+=`: no `modCount++`; the same-class path returns None (623). -/
def iadd (strict : Bool) (s : OLState) (src : OSrc) : OLOut :=
  match src with
  | .same v => withHeap (s.heap.increfs v) fun h => .ok ⟨s.list.pushAll v, h⟩ .none
  | .self =>
    withHeap (s.heap.increfs (vec s)) fun h =>
      if strict then .ub .badIterator else .ok ⟨s.list.pushAll (vec s), h⟩ .none
  | .list xs | .tuple xs | .seq xs | .seqNoLen xs => extendIter false s xs none .self
  | .iter xs f => extendIter false s xs f .self
  | .notIterable => .exc s .typeError

/-- ObjectLinkedList.cpp 203-242, `pop`. With an index the node is erased before its value is read (238-241). -/
def pop (s : OLState) (a : Option Arg) : OLOut :=
  match (vec s).getLast? with
  | none => .exc s .indexError
  | some last =>
    match a with
    | none => .ok ⟨(s.list.erase (s.list.size - 1)).bump, s.heap⟩ (.obj last)
    | some a =>
      match asSsize a with
      | (_, some e) => .exc s e
      | (i, none) =>
        let i := if i < 0 then i + s.list.size else i
        if i < 0 ∨ i ≥ s.list.size then .exc s .indexError
        else
          match listAt s.list.size i.toNat with
          | .error u => .ub u
          | .ok p => if p < s.list.size then .ub .useAfterFree else .ub .badIterator

/-- ObjectLinkedList.cpp 244-284, `index`: pointer comparison. -/
def index (s : OLState) (o : Obj) (start stop : Option Arg) : OLOut :=
  let n : Int := s.list.size
  let get (x : Option Arg) (d : Int) : CRes := match x with | none => (d, none) | some a => parseN a
  match get start 0, get stop n with
  | (_, some e), _ => .exc s e
  | (_, none), (_, some e) => .exc s e
  | (start, none), (stop, none) =>
    let start := if start < 0 then start + n else start
    let stop := if stop < 0 then stop + n else stop
    let start := if start < 0 then 0 else start
    let stop := if stop > n then n else stop
    if start > stop then .exc s .valueError
    else
      match listAt s.list.size stop.toNat, listAt s.list.size start.toNat with
      | .ok q, .ok p =>
        if q < p then .ub .badIterator
        else
          match findFrom (vec s) p q o with
          | none => .exc s .valueError
          | some k => .ok s (.int k)
      | .error u, _ => .ub u
      | _, .error u => .ub u

/-- ObjectLinkedList.cpp 286-297, `count`. -/
def count (s : OLState) (o : Obj) : OLOut := .ok s (.int ((vec s).count o))

/-- ObjectLinkedList.cpp 299-328, `insert`. -/
def insert (s : OLState) (i : Arg) (o : Obj) : OLOut :=
  match parseN i with
  | (_, some e) => .exc s e
  | (i, none) =>
    let n : Int := s.list.size
    let i := if i < 0 then max 0 (n + i) else if i > n then n else i
    match listAt s.list.size i.toNat with
    | .error u => .ub u
    | .ok p => withHeap (s.heap.incref o) fun h => .ok ⟨(s.list.insert p o).bump, h⟩ .none

/-- ObjectLinkedList.cpp 330-355, `remove`. -/
def remove (s : OLState) (o : Obj) : OLOut :=
  match findFrom (vec s) 0 s.list.size o with
  | none => .exc s .valueError
  | some k => withHeap (s.heap.decref o) fun h => .ok ⟨(s.list.erase k).bump, h⟩ .none

/-- `*at(list, i)`. (ObjectLinkedList.cpp 238, 274.) -/
def deref (s : LState Obj) (i : Nat) : Except UB Obj :=
  match listAt s.size i with
  | .error u => .error u
  | .ok p =>
    match s.vals[p]? with
    | none => .error .outOfBounds
    | some v => .ok v

/-- ObjectLinkedList.cpp 411-433, `sq_item`. -/
def getItem (s : OLState) (i : Int) : OLOut :=
  let i := if i < 0 then s.list.size + i else i
  if i < 0 ∨ i ≥ s.list.size then .exc s .indexError
  else
    match deref s.list i.toNat with
    | .error u => .ub u
    | .ok o => withHeap (s.heap.incref o) fun h => .ok ⟨s.list, h⟩ (.obj o)

/-- Item loop of `getitem_slice` (458-467). -/
def sliceLoop (s : LState Obj) (start step : Int) : Nat → Nat → Except UB (List Obj)
  | 0, _ => .ok []
  | n + 1, i =>
    let idx := start + i * step
    if idx < 0 then .error .outOfBounds
    else
      match deref s idx.toNat with
      | .error u => .error u
      | .ok v =>
        match sliceLoop s start step n (i + 1) with
        | .ok r => .ok (v :: r)
        | .error u => .error u

/-- ObjectLinkedList.cpp 435-469, `mp_subscript`. -/
def subscript (s : OLState) (k : Key) : OLOut :=
  match k with
  | .idx .other => .ub .typeConfusion
  | .idx a =>
    match asSsizeIndex a with
    | (_, some e) => .exc s e
    | (i, none) => getItem s i
  | .slice sl =>
    match sliceUnpack sl with
    | .error e => .exc s e
    | .ok (start, stop, step) =>
      let (start, _, n) := adjustIndices s.list.size start stop step
      match sliceLoop s.list start step n.toNat 0 with
      | .error u => .ub u
      | .ok r => withHeap (s.heap.increfs r) fun h => .ok ⟨s.list, h⟩ (.list r)

/-- ObjectLinkedList.cpp 471-503, `sq_ass_item` (`none` = delete): no `modCount++`; the overwritten element is not
`DECREF`ed. -/
def setItem (s : OLState) (i : Int) (v : Option Obj) : OLOut :=
  let i := if i < 0 then s.list.size + i else i
  if i < 0 ∨ i ≥ s.list.size then .exc s .indexError
  else
    match listAt s.list.size i.toNat with
    | .error u => .ub u
    | .ok p =>
      match (vec s)[p]? with
      | none => .ub .badIterator
      | some old =>
        match v with
        | none => withHeap (s.heap.decref old) fun h => .ok ⟨s.list.erase p, h⟩ .none
        | some o => withHeap (s.heap.incref o) fun h => .ok ⟨s.list.assign p o, h⟩ .none

/-! ### Slice assignment -/

/-- Shrinking loop (537-540): release and erase `n` nodes from position `p` on. -/
def shrink (p : Nat) : Nat → OLState → Except UB OLState
  | 0, s => .ok s
  | n + 1, s =>
    match (vec s)[p]? with
    | none => .error .badIterator
    | some d =>
      match s.heap.decref d with
      | .error u => .error u
      | .ok h => shrink p n ⟨s.list.erase p, h⟩

/-- Growing loop (543-550): items `i`, `i + 1`, … are inserted before position `p`, `p + 1`, …; the value is read
through `PySequence_GetItem`, on the current contents when it is the list itself. -/
def grow (src : OSrc) : Nat → Nat → Nat → OLState → Except UB OLState
  | 0, _, _, s => .ok s
  | n + 1, i, p, s =>
    match (src.elems (vec s))[i]? with
    | none => .error .outOfBounds
    | some o =>
      if p ≤ s.list.size then grow src n (i + 1) (p + 1) ⟨s.list.insert p o, s.heap.gain o⟩
      else .error .badIterator

/-- Overwriting loop (553-566); a negative index becomes a huge `size_t`, i.e. `end()`. -/
def overwrite (src : OSrc) (start step : Int) : Nat → Nat → OLState → Except UB OLState
  | 0, _, s => .ok s
  | n + 1, i, s =>
    let idx := start + i * step
    match (src.elems (vec s))[i]? with
    | none => .error .outOfBounds
    | some o =>
      if idx < 0 then .error .outOfBounds
      else
        match listAt s.list.size idx.toNat with
        | .error u => .error u
        | .ok p =>
          match (vec s)[p]? with
          | none => .error .outOfBounds
          | some d =>
            match (s.heap.gain o).decref d with
            | .error u => .error u
            | .ok h => overwrite src start step n (i + 1) ⟨s.list.assign p o, h⟩

/-- ObjectLinkedList.cpp 534-566: shrink or grow, then overwrite. -/
def replace (src : OSrc) (start stop step n m : Int) (s : OLState) : Except UB OLState :=
  let at' (i : Int) : Except UB Nat := if i < 0 then .ok s.list.size else listAt s.list.size i.toNat
  let mid : Except UB OLState :=
    if m < n then
      match at' (start + m * step) with
      | .error u => .error u
      | .ok p => shrink p (n - m).toNat s
    else if n < m then
      match at' stop with
      | .error u => .error u
      | .ok p => grow src (m - n).toNat n.toNat p s
    else .ok s
  match mid with
  | .error u => .error u
  | .ok s => overwrite src start step m.toNat 0 s

/-- ObjectLinkedList.cpp 506-573, `mp_ass_subscript` with a slice and a value: every step is accepted, nothing
touches `modCount`. -/
def setSlice (s : OLState) (sl : SliceArg) (src : OSrc) : OLOut :=
  match sliceUnpack sl with
  | .error e => .exc s e
  | .ok (start, stop, step) =>
    let (start, stop, n) := adjustIndices s.list.size start stop step
    if !src.isSequence then .exc s .typeError
    else if src.size (vec s) < 0 then .exc s .typeError
    else
      match replace src start stop step n (src.size (vec s)) s with
      | .error u => .ub u
      | .ok s => .ok s .none

/-- Deletion through `mp_ass_subscript`: with a slice `PySequence_Check(NULL)` (524). -/
def del (s : OLState) (k : Key) : OLOut :=
  match k with
  | .idx .other => .ub .typeConfusion
  | .idx a =>
    match asSsizeIndex a with
    | (_, some e) => .exc s e
    | (i, none) => setItem s i none
  | .slice sl =>
    match sliceUnpack sl with
    | .error e => .exc s e
    | .ok _ => .ub .nullDeref

/-- Item assignment through `mp_ass_subscript` (506-513). -/
def setIdx (s : OLState) (a : Arg) (o : Obj) : OLOut :=
  match a with
  | .other => .ub .typeConfusion
  | a =>
    match asSsizeIndex a with
    | (_, some e) => .exc s e
    | (i, none) => setItem s i (some o)

/-! ### Arithmetic -/

/-- ObjectLinkedList.cpp 575-612, `+`. -/
def add (s : OLState) (src : OSrc) : OLOut :=
  match src with
  | .same _ | .self => .exc s .memoryError
  | .list xs =>
    withHeap (s.heap.increfs (vec s)) fun h =>
    withHeap (h.increfs (vec s ++ xs)) fun h =>
    withHeap (h.decrefs (vec s)) fun h => .ok ⟨s.list, h⟩ (.list (vec s ++ xs))
  | _ =>
    withHeap (s.heap.increfs (vec s)) fun h =>
    withHeap (h.decrefs (vec s)) fun h => .exc ⟨s.list, h⟩ .typeError

/-- ObjectLinkedList.cpp 657-687, `*`. -/
def mul (s : OLState) (n : Int) : OLOut :=
  let n := if n < 0 then 0 else n
  if n = 0 then .ok s (.newList [])
  else
    match ObjArray.mulLoop (vec s) n.toNat [] s.heap with
    | .error u => .ub u
    | .ok (r, h) => .ok ⟨s.list, h⟩ (.newList r)

/-- `l.__rmul__(a)`. The type has `sq_repeat` (`*`), for which CPython makes a method `__rmul__` before it looks at the
method table; as METH_COEXIST is not set, the entry for ObjectLinkedList.cpp 689-701 is skipped. The made method passes
`PyNumber_AsSsize_t(a, PyExc_OverflowError)`. -/
def rmul (s : OLState) (a : Arg) : OLOut :=
  match asLong a with
  | (_, some e) => .exc s e
  | (n, none) => mul s n

/-- Inner loop of `*=` (718-722): `push_back(*iter)` for `size` steps from position `j`. -/
def imulInner : Nat → Nat → OLState → Except UB OLState
  | 0, _, s => .ok s
  | n + 1, j, s =>
    match (vec s)[j]? with
    | none => .error .badIterator
    | some o =>
      match s.heap.incref o with
      | .error u => .error u
      | .ok h => imulInner n (j + 1) ⟨s.list.push o, h⟩

/-- Outer loop of `*=` (716-723). -/
def imulOuter (size : Nat) : Nat → OLState → Except UB OLState
  | 0, s => .ok s
  | k + 1, s =>
    match imulInner size 0 s with
    | .error u => .error u
    | .ok s => imulOuter size k s

/-- ObjectLinkedList.cpp 703-730, `*=`; with `n <= 0` the elements are not `DECREF`ed (712). -/
def imul (s : OLState) (n : Int) : OLOut :=
  let n := if n < 0 then 0 else n
  if n = 0 then .ok ⟨s.list.clear, s.heap⟩ .self
  else
    match imulOuter s.list.size (n.toNat - 1) s with
    | .error u => .ub u
    | .ok s => .ok s .self

/-- ObjectLinkedList.cpp 732-751, `in`. -/
def contains (H : OHost) (s : OLState) (o : Obj) : OLOut :=
  if H.isInt o then .ok s (.bool (findFrom (vec s) 0 s.list.size o).isSome) else .ok s (.bool false)

/-- ObjectLinkedList.cpp 770-778, `clear`. -/
def clear (s : OLState) : OLOut := withHeap (s.heap.decrefs (vec s)) fun h => .ok ⟨s.list.clear, h⟩ .none

/-- ObjectLinkedList.cpp 780-1002, comparisons: the same code as in ObjectArrayList.cpp, walking the nodes. -/
def compare (H : OHost) (op : CmpOp) (s : OLState) (src : OSrc) : OLOut :=
  match ObjArray.compare H op ⟨vec s, s.heap⟩ src with
  | .ok s' r => .ok ⟨s.list, s'.heap⟩ r
  | .exc s' e => .exc ⟨s.list, s'.heap⟩ e
  | .pending s' r e => .pending ⟨s.list, s'.heap⟩ r e
  | .ub u => .ub u

/-- Dispatch (methods 1048-1067, slots 1077-1096). There is no `resize`: AttributeError, written `typeError`. -/
def step (H : OHost) (strict : Bool) (s : OLState) : OOp → OLOut
  | .append o => append s o
  | .extend src => extend strict s src
  | .insert i o => insert s i o
  | .pop i => pop s i
  | .remove o => remove s o
  | .index o i j => index s o i j
  | .count o => count s o
  | .contains o => contains H s o
  | .get k => subscript s k
  | .setItem i o => setIdx s i o
  | .setSlice sl src => setSlice s sl src
  | .del k => del s k
  | .iadd src => iadd strict s src
  | .add src => add s src
  | .mul n => mul s n
  | .rmul a => rmul s a
  | .imul n => imul s n
  | .cmp op src => compare H op s src
  | .reverse => .ok ⟨s.list.reverse, s.heap⟩ .none
  | .resize _ => .exc s .typeError
  | .clear => clear s
  | .copy => copy s
  | .toList => toList s
  | .len => .ok s (.int s.list.size)

/-- Outcomes of a history; it ends at undefined behaviour. Scaffolding of the model, no code of /repo. -/
def run (H : OHost) (strict : Bool) (s : OLState) : List OOp → List OLOut
  | [] => []
  | op :: ops =>
    match step H strict s op with
    | .ok s' r => .ok s' r :: run H strict s' ops
    | .exc s' e => .exc s' e :: run H strict s' ops
    | o => [o]

/-- State after calls and releases by the client; `none` after undefined behaviour. Scaffolding of the model, no code
of /repo. -/
def play (H : OHost) (strict : Bool) (s : OLState) : List OEvent → Option OLState
  | [] => some s
  | .call op :: es =>
    match step H strict s op with
    | .ok s' _ | .exc s' _ | .pending s' _ _ => play H strict s' es
    | .ub _ => none
  | .drop o :: es =>
    match s.heap.decref o with
    | .ok h => play H strict ⟨s.list, h⟩ es
    | .error _ => none

end ObjLinked
end Verif
