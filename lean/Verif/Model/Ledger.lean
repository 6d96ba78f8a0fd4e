import Verif.Model.Heap
import Verif.Model.IntLinkedList
import Verif.VocabLedger

/-!
# The references taken and released by the int lists

The int lists keep no references to Python objects, but every call handles some: items and iterators it obtains from its
operand, objects it makes for its result, the list itself. Here the calls of ints/IntArrayList.cpp, ints/BigIntArrayList.cpp
and ints/IntLinkedList.cpp (line numbers of the first, or of the last where marked "linked") run with the reference count of
every object (Model/Heap) and with the making of new objects. What the calls do to the elements is in Model/IntArrayList and
Model/IntLinkedList.

Simplified: `None`, `True`, `False` and exceptions are not tracked; a new object gets an identity never used before; what an
iterator or sequence of Python refers to is its own matter; memory suffices; conversions of items touch no counts.
-/

namespace Verif.Ledger

/-- The counts, and the first identity that has not been used. Scaffolding of the model, no code of /repo. -/
structure Mem where
  heap : Heap
  next : Obj

/-- What is fixed during a call: the list object, and the ints the interpreter keeps ready (`PyLong_FromLong` of a small
value returns a new reference to one of them; `PyFast_FromInt` of CPython 3.12 and later always makes a new int, i.e. `ready`
has none during a call that uses it). -/
structure World where
  self : Obj
  ready : PyLong → Option Obj

namespace Mem

/-- A new reference to an existing object (`PyIter_Next`, `PySequence_GetItem`, `PySequence_Fast`). (Called at
IntArrayList.cpp 64, 91, 271, 634, 762, 937 and so on.) -/
def gain (m : Mem) (o : Obj) : Mem := { m with heap := m.heap.gain o }

/-- `Py_INCREF`. (CPython's; called at IntArrayList.cpp 780, 858.) -/
def incref (m : Mem) (o : Obj) : Except UB Mem :=
  match m.heap.incref o with
  | .error u => .error u
  | .ok h => .ok { m with heap := h }

/-- `SAFE_DECREF`, `Py_DECREF`. (PythonUtils.h 20-42; used at IntArrayList.cpp 74-102, 194, 273-288 and so on.) -/
def drop (m : Mem) (o : Obj) : Except UB Mem :=
  match m.heap.decref o with
  | .error u => .error u
  | .ok h => .ok { m with heap := h }

/-- Several in turn. Scaffolding of the model, no code of /repo. -/
def drops (m : Mem) : List Obj → Except UB Mem
  | [] => .ok m
  | o :: os =>
    match m.drop o with
    | .error u => .error u
    | .ok m => drops m os

/-- A new object; the caller of the C function owns one reference. (CPython's `PyLong_FromLong` and others; called at
IntArrayList.cpp 192, 310, 329, 530, 558.) -/
def make (m : Mem) : Mem × Obj := (⟨m.heap.set m.next 1, m.next + 1⟩, m.next)

/-- A call of the C API that returns a new reference, to an existing object or to a new one (`PyObject_GetIter`,
`PyIter_Next`, `PySequence_GetItem`, `PyObject_CallOneArg`). (IntArrayList.cpp 84, 91, 258, 271, 634, 749, 762.) -/
def newRef (m : Mem) : Option Obj → Mem × Obj
  | some o => (m.gain o, o)
  | none => m.make

/-- `SAFE_DECREF` of a Python list with elements `xs`; the last reference takes the elements along. (IntArrayList.cpp
194, 560.) -/
def dropList (m : Mem) (c : Obj) (xs : List Obj) : Except UB Mem :=
  match m.drop c with
  | .error u => .error u
  | .ok m => if m.heap.live c then .ok m else m.drops xs

end Mem

/-- `PyFast_FromInt` (PythonUtils.h 149-155), `PyLong_FromLongLong`, `PyLong_FromSsize_t`: an int that is kept ready, or a
new one. -/
def boxed (w : World) (m : Mem) (p : PyLong) : Mem × Obj :=
  m.newRef (w.ready p)

/-- Make an int for the caller; `extra` = with the additional `Py_INCREF` of linked 480, 514, 152. -/
def boxFor (extra : Bool) (w : World) (m : Mem) (p : PyLong) : Mem × Obj :=
  match boxed w m p with
  | (m, o) => (if extra then m.gain o else m, o)

/-- Filling a new Python list (193-199, 556-563; linked 147-153, 511-520): `PyList_SET_ITEM` takes over the reference. -/
def boxAll (extra : Bool) (w : World) : List PyLong → Mem → Mem × List Obj
  | [], m => (m, [])
  | p :: ps, m =>
    match boxFor extra w m p with
    | (m, o) =>
      match boxAll extra w ps m with
      | (m, os) => (m, o :: os)

/-- The result of a call without operand becomes objects: ints (`extra`: for `l[i]` of linked lists, 464-486), Python lists
(`extras`), new lists and strings (`Py_CreateObj`, `PyUnicode_FromStringAndSize`), the list itself (`Py_INCREF(pySelf)`). The
case `pyconcat` does not arise, see `add`. -/
def deliver (extra extras : Bool) (w : World) (m : Mem) : Ret → Except UB (Mem × Val)
  | .none => .ok (m, .none)
  | .self =>
    match m.incref w.self with
    | .error u => .error u
    | .ok m => .ok (m, .self)
  | .int p => .ok ((boxFor extra w m p).1, .int (boxFor extra w m p).2)
  | .bool b => .ok (m, .bool b)
  | .pylist ps =>
    match m.make with
    | (m, c) =>
      match boxAll extras w ps m with
      | (m, os) => .ok (m, .list c os)
  | .newList _ | .str _ => .ok (m.make.1, .new m.make.2)
  | .pyconcat _ _ => .error .typeConfusion

/-- A call that touches no reference before it makes its result. Scaffolding of the model, no code of /repo. -/
def plain (extra extras : Bool) (w : World) (m : Mem) (out : Out σ Ret) : Out (σ × Mem) Val :=
  match out with
  | .ok s r =>
    match deliver extra extras w m r with
    | .error u => .ub u
    | .ok (m, v) => .ok (s, m) v
  | .exc s e => .exc (s, m) e
  | .pending s r e =>
    match deliver extra extras w m r with
    | .error u => .ub u
    | .ok (m, v) => .pending (s, m) v e
  | .ub u => .ub u


/-- The exception an iterable ends with. Scaffolding of the model, no code of /repo. -/
def Shape.fail : Shape → Option Exc
  | .iter f => f
  | _ => none

/-- `PySequence_Check`. (CPython; called at IntArrayList.cpp 618, 928, 979.) -/
def Shape.isSequence : Shape → Bool
  | .iter _ => false
  | _ => true

/-- `PySequence_Size` of a sequence of `n` items: -1 if there is no `__len__`. (CPython; called at IntArrayList.cpp
623, 932, 982.) -/
def Shape.size (n : Nat) : Shape → Int
  | .list | .tuple | .seq => n
  | .seqNoLen | .iter _ => -1

/-- Elements of an operand when fetched one by one: of a list of the class (an int is made), or an item.
(IntArrayList.cpp 634, 937.) -/
inductive Elem
  | own (v : Int)
  | item (x : Item)
  deriving DecidableEq, Repr

/-- `PySequence_GetItem`: a new reference to the item; a list of the class makes an int (`sq_item`, 516-531, linked 464-486,
the latter with `extra`). -/
def fetch (extra : Bool) (K : Kind) (cfg : Cfg) (w : World) (m : Mem) : Elem → Mem × Obj
  | .own v => boxFor extra w m (box K cfg.py v)
  | .item x => m.newRef x.obj

/-- Its conversion. (IntArrayList.cpp 639, 940.) -/
def convert (K : Kind) (cfg : Cfg) : Elem → CRes
  | .own v => rebox K cfg.py v
  | .item x => toElem K x.arg

/-- The `i`-th element of an operand, `cur` being the elements of the list itself. (IntArrayList.cpp 634, 937.) -/
def elemAt (cur : List Int) (src : Operand) (i : Nat) : Option Elem :=
  match src with
  | .same v => v[i]?.map .own
  | .self => cur[i]?.map .own
  | .items sh _ _ xs => if sh.isSequence then xs[i]?.map .item else none
  | .notIterable => none

/-- `+` (702-736; linked 663-697): the elements go to a Python list first (`ps`), which is concatenated and released. With a
list of the class the new object is never made (C10). -/
def add (extras : Bool) (w : World) (m : Mem) (s : σ) (ps : List PyLong) (src : Operand) : Out (σ × Mem) Val :=
  match src with
  | .same _ | .self => .exc (s, m) .memoryError
  | src =>
    match m.make with
    | (m, c) =>
      match boxAll extras w ps m with
      | (m, os) =>
        match src with
        | .items .list _ _ xs =>
          -- `PySequence_Concat`: a new list with new references to all elements
          match m.make with
          | (m, d) =>
            match ((os ++ xs.filterMap (·.obj)).foldl Mem.gain m).dropList c os with
            | .error u => .ub u
            | .ok m => .ok (s, m) (.list d (os ++ xs.filterMap (·.obj)))
        | _ =>
          match m.dropList c os with
          | .error u => .ub u
          | .ok m => .exc (s, m) .typeError

/-! ## IntArrayList and BigIntArrayList -/

namespace Arr

/-- Item loop of `extend` and `+=` (271-281, 762-772): the item is released before the error check. -/
def extendLoop (K : Kind) : List Item → List Int → Mem → Except UB (List Int × Option Exc × Mem)
  | [], l, m => .ok (l, none, m)
  | x :: xs, l, m =>
    match (m.newRef x.obj).1.drop (m.newRef x.obj).2 with
    | .error u => .error u
    | .ok m =>
      match toElem K x.arg with
      | (_, some e) => .ok (l, some e, m)
      | (v, none) => extendLoop K xs (l ++ [v]) m

/-- `extend` (239-290) and `+=` (738-782, `inplace`). -/
def extend (inplace : Bool) (K : Kind) (w : World) (l : List Int) (m : Mem) (src : Operand) : Out (List Int × Mem) Val :=
  match src with
  | .same v => .ok (l ++ v, m) .none
  | .self => .ub .badIterator
  | .notIterable => .exc (l, m) .typeError
  | .items sh _ it xs =>
    match m.newRef it with
    | (m, i) =>
      match extendLoop K xs l m with
      | .error u => .ub u
      | .ok (l, e, m) =>
        match m.drop i with
        | .error u => .ub u
        | .ok m =>
          match e.or sh.fail with
          | some e => .exc (l, m) e
          | none =>
            match deliver false false w m (if inplace then .self else .none) with
            | .error u => .ub u
            | .ok (m, v) => .ok (l, m) v

/-- Overwriting loop of slice assignment (633-644, 646-657, 664-675): fetch, store, release, check. -/
def assignLoop (cfg : Cfg) (K : Kind) (w : World) (src : Operand) (start : Nat) :
    Nat → Nat → List Int → Mem → Out (List Int × Mem) Val
  | 0, _, cur, m => .ok (cur, m) .none
  | n + 1, i, cur, m =>
    match elemAt cur src i with
    | none => .exc (cur, m) .indexError
    | some a =>
      if start + i < cur.length then
        match (fetch false K cfg w m a).1.drop (fetch false K cfg w m a).2 with
        | .error u => .ub u
        | .ok m =>
          match convert K cfg a with
          | (v, some e) => .exc (cur.set (start + i) v, m) e
          | (v, none) => assignLoop cfg K w src start n (i + 1) (cur.set (start + i) v) m
      else .ub .outOfBounds

/-- Inserting loop of slice assignment (677-691). -/
def insertLoop (cfg : Cfg) (K : Kind) (w : World) (src : Operand) (start : Nat) :
    Nat → Nat → List Int → Mem → Out (List Int × Mem) Val
  | 0, _, cur, m => .ok (cur, m) .none
  | n + 1, i, cur, m =>
    match elemAt cur src i with
    | none => .exc (cur, m) .indexError
    | some a =>
      if start + i ≤ cur.length then
        match (fetch false K cfg w m a).1.drop (fetch false K cfg w m a).2 with
        | .error u => .ub u
        | .ok m =>
          match convert K cfg a with
          | (v, some e) => .exc (cur.take (start + i) ++ v :: cur.drop (start + i), m) e
          | (v, none) =>
            insertLoop cfg K w src start n (i + 1) (cur.take (start + i) ++ v :: cur.drop (start + i)) m
      else .ub .badIterator

/-- `PySequence_Check` and `PySequence_Size` of the operand of a slice assignment. (IntArrayList.cpp 618-623.) -/
def sizeOf (l : List Int) : Operand → Option Int
  | .same v => some v.length
  | .self => some l.length
  | .items sh _ _ xs => if sh.isSequence then some (sh.size xs.length) else none
  | .notIterable => none

/-- Slice assignment (600-700). -/
def setSlice (cfg : Cfg) (K : Kind) (w : World) (l : List Int) (m : Mem) (sl : SliceArg) (src : Operand) :
    Out (List Int × Mem) Val :=
  match sliceUnpack sl with
  | .error e => .exc (l, m) e
  | .ok (start, stop, step) =>
    let (start, stop, n) := adjustIndices l.length start stop step
    match sizeOf l src with
    | none => .exc (l, m) .typeError
    | some k =>
      if step ≠ 1 then .exc (l, m) .notImplementedError
      else if k = n then assignLoop cfg K w src start.toNat n.toNat 0 l m
      else if k < n then
        match assignLoop cfg K w src start.toNat k.toNat 0 l m with
        | .ok (l', m) _ =>
          if 0 ≤ start + k ∧ start + k ≤ stop ∧ stop ≤ l'.length then
            if k < 0 then .pending (l'.take (start + k).toNat ++ l'.drop stop.toNat, m) .none .typeError
            else .ok (l'.take (start + k).toNat ++ l'.drop stop.toNat, m) .none
          else .ub .badIterator
        | o => o
      else
        match assignLoop cfg K w src start.toNat n.toNat 0 l m with
        | .ok (l', m) _ => insertLoop cfg K w src start.toNat (k - n).toNat n.toNat l' m
        | o => o

end Arr

/-! ## Comparisons -/

/-- Wrap an answer. Scaffolding of the model, no code of /repo. -/
def answer (s : σ) (m : Mem) (b : Bool) (p : Option Exc) : Out (σ × Mem) Val :=
  match p with
  | none => .ok (s, m) (.bool b)
  | some e => .pending (s, m) (.bool b) e

/-- Element loop of `==` (936-948; linked 867-882): fetch, convert, release (in both branches), compare. -/
def eqLoop (extra : Bool) (K : Kind) (cfg : Cfg) (w : World) :
    List Int → List Elem → Mem → Except UB (Bool × Option Exc × Mem)
  | x :: xs, a :: as, m =>
    match (fetch extra K cfg w m a).1.drop (fetch extra K cfg w m a).2 with
    | .error u => .error u
    | .ok m =>
      match convert K cfg a with
      | (_, some e) => .ok (false, some e, m)
      | (y, none) => if x ≠ y then .ok (false, none, m) else eqLoop extra K cfg w xs as m
  | _, _, m => .ok (true, none, m)

/-- Element loop of the orderings (985-993 and the like; linked 915-925 and the like): fetch, convert, release, compare. -/
def ordLoop (extra : Bool) (K : Kind) (cfg : Cfg) (w : World) (op : CmpOp) :
    List Int → List Elem → Option Exc → Mem → Except UB (Option Bool × Option Exc × Mem)
  | x :: xs, a :: as, p, m =>
    match (fetch extra K cfg w m a).1.drop (fetch extra K cfg w m a).2 with
    | .error u => .error u
    | .ok m =>
      match convert K cfg a with
      | (y, e) => if x ≠ y then .ok (some (op.rel x y), e.or p, m) else ordLoop extra K cfg w op xs as (e.or p) m
  | _, _, p, m => .ok (none, p, m)

namespace Arr

/-- Comparisons (914-1110) with items: `==` and `!=`, the latter by negating the former. The objects `True` and `False` are not
tracked. Other operands are compared without touching a reference. -/
def eq (neg : Bool) (cfg : Cfg) (K : Kind) (w : World) (l : List Int) (m : Mem) (xs : List Item) : Out (List Int × Mem) Val :=
  if xs.length ≠ l.length then answer l m (neg ^^ false) none
  else
    match eqLoop false K cfg w l (xs.map .item) m with
    | .error u => .ub u
    | .ok (b, e, m) => answer l m (neg ^^ b) e

/-- `<`, `<=`, `>`, `>=`. (IntArrayList.cpp 964-1090.) -/
def ord (op : CmpOp) (cfg : Cfg) (K : Kind) (w : World) (l : List Int) (m : Mem) (xs : List Item) : Out (List Int × Mem) Val :=
  match ordLoop false K cfg w op l (xs.map .item) none m with
  | .error u => .ub u
  | .ok (some b, e, m) => answer l m b e
  | .ok (none, e, m) => answer l m (op.rel l.length xs.length) e

/-- `tp_richcompare`. (IntArrayList.cpp 914-1111; IntLinkedList.cpp 856-1045.) -/
def compare (cfg : Cfg) (K : Kind) (w : World) (op : CmpOp) (l : List Int) (m : Mem) (src : Operand) :
    Out (List Int × Mem) Val :=
  match src with
  | .items .list _ _ xs | .items .tuple _ _ xs | .items .seq _ _ xs =>
    match op with
    | .eq => eq false cfg K w l m xs
    | .ne => eq true cfg K w l m xs
    | op => ord op cfg K w l m xs
  | src => plain false false w m (ArrayList.compare K op l src.plain)

/-- One call. (The functions cited above, by call.) -/
def step (cfg : Cfg) (K : Kind) (w : World) (l : List Int) (m : Mem) (c : Call) : Out (List Int × Mem) Val :=
  match c with
  | .extend s => extend false K w l m s
  | .iadd s => extend true K w l m s
  | .add s => add false w m l (ArrayList.toList cfg K l) s
  | .setSlice sl s => setSlice cfg K w l m sl s
  | .cmp op s => compare cfg K w op l m s
  | .plain op => plain false false w m (ArrayList.step cfg K l op)

end Arr

/-! ## IntLinkedList -/

namespace Lnk

open LinkedList (S)

/-- Item loop of `extend` and `+=` (linked 221-230, 716-725): push, release; an error is noticed at the next item, which is
released as well (in the code after the iterator), or after the loop. -/
def extendLoop : List Item → S → Mem → Except UB (S × Option Exc × Bool × Mem)
  | [], s, m => .ok (s, none, true, m)
  | x :: xs, s, m =>
    match (m.newRef x.obj).1.drop (m.newRef x.obj).2 with
    | .error u => .error u
    | .ok m =>
      match toElem .i32 x.arg with
      | (v, none) => extendLoop xs (s.push v) m
      | (v, some e) =>
        match xs with
        | [] => .ok (s.push v, some e, true, m)
        | y :: _ =>
          match (m.newRef y.obj).1.drop (m.newRef y.obj).2 with
          | .error u => .error u
          | .ok m => .ok (s.push v, some e, false, m)

/-- `extend` (linked 194-240) and `+=` (linked 699-736, `inplace`). -/
def extend (inplace : Bool) (strict : Bool) (w : World) (s : S) (m : Mem) (src : Operand) : Out (S × Mem) Val :=
  match src with
  | .items sh _ it xs =>
    match m.newRef it with
    | (m, i) =>
      match extendLoop xs s m with
      | .error u => .ub u
      | .ok (s, e, atEnd, m) =>
        match m.drop i with
        | .error u => .ub u
        | .ok m =>
          let s := if !inplace && atEnd then s.bump else s
          match (if atEnd then sh.fail.or e else e) with
          | some e => .exc (s, m) e
          | none =>
            match deliver false false w m (if inplace then .self else .none) with
            | .error u => .ub u
            | .ok (m, v) => .ok (s, m) v
  | src => plain false false w m (LinkedList.extendWith strict (!inplace) s src.plain (if inplace then .self else .none))

/-- Overwriting loop of slice assignment (linked 590-602, 605-617, 627-639). -/
def assignLoop (cfg : Cfg) (w : World) (src : Operand) (p : Nat) : Nat → Nat → S → Mem → Out (S × Mem) Val
  | 0, _, cur, m => .ok (cur, m) .none
  | n + 1, i, cur, m =>
    match elemAt cur.vals src i with
    | none => .exc (cur, m) .indexError
    | some a =>
      if p + i < cur.size then
        match (fetch true .i32 cfg w m a).1.drop (fetch true .i32 cfg w m a).2 with
        | .error u => .ub u
        | .ok m =>
          match convert .i32 cfg a with
          | (v, some e) => .exc (cur.assign (p + i) v, m) e
          | (v, none) => assignLoop cfg w src p n (i + 1) (cur.assign (p + i) v) m
      else .ub .outOfBounds

/-- Inserting loop of slice assignment (linked 642-653). -/
def insertLoop (cfg : Cfg) (w : World) (src : Operand) (p : Nat) : Nat → Nat → S → Mem → Out (S × Mem) Val
  | 0, _, cur, m => .ok (cur, m) .none
  | n + 1, i, cur, m =>
    match elemAt cur.vals src i with
    | none => .exc (cur, m) .indexError
    | some a =>
      if p + i ≤ cur.size then
        match (fetch true .i32 cfg w m a).1.drop (fetch true .i32 cfg w m a).2 with
        | .error u => .ub u
        | .ok m =>
          match convert .i32 cfg a with
          | (v, some e) => .exc (cur.insert (p + i) v, m) e
          | (v, none) => insertLoop cfg w src p n (i + 1) (cur.insert (p + i) v) m
      else .ub .badIterator

/-- Slice assignment (linked 566-661). -/
def setSlice (cfg : Cfg) (w : World) (s : S) (m : Mem) (sl : SliceArg) (src : Operand) : Out (S × Mem) Val :=
  match sliceUnpack sl with
  | .error e => .exc (s, m) e
  | .ok (start, stop, step) =>
    let (start, _, n) := adjustIndices s.size start stop step
    match Arr.sizeOf s.vals src with
    | none => .exc (s, m) .typeError
    | some k =>
      if step ≠ 1 then .exc (s, m) .notImplementedError
      else
        match listAt s.size start.toNat with
        | .error u => .ub u
        | .ok p =>
          if k = n then assignLoop cfg w src p n.toNat 0 s m
          else if k < n then
            match assignLoop cfg w src p k.toNat 0 s m with
            | .ok (s', m) _ =>
              match walkFwd s'.size (n - k).toNat (p + k.toNat) with
              | .error u => .ub u
              | .ok q =>
                if k < 0 then .pending (s'.eraseRange (p + k.toNat) q, m) .none .typeError
                else .ok (s'.eraseRange (p + k.toNat) q, m) .none
            | o => o
          else
            match assignLoop cfg w src p n.toNat 0 s m with
            | .ok (s', m) _ => insertLoop cfg w src p (k - n).toNat n.toNat s' m
            | o => o

/-- The elements of an operand of a comparison; lists of the class have no faster path. (IntLinkedList.cpp 868-872.)
-/
def elems (s : S) : Operand → Option (List Elem)
  | .same v => some (v.map .own)
  | .self => some (s.vals.map .own)
  | .items .list _ _ xs | .items .tuple _ _ xs | .items .seq _ _ xs => some (xs.map .item)
  | _ => none

/-- `==` and `!=` (linked 856-896). -/
def eq (neg : Bool) (cfg : Cfg) (w : World) (s : S) (m : Mem) (as : List Elem) : Out (S × Mem) Val :=
  if as.length ≠ s.size then answer s m (neg ^^ false) none
  else
    match eqLoop true .i32 cfg w s.vals as m with
    | .error u => .ub u
    | .ok (b, e, m) => answer s m (neg ^^ b) e

/-- `<`, `<=`, `>`, `>=` (linked 898-1024). -/
def ord (op : CmpOp) (cfg : Cfg) (w : World) (s : S) (m : Mem) (as : List Elem) : Out (S × Mem) Val :=
  if s.size ≠ as.length then .ok (s, m) (.bool (decide (s.size < as.length)))
  else
    match ordLoop true .i32 cfg w op s.vals as none m with
    | .error u => .ub u
    | .ok (some b, e, m) => answer s m b e
    | .ok (none, e, m) => answer s m false e

/-- `tp_richcompare` (linked 1026-1044). -/
def compare (cfg : Cfg) (w : World) (op : CmpOp) (s : S) (m : Mem) (src : Operand) : Out (S × Mem) Val :=
  match elems s src with
  | some as =>
    match op with
    | .eq => eq false cfg w s m as
    | .ne => eq true cfg w s m as
    | op => ord op cfg w s m as
  | none => plain false false w m (LinkedList.compare cfg op s src.plain)

/-- One call. `l[i]`, `l[a:b]` and `to_list` make their ints with an additional reference (480, 514, 152), and so does `+`
(680); the ints of `pop`, `index`, `count` and `len` have one. -/
def step (cfg : Cfg) (strict : Bool) (w : World) (s : S) (m : Mem) (c : Call) : Out (S × Mem) Val :=
  match c with
  | .extend src => extend false strict w s m src
  | .iadd src => extend true strict w s m src
  | .add src => add true w m s (LinkedList.toList cfg s) src
  | .setSlice sl src => setSlice cfg w s m sl src
  | .cmp op src => compare cfg w op s m src
  | .plain (.get k) => plain true true w m (LinkedList.step cfg strict s (.get k))
  | .plain .toList => plain true true w m (LinkedList.step cfg strict s .toList)
  | .plain op => plain false false w m (LinkedList.step cfg strict s op)

end Lnk

/-! ## Construction, sorting with a key -/

/-- Constructor loop over the items of a Python list or tuple (71-79; linked 52-60): borrowed references. -/
def initFast (K : Kind) : List Item → List Int → List Int × Option Exc
  | [], l => (l, none)
  | x :: xs, l =>
    match toElem K x.arg with
    | (_, some _) => (l, some .runtimeError)
    | (v, none) => initFast K xs (l ++ [v])

/-- Constructor loop over an iterator (91-101; linked 73-83): in case of an error iterator and item are released, in this
order, and the loop is left. -/
def initLoop (K : Kind) (i : Obj) : List Item → List Int → Mem → Except UB (List Int × Option Exc × Mem)
  | [], l, m =>
    match m.drop i with
    | .error u => .error u
    | .ok m => .ok (l, none, m)
  | x :: xs, l, m =>
    match toElem K x.arg with
    | (_, some _) =>
      match (m.newRef x.obj).1.drops [i, (m.newRef x.obj).2] with
      | .error u => .error u
      | .ok m => .ok (l, some .runtimeError, m)
    | (v, none) =>
      match (m.newRef x.obj).1.drop (m.newRef x.obj).2 with
      | .error u => .error u
      | .ok m => initLoop K i xs (l ++ [v]) m

/-- Constructor with an iterable (50-108; linked 37-90). -/
def init (K : Kind) (m : Mem) (src : Operand) : Out (List Int × Mem) Unit :=
  match src with
  | .same v => .ok (v, m) ()
  | .self => .ok ([], m) ()
  | .notIterable => .exc ([], m) .typeError
  | .items .list o _ xs | .items .tuple o _ xs =>
    -- `PySequence_Fast` returns another reference to the list or tuple
    match (m.gain o).drop o with
    | .error u => .ub u
    | .ok m =>
      match initFast K xs [] with
      | (l, none) => .ok (l, m) ()
      | (l, some e) => .exc (l, m) e
  | .items sh _ it xs =>
    match m.newRef it with
    | (m, i) =>
      match initLoop K i xs [] m with
      | .error u => .ub u
      | .ok (l, e, m) =>
        match e.or sh.fail with
        | none => .ok (l, m) ()
        | some e => .exc (l, m) e

/-- Key loop of `CPython_sort` (CPythonSort.c 1431-1442): `keys` are the answers of the key function (an existing object or a
new one), `taken` the keys so far; an exception releases them, last one first. -/
def keyLoop : List (Except Exc (Option Obj)) → List Obj → Mem → Except UB (List Obj × Option Exc × Mem)
  | [], taken, m => .ok (taken, none, m)
  | .error e :: _, taken, m =>
    match m.drops taken.reverse with
    | .error u => .error u
    | .ok m => .ok ([], some e, m)
  | .ok k :: ks, taken, m => keyLoop ks (taken ++ [(m.newRef k).2]) (m.newRef k).1

/-- `sort` with a key (474-494; linked 418-443) of a list with the elements `ps`: an int is made for every element, sorted
(`order` arranges ints and keys, C35), then read and released; the keys are released in their new order
(CPythonSort.c 1601-1604). `None`, returned with an additional reference and forgotten, is not tracked. -/
def sortKeyed (w : World) (m : Mem) (ps : List PyLong) (keys : List (Except Exc (Option Obj)))
    (order : List Obj → List Obj) : Except UB (Mem × Option Exc) :=
  match boxAll false w ps m with
  | (m, os) =>
    match keyLoop keys [] m with
    | .error u => .error u
    | .ok (_, some e, m) =>
      match m.drops os with
      | .error u => .error u
      | .ok m => .ok (m, some e)
    | .ok (ks, none, m) =>
      match m.drops (order ks) with
      | .error u => .error u
      | .ok m =>
        match m.drops (order os) with
        | .error u => .error u
        | .ok m => .ok (m, none)

/-! ## Iterators -/

/-- Creating an iterator (IntArrayListIter.cpp 13-28, IntLinkedListIter.cpp 14-33): a new object, which refers to the list. -/
def iterNew (w : World) (m : Mem) : Except UB (Mem × Obj) :=
  match m.make with
  | (m, i) =>
    match m.incref w.self with
    | .error u => .error u
    | .ok m => .ok (m, i)

/-- `next` (IntArrayListIter.cpp 35-68, IntLinkedListIter.cpp 55-91) with the element `v`; nothing happens to references at the
end. -/
def iterNext (K : Kind) (cfg : Cfg) (w : World) (m : Mem) (v : Int) : Mem × Obj := boxed w m (box K cfg.py v)

/-- Giving up an iterator (IntArrayListIter.cpp 30-33, IntLinkedListIter.cpp 35-38): with the last reference the list is
released. -/
def iterDrop (w : World) (m : Mem) (i : Obj) : Except UB Mem :=
  match m.drop i with
  | .error u => .error u
  | .ok m => if m.heap.live i then .ok m else m.drop w.self

end Verif.Ledger
