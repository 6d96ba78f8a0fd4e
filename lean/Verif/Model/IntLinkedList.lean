import Verif.Model.StdList
import Verif.Model.IntArrayList

/-!
# IntLinkedList

Model of ints/IntLinkedList.cpp. `strict` selects how a range insertion of a list into itself
(`list.insert(end, self.begin(), self.end())`) is read: the C++ standard makes it undefined (`strict = true`);
libstdc++ copies the range first and then splices it (`strict = false`). Leaked references to int objects
(`Py_INCREF` at 152, 480, 514) have no effect here; they are counted in Model/Ledger.
-/

namespace Verif

/-- Change the state component of an outcome. Scaffolding of the model, no code of /repo. -/
def Out.mapState (f : σ → τ) : Out σ α → Out τ α
  | .ok s a => .ok (f s) a
  | .exc s e => .exc (f s) e
  | .pending s a e => .pending (f s) a e
  | .ub u => .ub u

namespace LinkedList

open ArrayList (findFrom srcSize eqLoop ordLoop rangeCount)

/-- State of an IntLinkedList. (IntLinkedList.h: `list`, `modCount`.) -/
abbrev S := LState Int
/-- Outcomes of a call. Scaffolding of the model, no code of /repo. -/
abbrev LLOut := Out S Ret

/-- IntLinkedList.cpp 23-93, constructor (`none` = no argument): as for IntArrayList with the conversion
`int value = PyLong_AsLong(item)`, but an int argument is not a capacity and is not iterable (68-71). The
fields `fresh` and `modCount` start at 0. Line 24 constructs a `std::list<PyObject *>` in the place of the
`std::list<int>`; both consist of the sentinel only. -/
def init (arg : Option (Int ⊕ Src)) : Out S Unit :=
  let mk (l : List Int) : S := LState.pushAll ⟨[], 0, 0⟩ l
  match arg with
  | some (.inl _) => .exc (mk []) .typeError
  | none => .ok (mk []) ()
  | some (.inr s) => (ArrayList.init .i32 (some (.inr s))).mapState mk

/-- IntLinkedList.cpp 100-138, `from_range`: same arithmetic and conversions as in IntArrayList.cpp. -/
def fromRange (a1 : Arg) (a2 a3 : Option Arg) : Out Unit (List Int) := ArrayList.fromRange .i32 a1 a2 a3

/-- IntLinkedList.cpp 175-192, `append`: the conversion error is not checked. -/
def append (s : S) (a : Arg) : LLOut :=
  match toElem .i32 a with
  | (v, none) => .ok (s.push v).bump .none
  | (v, some e) => .pending (s.push v).bump .none e

/-- Item loop of `extend` (221-230) and `+=` (716-725): each item is pushed even if its conversion failed; the
error is noticed when the next item arrives, or after the loop. Result: the exception and whether the loop
was left by running out of items. -/
def pushLoop : List Arg → S → S × Option Exc × Bool
  | [], s => (s, none, true)
  | a :: as, s =>
    match toElem .i32 a with
    | (v, none) => pushLoop as (s.push v)
    | (v, some e) => (s.push v, some e, as.isEmpty)

/-- Outcome of the generic part of `extend` / `+=`: `f` is the exception the iterator ends with (which replaces
an earlier one when the iterator is asked again), `bump` whether `modCount` is incremented after the loop.
(IntLinkedList.cpp 213-240, 709-735.) -/
def pushItems (bump : Bool) (s : S) (xs : List Arg) (f : Option Exc) (r : Ret) : LLOut :=
  match pushLoop xs s with
  | (s', e, atEnd) =>
    let s' := if bump && atEnd then s'.bump else s'
    match (if atEnd then f.or e else e) with
    | none => .ok s' r
    | some e => .exc s' e

/-- IntLinkedList.cpp 194-240 `extend` (`bump = true`) and 699-736 `+=` (`bump = false`); `r` is the result of the
generic path, the same-class path returns None. -/
def extendWith (strict : Bool) (bump : Bool) (s : S) (src : Src) (r : Ret) : LLOut :=
  let b (s : S) : S := if bump then s.bump else s
  match src with
  | .same v => .ok (b (s.pushAll v)) .none
  | .self => if strict then .ub .badIterator else .ok (b (s.pushAll s.vals)) .none
  | .list xs | .tuple xs | .seq xs | .seqNoLen xs => pushItems bump s xs none r
  | .iter xs f => pushItems bump s xs f r
  | .notIterable => .exc s .typeError

/-- IntLinkedList.cpp 243-282, `pop`. With an index the node is erased before its value is read (279-281). -/
def pop (cfg : Cfg) (s : S) (a : Option Arg) : LLOut :=
  match s.vals.getLast? with
  | none => .exc s .indexError
  | some last =>
    match a with
    | none => .ok (s.erase (s.size - 1)).bump (.int (box .i32 cfg.py last))
    | some a =>
      match asSsize a with
      | (_, some e) => .exc s e
      | (i, none) =>
        let i := if i < 0 then i + s.size else i
        if i < 0 ∨ i ≥ s.size then .exc s .indexError
        else
          match listAt s.size i.toNat with
          | .error u => .ub u
          | .ok p => if p < s.size then .ub .useAfterFree else .ub .badIterator

/-- IntLinkedList.cpp 284-324, `index`. `std::find(first, last)` with `first` after `last` runs past the end. -/
def index (s : S) (a : Arg) (start stop : Option Arg) : LLOut :=
  let n : Int := s.size
  let get (o : Option Arg) (d : Int) : CRes := match o with | none => (d, none) | some a => parseN a
  match parseI a, get start 0, get stop n with
  | (_, some e), _, _ => .exc s e
  | (_, none), (_, some e), _ => .exc s e
  | (_, none), (_, none), (_, some e) => .exc s e
  | (v, none), (start, none), (stop, none) =>
    let start := if start < 0 then start + n else start
    let stop := if stop < 0 then stop + n else stop
    let start := if start < 0 then 0 else start
    let stop := if stop > n then n else stop
    if start > stop then .exc s .valueError
    else
      match listAt s.size stop.toNat, listAt s.size start.toNat with
      | .ok q, .ok p =>
        if q < p then .ub .badIterator
        else
          match findFrom s.vals p q v with
          | none => .exc s .valueError
          | some k => .ok s (.int (canon k))
      | .error u, _ => .ub u
      | _, .error u => .ub u

/-- IntLinkedList.cpp 326-342, `count`. -/
def count (s : S) (a : Arg) : LLOut :=
  match toElem .i32 a with
  | (v, e) =>
    match (if v = -1 then e else none) with
    | some e => .exc s e
    | none => .ok s (.int (canon (s.vals.count v)))

/-- IntLinkedList.cpp 344-372, `insert`. -/
def insert (s : S) (i a : Arg) : LLOut :=
  match parseN i, parseI a with
  | (_, some e), _ => .exc s e
  | (_, none), (_, some e) => .exc s e
  | (i, none), (v, none) =>
    let n : Int := s.size
    let i := if i < 0 then max 0 (n + i) else if i > n then n else i
    match listAt s.size i.toNat with
    | .error u => .ub u
    | .ok p => .ok (s.insert p v).bump .none

/-- IntLinkedList.cpp 374-398, `remove`. -/
def remove (s : S) (a : Arg) : LLOut :=
  match toElem .i32 a with
  | (_, some e) => .exc s e
  | (v, none) =>
    match findFrom s.vals 0 s.size v with
    | none => .exc s .valueError
    | some k => .ok (s.erase k).bump .none

/-- `*at(list, i)`. (IntLinkedList.cpp 278, 314.) -/
def deref (s : S) (i : Nat) : Except UB Int :=
  match listAt s.size i with
  | .error u => .error u
  | .ok p =>
    match s.vals[p]? with
    | none => .error .outOfBounds
    | some v => .ok v

/-- IntLinkedList.cpp 464-486, `sq_item`. -/
def getItem (cfg : Cfg) (s : S) (i : Int) : LLOut :=
  let i := if i < 0 then s.size + i else i
  if i < 0 ∨ i ≥ s.size then .exc s .indexError
  else
    match deref s i.toNat with
    | .error u => .ub u
    | .ok v => .ok s (.int (box .i32 cfg.py v))

/-- Item loop of `getitem_slice` (510-520); a negative index becomes a huge `size_t`, i.e. `end()`. -/
def sliceLoop (s : S) (start step : Int) : Nat → Nat → Except UB (List Int)
  | 0, _ => .ok []
  | n + 1, i =>
    let idx := start + i * step
    if idx < 0 then .error .outOfBounds
    else
      match deref s idx.toNat with
      | .error u => .error u
      | .ok v =>
        match sliceLoop s start step n (i + 1) with
        | .ok r => .ok (v :: r)
        | .error u => .error u

/-- IntLinkedList.cpp 488-522, `mp_subscript`. -/
def subscript (cfg : Cfg) (s : S) (k : Key) : LLOut :=
  match k with
  | .idx .other => .ub .typeConfusion
  | .idx a =>
    match asSsizeIndex a with
    | (_, some e) => .exc s e
    | (i, none) => getItem cfg s i
  | .slice sl =>
    match sliceUnpack sl with
    | .error e => .exc s e
    | .ok (start, stop, step) =>
      let (start, _, n) := adjustIndices s.size start stop step
      match sliceLoop s start step n.toNat 0 with
      | .error u => .ub u
      | .ok r => .ok s (.pylist (r.map (box .i32 cfg.py)))

/-- IntLinkedList.cpp 524-554, `sq_ass_item` (`none` = delete). The conversion error is not checked (546): the
element is overwritten and 0 is returned. `modCount` is not touched. -/
def setItem (s : S) (i : Int) (a : Option Arg) : LLOut :=
  let i := if i < 0 then s.size + i else i
  if i < 0 ∨ i ≥ s.size then .exc s .indexError
  else
    match listAt s.size i.toNat with
    | .error u => .ub u
    | .ok p =>
      if p < s.size then
        match a with
        | none => .ok (s.erase p) .none
        | some a =>
          match toElem .i32 a with
          | (v, none) => .ok (s.assign p v) .none
          | (v, some e) => .pending (s.assign p v) .none e
      else .ub .badIterator

/-- `PySequence_GetItem(value, i)` and `PyLong_AsLong(item)` with narrowing. (IntLinkedList.cpp 592-649.) -/
def srcItem (cfg : Cfg) (cur : S) (src : Src) (i : Nat) : Option CRes := ArrayList.srcItem cfg .i32 cur.vals src i

/-- Overwriting loop of slice assignment (590-602, 605-618, 627-640) with the iterator at position `p`. -/
def assignLoop (cfg : Cfg) (src : Src) (p : Nat) : Nat → Nat → S → LLOut
  | 0, _, cur => .ok cur .none
  | n + 1, i, cur =>
    match srcItem cfg cur src i with
    | none => .exc cur .indexError
    | some (v, e) =>
      if p + i < cur.size then
        match e with
        | some e => .exc (cur.assign (p + i) v) e
        | none => assignLoop cfg src p n (i + 1) (cur.assign (p + i) v)
      else .ub .outOfBounds

/-- Inserting loop of slice assignment (642-653). -/
def insertLoop (cfg : Cfg) (src : Src) (p : Nat) : Nat → Nat → S → LLOut
  | 0, _, cur => .ok cur .none
  | n + 1, i, cur =>
    match srcItem cfg cur src i with
    | none => .exc cur .indexError
    | some (v, e) =>
      if p + i ≤ cur.size then
        match e with
        | some e => .exc (cur.insert (p + i) v) e
        | none => insertLoop cfg src p n (i + 1) (cur.insert (p + i) v)
      else .ub .badIterator

/-- IntLinkedList.cpp 557-661, `mp_ass_subscript` (`none` = deletion). Nothing here touches `modCount`. In the
shrinking case the erased range ends after `n - m` increments (621-623), `m = -1` for a sequence without
length. -/
def assSubscript (cfg : Cfg) (s : S) (k : Key) (val : Option (Arg ⊕ Src)) : LLOut :=
  match k with
  | .idx .other => .ub .typeConfusion
  | .idx a =>
    match asSsizeIndex a with
    | (_, some e) => .exc s e
    | (i, none) =>
      match val with
      | none => setItem s i none
      | some (.inl v) => setItem s i (some v)
      | some (.inr _) => setItem s i (some .other)
  | .slice sl =>
    match sliceUnpack sl with
    | .error e => .exc s e
    | .ok (start, stop, step) =>
      let (start, _, n) := adjustIndices s.size start stop step
      match val with
      | none => .ub .nullDeref
      | some (.inl _) => .exc s .typeError
      | some (.inr src) =>
        if !src.isSequence then .exc s .typeError
        else
          let m := srcSize s.vals src
          if step ≠ 1 then .exc s .notImplementedError
          else
            match listAt s.size start.toNat with
            | .error u => .ub u
            | .ok p =>
              if m = n then assignLoop cfg src p n.toNat 0 s
              else if m < n then
                match assignLoop cfg src p m.toNat 0 s with
                | .ok s' _ =>
                  match walkFwd s'.size (n - m).toNat (p + m.toNat) with
                  | .error u => .ub u
                  | .ok q =>
                    if m < 0 then .pending (s'.eraseRange (p + m.toNat) q) .none .typeError
                    else .ok (s'.eraseRange (p + m.toNat) q) .none
                | o => o
              else
                match assignLoop cfg src p n.toNat 0 s with
                | .ok s' _ => insertLoop cfg src p (m - n).toNat n.toNat s'
                | o => o

/-- IntLinkedList.cpp 140-156, `to_list`. -/
def toList (cfg : Cfg) (s : S) : List PyLong := s.vals.map (box .i32 cfg.py)

/-- IntLinkedList.cpp 663-697, `+` (see `ArrayList.add` for `Py_CreateObj`). -/
def add (cfg : Cfg) (s : S) (src : Src) : LLOut :=
  match src with
  | .same _ | .self => .exc s .memoryError
  | .list xs => .ok s (.pyconcat (toList cfg s) xs)
  | _ => .exc s .typeError

/-- Loop of `*` (754-756). -/
def mulLoop (l : List Int) : Nat → List Int → List Int
  | 0, acc => acc
  | k + 1, acc => mulLoop l k (acc ++ l)

/-- IntLinkedList.cpp 739-766, `*`. -/
def mul (s : S) (n : Int) : LLOut :=
  let n := if n < 0 then 0 else n
  if n = 0 then .ok s (.newList []) else .ok s (.newList (mulLoop s.vals n.toNat []))

/-- `l.__rmul__(a)`. The type has `sq_repeat` (`*`), for which CPython makes a method `__rmul__` before it looks at the
method table; as METH_COEXIST is not set, the entry for IntLinkedList.cpp 768-780 is skipped. The made method passes
`PyNumber_AsSsize_t(a, PyExc_OverflowError)`. -/
def rmul (s : S) (a : Arg) : LLOut :=
  match asLong a with
  | (_, some e) => .exc s e
  | (n, none) => mul s n

/-- Loop of `*=` (794-796): each round inserts the range `[begin, end)` of the list into the list itself; `end` is
the sentinel, so the range is the whole current list. -/
def imulLoop (strict : Bool) : Nat → S → Except UB S
  | 0, s => .ok s
  | k + 1, s => if strict then .error .badIterator else imulLoop strict k (s.pushAll s.vals)

/-- IntLinkedList.cpp 782-806, `*=`. -/
def imul (strict : Bool) (s : S) (n : Int) : LLOut :=
  let n := if n < 0 then 0 else n
  if n = 0 then .ok s.clear .self
  else
    match imulLoop strict (n.toNat - 1) s with
    | .error u => .ub u
    | .ok s' => .ok s' .self

/-- IntLinkedList.cpp 808-830, `in`. -/
def contains (s : S) (a : Arg) : LLOut :=
  match a with
  | .int _ =>
    match toElem .i32 a with
    | (_, some e) => .exc s e
    | (v, none) => .ok s (.bool (findFrom s.vals 0 s.size v).isSome)
  | _ => .ok s (.bool false)

/-- Items of a sequence operand as converted by the comparison functions; an IntLinkedList operand has no fast
path: its elements are boxed and converted back. (IntLinkedList.cpp 868-872, 916-921 and so on.) -/
def cmpItems (cfg : Cfg) (s : S) : Src → Option (List CRes)
  | .same v => some (v.map (rebox .i32 cfg.py))
  | .self => some (s.vals.map (rebox .i32 cfg.py))
  | .list xs | .tuple xs | .seq xs => some (xs.map (toElem .i32))
  | .seqNoLen _ | .iter _ _ | .notIterable => none

/-- Wrap a boolean result with a possibly pending exception. (IntLinkedList.cpp 856-1024.) -/
def boolOut (s : S) (b : Bool) (p : Option Exc) : LLOut :=
  match p with
  | none => .ok s (.bool b)
  | some e => .pending s (.bool b) e

/-- IntLinkedList.cpp 856-885, `==`. -/
def eq (cfg : Cfg) (s : S) (src : Src) : Bool × Option Exc :=
  match src with
  | .seqNoLen _ => (false, some .typeError)
  | _ =>
    match cmpItems cfg s src with
    | none => (false, none)
    | some ys => if ys.length ≠ s.size then (false, none) else eqLoop s.vals ys

/-- IntLinkedList.cpp 898-1024: `lt`, `le`, `gt`, `ge`. Different sizes: all four answer `size < other size`
(911, 943, 975, 1007); equal elements: all four answer False. -/
def ord (cfg : Cfg) (op : CmpOp) (s : S) (src : Src) : LLOut :=
  match src with
  | .seqNoLen _ => .exc s .typeError
  | _ =>
    match cmpItems cfg s src with
    | none => .ok s (.bool false)
    | some ys =>
      if s.size ≠ ys.length then .ok s (.bool (decide (s.size < ys.length)))
      else
        match ordLoop op s.vals ys none with
        | (some b, p) => boolOut s b p
        | (none, p) => boolOut s false p

/-- IntLinkedList.cpp 887-896 and 1026-1044, `tp_richcompare`. -/
def compare (cfg : Cfg) (op : CmpOp) (s : S) (src : Src) : LLOut :=
  match op with
  | .eq => boolOut s (eq cfg s src).1 (eq cfg s src).2
  | .ne => boolOut s (!(eq cfg s src).1) (eq cfg s src).2
  | op => ord cfg op s src

/-- IntLinkedList.cpp 1052-1082, `repr` / `str`; the last element is read through `at`. -/
def repr (s : S) : LLOut :=
  if s.size = 0 then .ok s (.str "[]")
  else
    match deref s (s.size - 1) with
    | .error u => .ub u
    | .ok last => .ok s (.str (ArrayList.reprLoop (s.vals.take (s.size - 1)) "[" ++ toString last ++ "]"))

/-- Dispatch (methods 1088-1108, slots 1118-1137; `copy` 158-173, `reverse` 840-847, `clear` 849-854, `len`
449-453). There is no `resize`: AttributeError, written `typeError` here. -/
def step (cfg : Cfg) (strict : Bool) (s : S) : Op → LLOut
  | .append a => append s a
  | .extend src => extendWith strict true s src .none
  | .insert i a => insert s i a
  | .pop i => pop cfg s i
  | .remove a => remove s a
  | .index a i j => index s a i j
  | .count a => count s a
  | .contains a => contains s a
  | .get k => subscript cfg s k
  | .set k v => assSubscript cfg s k (some v)
  | .del k => assSubscript cfg s k none
  | .iadd src => extendWith strict false s src .self
  | .add src => add cfg s src
  | .mul n => mul s n
  | .rmul a => rmul s a
  | .imul n => imul strict s n
  | .cmp op src => compare cfg op s src
  | .reverse => .ok s.reverse .none
  | .resize _ => .exc s .typeError
  | .clear => .ok s.clear .none
  | .copy => .ok s (.newList s.vals)
  | .toList => .ok s (.pylist (toList cfg s))
  | .len => .ok s (.int (canon s.size))
  | .repr => repr s

/-- Outcomes of a history; it ends at undefined behaviour. Scaffolding of the model, no code of /repo. -/
def run (cfg : Cfg) (strict : Bool) : S → List Op → List LLOut
  | _, [] => []
  | s, op :: ops =>
    step cfg strict s op :: (match (step cfg strict s op).state? with | some s' => run cfg strict s' ops | none => [])

end LinkedList
end Verif
