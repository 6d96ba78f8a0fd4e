import Verif.Model.Base
import Verif.Model.SimdCopy
import Verif.Model.QReverse

/-!
# IntArrayList and BigIntArrayList

Model of ints/IntArrayList.cpp and ints/BigIntArrayList.cpp. The two files are textually the same up to
the element type (`int` / `long long`), the conversion functions and the differences noted below, so
the model is parametrised by `Kind`. Line numbers are those of IntArrayList.cpp; in BigIntArrayList.cpp
the same function is within a few lines of the cited ones.

The `std::vector` is a list of integers; iterator-range preconditions of `erase`/`insert` and index
bounds of `operator[]` are checked and give `ub`. Allocation succeeds. Platform: LP64.
-/

namespace Verif

/-- Element type of the list: `int` (IntArrayList) or `long long` (BigIntArrayList). (IntArrayList.h,
BigIntArrayList.h: `vector`.) -/
inductive Kind
  | i32 | i64
  deriving DecidableEq, Repr

/-- Bits of the element type. (IntArrayList.h, BigIntArrayList.h.) -/
def Kind.bits : Kind → Nat
  | .i32 => 32
  | .i64 => 64

/-- `sizeof` of the element type. (IntArrayList.h, BigIntArrayList.h.) -/
def Kind.size : Kind → Nat
  | .i32 => 4
  | .i64 => 8

/-- Item conversion `int value = PyLong_AsLong(x)` / `long long value = PyLong_AsLongLong(x)`: 64-bit
conversion, then implicit narrowing. The pending exception is kept. -/
def toElem (K : Kind) (a : Arg) : CRes := (wrapS K.bits (asLong a).1, (asLong a).2)

/-- Format units `i` / `L` of `PyArg_ParseTuple` (IntArrayList.cpp 344, 402; BigIntArrayList.cpp 341, 399). -/
def parseElem (K : Kind) (a : Arg) : CRes :=
  match K with
  | .i32 => parseI a
  | .i64 => asLong a

/-- Element to Python int: `PyFast_FromInt` / `PyLong_FromLongLong`. (IntArrayList.cpp 192, 310, 329, 530, 558 and
the same in BigIntArrayList.cpp.) -/
def box (K : Kind) (py : PyVer) (v : Int) : PyLong :=
  match K with
  | .i32 => fromInt py v
  | .i64 => canon v

/-- Reading an element of such a list through the sequence protocol (`PySequence_GetItem`, which boxes
it) and converting it back with `PyLong_AsLong(Long)` and narrowing. (IntArrayList.cpp 634-685, 937-940.) -/
def rebox (K : Kind) (py : PyVer) (v : Int) : CRes :=
  let w := (box K py v).value
  if FitsS 64 w then (wrapS K.bits w, none) else (-1, some .overflowError)

/-- `PySequence_Check`. (CPython; called at IntArrayList.cpp 618, 928, 979, 1011, 1043, 1075.) -/
def Src.isSequence : Src → Bool
  | .same _ | .self | .list _ | .tuple _ | .seq _ | .seqNoLen _ => true
  | .iter _ _ | .notIterable => false

/-- Results of the methods. Scaffolding of the model, no code of /repo. -/
inductive Ret
  | none
  | self
  | int (p : PyLong)
  | bool (b : Bool)
  | pylist (l : List PyLong)                          -- a new Python list of ints
  | pyconcat (l : List PyLong) (rest : List Arg)      -- Python list: ints followed by other objects
  | newList (l : List Int)                            -- a new list of the same class
  | str (s : String)
  deriving DecidableEq, Repr

/-- Outcomes of a call. Scaffolding of the model, no code of /repo. -/
abbrev LOut := Out (List Int) Ret

namespace ArrayList

/-! ## Construction -/

/-- Loop of the constructor over items (IntArrayList.cpp 71-79, 91-101): convert, on error replace the
exception by RuntimeError, else push back. -/
def initLoop (K : Kind) : List Arg → List Int → List Int × Option Exc
  | [], acc => (acc, none)
  | a :: as, acc =>
    match (toElem K a).2 with
    | some _ => (acc, some .runtimeError)
    | none => initLoop K as (acc ++ [(toElem K a).1])

/-- IntArrayList.cpp 23-40 and 42-111 with at most the `iterable` argument (`none` = no argument;
`some (.inl a)` = an `int`, used as capacity hint; `some (.inr s)` = an iterable object). A failing
`PyLong_AsSsize_t` (36) leaves its exception set although 0 is returned. `reserve` (53) has no
observable effect. -/
def init (K : Kind) (arg : Option (Int ⊕ Src)) : Out (List Int) Unit :=
  match arg with
  | none => .ok [] ()
  | some (.inl v) => if FitsS 64 v then .ok [] () else .pending [] () .overflowError
  | some (.inr s) =>
    match s with
    | .same v => .ok v ()                                        -- 57-61
    | .self => .ok [] ()                                         -- not possible for a new object
    | .list xs | .tuple xs | .seq xs | .seqNoLen xs =>                       -- 63-82, 84-103
      match initLoop K xs [] with
      | (acc, none) => .ok acc ()
      | (acc, some e) => .exc acc e
    | .iter xs f =>                                              -- 84-103
      match initLoop K xs [], f with
      | (acc, some e), _ => .exc acc e
      | (acc, none), none => .ok acc ()
      | (acc, none), some e => .exc acc e
    | .notIterable => .exc [] .typeError                         -- 85-88

/-- `for (idx = 0; idx < elements; ++idx) { vector[idx] = static_cast<int>(current); current += step; }`
(IntArrayList.cpp 144-148) with the signed addition checked. -/
def rangeLoop (K : Kind) (step : Int) : Nat → Int → Except UB (List Int)
  | 0, _ => .ok []
  | n + 1, cur =>
    if FitsS 64 (cur + step) then
      match rangeLoop K step n (cur + step) with
      | .ok l => .ok (wrapS K.bits cur :: l)
      | .error u => .error u
    else .error .signedOverflow

/-- utils/PythonUtils.h 64-92, `PyParse_EvalRange`: `PY_SSIZE_T_MAX` doubles as "argument missing". -/
def evalRange (a1 : Arg) (a2 a3 : Option Arg) : Except Exc (Int × Int × Int) :=
  let get (o : Option Arg) : CRes := match o with | none => (ssizeMax, none) | some a => parseN a
  match parseN a1, get a2, get a3 with
  | (_, some e), _, _ => .error e
  | (_, none), (_, some e), _ => .error e
  | (_, none), (_, none), (_, some e) => .error e
  | (v1, none), (v2, none), (v3, none) =>
    if v2 = ssizeMax then .ok (0, v1, 1)
    else if v3 = ssizeMax then .ok (v1, v2, 1)
    else if v3 ≠ 0 then .ok (v1, v2, v3)
    else .error .valueError

/-- Element count of `from_range` (IntArrayList.cpp 129-140), `none` = return the empty list.
Signed overflow of the intermediate results is checked; `/` truncates (both operands positive here). -/
def rangeCount (start stop step : Int) : Except UB (Option Int) :=
  if step > 0 then
    if start ≥ stop then .ok none
    else if FitsS 64 (stop - start) ∧ FitsS 64 (stop - start + step) then
      .ok (some ((stop - start + step - 1).tdiv step))
    else .error .signedOverflow
  else
    if start ≤ stop then .ok none
    else if FitsS 64 (start - stop) ∧ FitsS 64 (-step) then .ok (some ((start - stop).tdiv (-step)))
    else .error .signedOverflow

/-- IntArrayList.cpp 118-158, `from_range`. -/
def fromRange (K : Kind) (a1 : Arg) (a2 a3 : Option Arg) : Out Unit (List Int) :=
  match evalRange a1 a2 a3 with
  | .error e => .exc () e
  | .ok (start, stop, step) =>
    match rangeCount start stop step with
    | .error u => .ub u
    | .ok none => .ok () []
    | .ok (some n) =>
      match rangeLoop K step n.toNat start with
      | .ok l => .ok () l
      | .error u => .ub u

/-! ## Methods -/

/-- IntArrayList.cpp 160-182, `resize`. -/
def resize (l : List Int) (a : Arg) : LOut :=
  match a with
  | .int v =>
    let n := (asSsize (.int v)).1
    if n < 0 then .exc l .valueError
    else .ok (l.take n.toNat ++ List.replicate (n.toNat - l.length) 0) .none
  | _ => .exc l .typeError

/-- IntArrayList.cpp 184-202, `to_list`. -/
def toList (cfg : Cfg) (K : Kind) (l : List Int) : List PyLong := l.map (box K cfg.py)

/-- IntArrayList.cpp 221-237, `append`. -/
def append (K : Kind) (l : List Int) (a : Arg) : LOut :=
  match toElem K a with
  | (_, some e) => .exc l e
  | (v, none) => .ok (l ++ [v]) .none

/-- Item loop of `extend` and `+=` (IntArrayList.cpp 271-281, 762-772). -/
def extendLoop (K : Kind) : List Arg → List Int → List Int × Option Exc
  | [], l => (l, none)
  | a :: as, l =>
    match toElem K a with
    | (_, some e) => (l, some e)
    | (v, none) => extendLoop K as (l ++ [v])

/-- The common body of `extend` (248-289) and `+=` (738-781); `r` is the result on success of the
generic path, the same-class fast path always returns None (254, 745). `l.extend(l)` / `l += l` call
`vector.insert(end, first, last)` with iterators into the vector itself (253, 744), which the C++ standard
forbids. -/
def extendWith (K : Kind) (l : List Int) (s : Src) (r : Ret) : LOut :=
  match s with
  | .same v => .ok (l ++ v) .none
  | .self => .ub .badIterator
  | .list xs | .tuple xs | .seq xs | .seqNoLen xs =>
    match extendLoop K xs l with
    | (l', none) => .ok l' r
    | (l', some e) => .exc l' e
  | .iter xs f =>
    match extendLoop K xs l, f with
    | (l', some e), _ => .exc l' e
    | (l', none), none => .ok l' r
    | (l', none), some e => .exc l' e
  | .notIterable => .exc l .typeError

/-- IntArrayList.cpp 239-290, `extend`. -/
def extend (K : Kind) (l : List Int) (s : Src) : LOut := extendWith K l s .none

/-- IntArrayList.cpp 738-782, `+=`. -/
def iadd (K : Kind) (l : List Int) (s : Src) : LOut := extendWith K l s .self

/-- IntArrayList.cpp 293-335, `pop` with zero or one argument (BigIntArrayList.cpp 293-332: same effect,
`vector[index]` then `pop_back` / `erase`). -/
def pop (cfg : Cfg) (K : Kind) (l : List Int) (a : Option Arg) : LOut :=
  match l.getLast? with
  | none => .exc l .indexError
  | some last =>
    match a with
    | none => .ok l.dropLast (.int (box K cfg.py last))
    | some a =>
      match asSsize a with
      | (_, some e) => .exc l e
      | (i, none) =>
        let i := if i < 0 then i + l.length else i
        if i < 0 ∨ i ≥ l.length then .exc l .indexError
        else
          match l[i.toNat]? with
          | none => .ub .outOfBounds
          | some v => .ok (l.eraseIdx i.toNat) (.int (box K cfg.py v))

/-- `std::find(begin + start, begin + stop, value)` as an index, `none` if not found. (IntArrayList.cpp 367, 434,
879.) -/
def findFrom [DecidableEq α] (l : List α) (start stop : Nat) (v : α) : Option Nat :=
  match ((l.take stop).drop start).findIdx? (· == v) with
  | none => none
  | some k => some (start + k)

/-- IntArrayList.cpp 337-376, `index`. -/
def index (K : Kind) (l : List Int) (a : Arg) (start stop : Option Arg) : LOut :=
  let n : Int := l.length
  let get (o : Option Arg) (d : Int) : CRes := match o with | none => (d, none) | some a => parseN a
  match parseElem K a, get start 0, get stop n with
  | (_, some e), _, _ => .exc l e
  | (_, none), (_, some e), _ => .exc l e
  | (_, none), (_, none), (_, some e) => .exc l e
  | (v, none), (start, none), (stop, none) =>
    let start := if start < 0 then start + n else start
    let stop := if stop < 0 then stop + n else stop
    let start := if start < 0 then 0 else start
    let stop := if stop > n then n else stop
    if start > stop then .exc l .valueError
    else if stop < 0 then .ub .badIterator
    else
      match findFrom l start.toNat stop.toNat v with
      | none => .exc l .valueError
      | some k => .ok l (.int (canon k))

/-- IntArrayList.cpp 378-394, `count`. -/
def count (K : Kind) (l : List Int) (a : Arg) : LOut :=
  match toElem K a with
  | (v, e) =>
    match (if v = -1 then e else none) with
    | some e => .exc l e
    | none => .ok l (.int (canon (l.count v)))

/-- IntArrayList.cpp 396-423, `insert`. -/
def insert (K : Kind) (l : List Int) (i a : Arg) : LOut :=
  match parseN i, parseElem K a with
  | (_, some e), _ => .exc l e
  | (_, none), (_, some e) => .exc l e
  | (i, none), (v, none) =>
    let n : Int := l.length
    let i := if i < 0 then max 0 (n + i) else if i > n then n else i
    if 0 ≤ i ∧ i ≤ n then .ok (l.take i.toNat ++ v :: l.drop i.toNat) .none
    else .ub .badIterator

/-- IntArrayList.cpp 425-448, `remove`. -/
def remove (K : Kind) (l : List Int) (a : Arg) : LOut :=
  match toElem K a with
  | (_, some e) => .exc l e
  | (v, none) =>
    match findFrom l 0 l.length v with
    | none => .exc l .valueError
    | some k => .ok (l.eraseIdx k) .none

/-- IntArrayList.cpp 516-531, `sq_item`. -/
def getItem (cfg : Cfg) (K : Kind) (l : List Int) (i : Int) : LOut :=
  let i := if i < 0 then l.length + i else i
  if i < 0 ∨ i ≥ l.length then .exc l .indexError
  else
    match l[i.toNat]? with
    | none => .ub .outOfBounds
    | some v => .ok l (.int (box K cfg.py v))

/-- Item loop of `getitem_slice` (IntArrayList.cpp 556-564). -/
def sliceLoop (l : List α) (start step : Int) : Nat → Nat → Except UB (List α)
  | 0, _ => .ok []
  | n + 1, i =>
    let idx := start + i * step
    if idx < 0 then .error .outOfBounds
    else
      match l[idx.toNat]? with
      | none => .error .outOfBounds
      | some v =>
        match sliceLoop l start step n (i + 1) with
        | .ok r => .ok (v :: r)
        | .error u => .error u

/-- IntArrayList.cpp 533-566, `mp_subscript`. For an object that is neither an index nor a slice the
code calls `PySlice_Unpack` on it unchecked (545), which reads it as a slice object. -/
def subscript (cfg : Cfg) (K : Kind) (l : List Int) (k : Key) : LOut :=
  match k with
  | .idx .other => .ub .typeConfusion
  | .idx a =>
    match asSsizeIndex a with
    | (_, some e) => .exc l e
    | (i, none) => getItem cfg K l i
  | .slice s =>
    match sliceUnpack s with
    | .error e => .exc l e
    | .ok (start, stop, step) =>
      let (start, _, n) := adjustIndices l.length start stop step
      match sliceLoop l start step n.toNat 0 with
      | .error u => .ub u
      | .ok r => .ok l (.pylist (r.map (box K cfg.py)))

/-- IntArrayList.cpp 568-597, `sq_ass_item` (`none` = delete). -/
def setItem (K : Kind) (l : List Int) (i : Int) (a : Option Arg) : LOut :=
  let i := if i < 0 then l.length + i else i
  if i < 0 ∨ i ≥ l.length then .exc l .indexError
  else
    match a with
    | none => if i.toNat < l.length then .ok (l.eraseIdx i.toNat) .none else .ub .badIterator
    | some a =>
      match toElem K a with
      | (_, some e) => .exc l e
      | (v, none) => if i.toNat < l.length then .ok (l.set i.toNat v) .none else .ub .outOfBounds

/-- `PySequence_GetItem(value, i)` followed by `PyLong_AsLong(item)`, on the current contents `cur` when
the value is the list itself; `none` = no such item (IndexError). (IntArrayList.cpp 634-639, 647-652, 665-670,
678-685.) -/
def srcItem (cfg : Cfg) (K : Kind) (cur : List Int) (s : Src) (i : Nat) : Option CRes :=
  match s with
  | .same v => v[i]?.map (rebox K cfg.py)
  | .self => cur[i]?.map (rebox K cfg.py)
  | .list xs | .tuple xs | .seq xs | .seqNoLen xs => xs[i]?.map (toElem K)
  | .iter _ _ | .notIterable => none

/-- Overwriting loop of slice assignment (IntArrayList.cpp 633-644, 646-657, 664-675): the element is
stored before the error check. -/
def assignLoop (cfg : Cfg) (K : Kind) (s : Src) (start : Nat) : Nat → Nat → List Int → LOut
  | 0, _, cur => .ok cur .none
  | n + 1, i, cur =>
    match srcItem cfg K cur s i with
    | none => .exc cur .indexError
    | some (v, e) =>
      if start + i < cur.length then
        match e with
        | some e => .exc (cur.set (start + i) v) e
        | none => assignLoop cfg K s start n (i + 1) (cur.set (start + i) v)
      else .ub .outOfBounds

/-- Inserting loop of slice assignment (IntArrayList.cpp 677-691): the element is inserted before the
error check. -/
def insertLoop (cfg : Cfg) (K : Kind) (s : Src) (start : Nat) : Nat → Nat → List Int → LOut
  | 0, _, cur => .ok cur .none
  | n + 1, i, cur =>
    match srcItem cfg K cur s i with
    | none => .exc cur .indexError
    | some (v, e) =>
      if start + i ≤ cur.length then
        let cur' := cur.take (start + i) ++ v :: cur.drop (start + i)
        match e with
        | some e => .exc cur' e
        | none => insertLoop cfg K s start n (i + 1) cur'
      else .ub .badIterator

/-- `PySequence_Size(value)`: -1 with TypeError if there is no `__len__`. (CPython; called at IntArrayList.cpp 623.)
-/
def srcSize (l : List Int) : Src → Int
  | .same v => v.length
  | .self => l.length
  | .list xs | .tuple xs | .seq xs => xs.length
  | .seqNoLen _ | .iter _ _ | .notIterable => -1

/-- IntArrayList.cpp 600-700, `mp_ass_subscript` (`none` = deletion). For a deletion with a slice the
code calls `PySequence_Check(NULL)` (618). -/
def assSubscript (cfg : Cfg) (K : Kind) (l : List Int) (k : Key) (val : Option (Arg ⊕ Src)) : LOut :=
  match k with
  | .idx .other => .ub .typeConfusion
  | .idx a =>
    match asSsizeIndex a with
    | (_, some e) => .exc l e
    | (i, none) =>
      match val with
      | none => setItem K l i none
      | some (.inl v) => setItem K l i (some v)
      | some (.inr _) => setItem K l i (some .other)
  | .slice s =>
    match sliceUnpack s with
    | .error e => .exc l e
    | .ok (start, stop, step) =>
      let (start, stop, n) := adjustIndices l.length start stop step
      match val with
      | none => .ub .nullDeref
      | some (.inl _) => .exc l .typeError
      | some (.inr src) =>
        if !src.isSequence then .exc l .typeError
        else
          let m := srcSize l src
          if step ≠ 1 then .exc l .notImplementedError
          else if m = n then assignLoop cfg K src start.toNat n.toNat 0 l
          else if m < n then
            match assignLoop cfg K src start.toNat m.toNat 0 l with
            | .ok l' _ =>
              if 0 ≤ start + m ∧ start + m ≤ stop ∧ stop ≤ l'.length then
                let l'' := l'.take (start + m).toNat ++ l'.drop stop.toNat
                if m < 0 then .pending l'' .none .typeError else .ok l'' .none
              else .ub .badIterator
            | o => o
          else
            match assignLoop cfg K src start.toNat n.toNat 0 l with
            | .ok l' _ => insertLoop cfg K src start.toNat (m - n).toNat n.toNat l'
            | o => o

/-- IntArrayList.cpp 702-736, `+`. `Py_CreateObj(type, pySelf)` calls `PyObject_CallObject(type, pySelf)`
(utils/PythonUtils.h 49-52), which raises TypeError because the argument pack is not a tuple; the code
then replaces it by MemoryError (708-710). Otherwise `to_list` and `PySequence_Concat`, which accepts
only a Python list on the right (a tuple or other sequence is a TypeError there). -/
def add (cfg : Cfg) (K : Kind) (l : List Int) (s : Src) : LOut :=
  match s with
  | .same _ | .self => .exc l .memoryError
  | .list xs => .ok l (.pyconcat (toList cfg K l) xs)
  | _ => .exc l .typeError

/-- Copy loop of `*` (IntArrayList.cpp 806-808) with `k` copies left. The result block is 64-byte aligned
(utils/memory/AlignedAllocator.h), so the destination address is `selfSize * i * sizeof` modulo 64. -/
def mulLoop (cfg : Cfg) (K : Kind) (l : List Int) : Nat → Nat → List Int → Except UB (List Int)
  | 0, _, dst => .ok dst
  | k + 1, i, dst =>
    match simdMemCpy cfg true K.size 0 (l.length * i * K.size) l dst (l.length * i) l.length with
    | .error u => .error u
    | .ok dst' => mulLoop cfg K l k (i + 1) dst'

/-- IntArrayList.cpp 785-817, `*`. -/
def mul (cfg : Cfg) (K : Kind) (l : List Int) (n : Int) : LOut :=
  let n := if n < 0 then 0 else n
  if n = 0 then .ok l (.newList [])
  else
    match mulLoop cfg K l n.toNat 0 (List.replicate (l.length * n.toNat) 0) with
    | .error u => .ub u
    | .ok r => .ok l (.newList r)

/-- `l.__rmul__(a)`. The type has `sq_repeat` (`*`), for which CPython makes a method `__rmul__` before it looks at the
method table; as METH_COEXIST is not set, the entry for IntArrayList.cpp 819-831 is skipped. The made method passes
`PyNumber_AsSsize_t(a, PyExc_OverflowError)`. -/
def rmul (cfg : Cfg) (K : Kind) (l : List Int) (a : Arg) : LOut :=
  match asLong a with
  | (_, some e) => .exc l e
  | (n, none) => mul cfg K l n

/-- Copy loop of `*=` (IntArrayList.cpp 848-854): destination `data() + selfSize * sizeof(int) * i`,
pointer arithmetic in elements. -/
def imulLoop (cfg : Cfg) (K : Kind) (size : Nat) : Nat → Nat → List Int → Except UB (List Int)
  | 0, _, v => .ok v
  | k + 1, i, v =>
    let off := size * K.size * i
    match simdMemCpy cfg true K.size 0 (off * K.size) (v.take size) v off size with
    | .error u => .error u
    | .ok v' => imulLoop cfg K size k (i + 1) v'

/-- IntArrayList.cpp 833-864, `*=`. -/
def imul (cfg : Cfg) (K : Kind) (l : List Int) (n : Int) : LOut :=
  let n := if n < 0 then 0 else n
  if n = 0 then .ok [] .self
  else
    match imulLoop cfg K l.length (n.toNat - 1) 1 (l ++ List.replicate (l.length * n.toNat - l.length) 0) with
    | .error u => .ub u
    | .ok r => .ok r .self

/-- IntArrayList.cpp 866-888, `in`. -/
def contains (K : Kind) (l : List Int) (a : Arg) : LOut :=
  match a with
  | .int _ =>
    match toElem K a with
    | (_, some e) => .exc l e
    | (v, none) => .ok l (.bool (findFrom l 0 l.length v).isSome)
  | _ => .ok l (.bool false)

/-! ### reverse -/

/-- Little-endian bytes of the elements of the vector's block. (The memory behind `vector.data()`, IntArrayList.cpp
901-903.) -/
def toBytes (K : Kind) (l : List Int) : Bytes Nat := fun p =>
  ((l.getD (p / K.size) 0 % 2 ^ K.bits).toNat / 256 ^ (p % K.size)) % 256

/-- Unsigned value of the `w` bytes at offset `p`. (The memory behind `vector.data()`.) -/
def loadU (m : Bytes Nat) (p : Nat) : Nat → Nat
  | 0 => 0
  | w + 1 => m p + 256 * loadU m (p + 1) w

/-- The elements stored in a block. (The memory behind `vector.data()`.) -/
def ofBytes (K : Kind) (n : Nat) (m : Bytes Nat) : List Int :=
  (List.range n).map fun i => wrapS K.bits (loadU m (i * K.size) K.size)

/-- IntArrayList.cpp 898-905, `reverse`: `simdReverse(data(), size())`. -/
def reverse (cfg : Cfg) (K : Kind) (l : List Int) : LOut :=
  match qReverse cfg K.size l.length (toBytes K l) with
  | none => .ub .outOfBounds
  | some m => .ok (ofBytes K l.length m) .none

/-! ### Comparison -/

/-- The element/size comparison of the four ordering functions (973/976, 1005/1008, 1037/1040, 1069/1072). -/
def _root_.Verif.CmpOp.rel (op : CmpOp) (x y : Int) : Bool :=
  match op with
  | .lt => decide (x < y)
  | .le => decide (x ≤ y)
  | .gt => decide (x > y)
  | .ge => decide (x ≥ y)
  | .eq => decide (x = y)
  | .ne => decide (x ≠ y)

/-- Element loop of `lt/le/gt/ge` (e.g. 971-975 and 985-992): first difference decides; conversion errors
are not checked (the pending exception is returned along). -/
def ordLoop (op : CmpOp) : List Int → List CRes → Option Exc → Option Bool × Option Exc
  | x :: xs, (y, e) :: ys, p =>
    if x ≠ y then (some (op.rel x y), e.or p) else ordLoop op xs ys (e.or p)
  | _, _, p => (none, p)

/-- Element loop of `eq` (936-948): `some` = answer, with the exception left set by a failed
conversion. -/
def eqLoop : List Int → List CRes → Bool × Option Exc
  | x :: xs, (y, e) :: ys =>
    match e with
    | some e => (false, some e)
    | none => if x ≠ y then (false, none) else eqLoop xs ys
  | _, _ => (true, none)

/-- Wrap a boolean result with a possibly pending exception. (IntArrayList.cpp 914-1090.) -/
def boolOut (l : List Int) (b : Bool) (p : Option Exc) : LOut :=
  match p with
  | none => .ok l (.bool b)
  | some e => .pending l (.bool b) e

/-- IntArrayList.cpp 914-951, `==`. `memcmp` on equal sizes (922) is element equality. -/
def eq (K : Kind) (l : List Int) (s : Src) : Bool × Option Exc :=
  match s with
  | .same v => if v.length ≠ l.length then (false, none) else (decide (l = v), none)
  | .self => (decide (l = l), none)
  | .list xs | .tuple xs | .seq xs =>
    if xs.length ≠ l.length then (false, none) else eqLoop l (xs.map (toElem K))
  | .seqNoLen _ => (false, some .typeError)
  | .iter _ _ | .notIterable => (false, none)

/-- IntArrayList.cpp 964-1090: `lt`, `le`, `gt`, `ge`. For a sequence without length `seq_size` is -1:
no element is compared and the sizes are compared as `size_t`, i.e. with 2^64 - 1. -/
def ord (K : Kind) (op : CmpOp) (l : List Int) (s : Src) : Bool × Option Exc :=
  let go (ys : List CRes) : Bool × Option Exc :=
    match ordLoop op l ys none with
    | (some b, p) => (b, p)
    | (none, p) => (op.rel l.length ys.length, p)
  match s with
  | .same v => go (v.map fun y => (y, none))
  | .self => go (l.map fun y => (y, none))
  | .list xs | .tuple xs | .seq xs => go (xs.map (toElem K))
  | .seqNoLen _ => (op.rel l.length (2 ^ 64 - 1), some .typeError)
  | .iter _ _ | .notIterable => (false, none)

/-- IntArrayList.cpp 953-962 and 1092-1110, `tp_richcompare`. -/
def compare (K : Kind) (op : CmpOp) (l : List Int) (s : Src) : LOut :=
  match op with
  | .eq => boolOut l (eq K l s).1 (eq K l s).2
  | .ne => boolOut l (!(eq K l s).1) (eq K l s).2
  | op => boolOut l (ord K op l s).1 (ord K op l s).2

/-! ### repr -/

/-- Loop of `repr` over all but the last element (IntArrayList.cpp 1134-1139). -/
def reprLoop : List Int → String → String
  | [], acc => acc
  | v :: vs, acc => reprLoop vs (acc ++ toString v ++ ", ")

/-- IntArrayList.cpp 1118-1147, `repr` / `str`. -/
def repr (l : List Int) : String :=
  match l.getLast? with
  | none => "[]"
  | some last => reprLoop l.dropLast "[" ++ toString last ++ "]"

/-! ## One step of the API -/

/-- Dispatch of the API call to the functions above (method table 1172-1193 and slot tables 1203-1220;
`clear` 907-912, `copy` 204-219, `len` 501-505). -/
def step (cfg : Cfg) (K : Kind) (l : List Int) : Op → LOut
  | .append a => append K l a
  | .extend s => extend K l s
  | .insert i a => insert K l i a
  | .pop i => pop cfg K l i
  | .remove a => remove K l a
  | .index a i j => index K l a i j
  | .count a => count K l a
  | .contains a => contains K l a
  | .get k => subscript cfg K l k
  | .set k v => assSubscript cfg K l k (some v)
  | .del k => assSubscript cfg K l k none
  | .iadd s => iadd K l s
  | .add s => add cfg K l s
  | .mul n => mul cfg K l n
  | .rmul a => rmul cfg K l a
  | .imul n => imul cfg K l n
  | .cmp op s => compare K op l s
  | .reverse => reverse cfg K l
  | .resize a => resize l a
  | .clear => .ok [] .none
  | .copy => .ok l (.newList l)
  | .toList => .ok l (.pylist (toList cfg K l))
  | .len => .ok l (.int (canon l.length))
  | .repr => .ok l (.str (repr l))

/-- Outcomes of a history; it ends at undefined behaviour. Scaffolding of the model, no code of /repo. -/
def run (cfg : Cfg) (K : Kind) : List Int → List Op → List LOut
  | _, [] => []
  | l, op :: ops =>
    step cfg K l op :: (match (step cfg K l op).state? with | some l' => run cfg K l' ops | none => [])

end ArrayList
end Verif
