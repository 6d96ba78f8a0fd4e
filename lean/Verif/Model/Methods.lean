import Verif.VocabMethods
import Verif.Model.IntArrayList
import Verif.Model.IntLinkedList

/-!
# From a name to a C function

The type objects of the list classes and the way CPython uses them: the dictionary `PyType_Ready` makes of the slots and the
method table, the calling conventions of the table's flags, and the argument parsing at the beginning of the functions.
IntArrayList.cpp 1172-1246, BigIntArrayList.cpp 1174-1248, IntLinkedList.cpp 1088-1155, ObjectArrayList.cpp 1139-1206,
ObjectLinkedList.cpp 1050-1116.

Not here: `__class_getitem__`, `__init__` (C62), the buffer slot (C22), and what is inherited from `object`.
-/

namespace Verif.Methods

variable {S : Type}

/-! ## Tables -/

/-- METH_NOARGS, METH_O, METH_FASTCALL, METH_VARARGS, METH_VARARGS | METH_KEYWORDS. (IntArrayList.cpp 1172-1193.) -/
inductive Flags
  | noargs | o | fastcall | varargs | keywords
  deriving DecidableEq, Repr

/-- The functions in the method tables. (IntArrayList.cpp 1172-1193.) -/
inductive Fn
  | fromRange | resize | toList | copy | append | extend | pop | index | count | insert | remove | sort | reverse | clear
  | rmul | reversed
  deriving DecidableEq, Repr

/-- Entries that all tables have (IntArrayList.cpp 1175-1188, IntLinkedList.cpp 1090-1103, ObjectArrayList.cpp 1141-1154,
ObjectLinkedList.cpp 1051-1064). -/
def common : List (Name × Fn × Flags) :=
  [(.toList, .toList, .noargs), (.copy, .copy, .noargs), (.append, .append, .o), (.extend, .extend, .fastcall),
   (.pop, .pop, .fastcall), (.index, .index, .varargs), (.count, .count, .o), (.insert, .insert, .varargs),
   (.remove, .remove, .o), (.sort, .sort, .keywords), (.reverse, .reverse, .noargs), (.clear, .clear, .noargs),
   (.rmul, .rmul, .o), (.reversed, .reversed, .noargs)]

/-- `tp_methods` (IntArrayList.cpp 1172-1193 and the tables of the other classes). -/
def methods : Cls → List (Name × Fn × Flags)
  | .intArray | .bigIntArray => (.fromRange, .fromRange, .varargs) :: (.resize, .resize, .o) :: common
  | .intLinked => (.fromRange, .fromRange, .varargs) :: common
  | .objArray => (.resize, .resize, .o) :: common
  | .objLinked => common

/-- The slots of a type that the classes can fill. (IntArrayList.cpp 1203-1246.) -/
inductive Slot
  | tpRepr | tpStr | tpHash | tpRichcompare | tpIter | mpLength | mpSubscript | mpAssSubscript
  | sqLength | sqConcat | sqRepeat | sqItem | sqAssItem | sqContains | sqInplaceConcat | sqInplaceRepeat
  deriving DecidableEq, Repr

/-- The filled slots (IntArrayList.cpp 1203-1220, 1227-1246; the other classes fill the same ones). -/
def slots : List Slot :=
  [.sqLength, .sqConcat, .sqRepeat, .sqItem, .sqAssItem, .sqContains, .sqInplaceConcat, .sqInplaceRepeat, .mpLength,
   .mpSubscript, .mpAssSubscript, .tpIter, .tpHash, .tpRichcompare, .tpRepr, .tpStr]

/-- Calling conventions of CPython's `wrap_…` functions: number of arguments. `setitem` and `delitem` are the two methods
of an assignment slot. -/
inductive Wrap
  | none | one | two
  deriving DecidableEq, Repr

/-- CPython's `slotdefs`, in its order, as far as the slots above go. -/
def slotdefs : List (Name × Slot × Wrap) :=
  [(.repr, .tpRepr, .none), (.hash, .tpHash, .none), (.str, .tpStr, .none), (.lt, .tpRichcompare, .one),
   (.le, .tpRichcompare, .one), (.eq, .tpRichcompare, .one), (.ne, .tpRichcompare, .one), (.gt, .tpRichcompare, .one),
   (.ge, .tpRichcompare, .one), (.iter, .tpIter, .none),
   (.len, .mpLength, .none), (.getitem, .mpSubscript, .one), (.setitem, .mpAssSubscript, .two),
   (.delitem, .mpAssSubscript, .one),
   (.len, .sqLength, .none), (.add, .sqConcat, .one), (.mul, .sqRepeat, .one), (.rmul, .sqRepeat, .one),
   (.getitem, .sqItem, .one), (.setitem, .sqAssItem, .two), (.delitem, .sqAssItem, .one), (.contains, .sqContains, .one),
   (.iadd, .sqInplaceConcat, .one), (.imul, .sqInplaceRepeat, .one)]

/-- What a name stands for. (CPython's wrappers and method descriptors.) -/
inductive Impl
  | slot (name : Name) (s : Slot) (w : Wrap)
  | method (f : Fn) (fl : Flags)
  deriving DecidableEq, Repr

/-- The type's dictionary: `add_operators` of CPython goes through `slotdefs`, then `add_methods` through the table; neither
replaces an entry (no METH_COEXIST), so the first entry of a name counts. -/
def dict (c : Cls) : List (Name × Impl) :=
  ((slotdefs.filter fun d => d.2.1 ∈ slots).map fun d => (d.1, .slot d.1 d.2.1 d.2.2)) ++
  (methods c).map fun d => (d.1, .method d.2.1 d.2.2)

/-! ## Argument parsing -/

/-- Units of a format string before `|`. (CPython's `PyArg_ParseTuple`.) -/
def required (fmt : List Char) : Nat := (fmt.takeWhile (· ≠ '|')).length

/-- Units of a format string. (CPython's `PyArg_ParseTuple`.) -/
def total (fmt : List Char) : Nat := (fmt.filter (· ≠ '|')).length

/-- `PyArg_ParseTuple` of CPython looks at the number of arguments first. The conversions of the single arguments are done
in the models of the functions. -/
def counted (fmt : List Char) (args : List (Thing S)) : Bool :=
  decide (required fmt ≤ args.length ∧ args.length ≤ total fmt)

/-- The argument for parameter number `i` named `name`: by position, else by keyword (`vgetargskeywords` of CPython). -/
def pick (c : Args S) (i : Nat) (name : String) : Option (Thing S) :=
  match c.pos[i]? with
  | some t => some t
  | none => c.kw.lookup name

/-- How many of the parameters `names`, the first of them number `i`, are given by keyword. (CPython's
`vgetargskeywords`; called at IntArrayList.cpp 457.) -/
def used (c : Args S) : Nat → List String → Nat
  | _, [] => 0
  | i, s :: ss => (if i < c.pos.length then 0 else if (c.kw.lookup s).isSome then 1 else 0) + used c (i + 1) ss

/-- `PyArg_ParseTupleAndKeywords` with `|Oi` and the names `key`, `reverse` (IntArrayList.cpp 455-459): too many arguments,
conversion of the second (default 0), then keywords that were not used. -/
def parseSort (c : Args S) : Except Exc (Option (Thing S) × Int) :=
  if c.pos.length + c.kw.length > 2 then .error .typeError
  else
    match (pick c 1 "reverse").elim (0, none) (fun t => parseI t.arg) with
    | (_, some e) => .error e
    | (r, none) =>
      if used c 0 ["key", "reverse"] < c.kw.length then .error .typeError
      else .ok (pick c 0 "key", r)

/-- The key is used (IntArrayList.cpp 465, BigIntArrayList.cpp 462, IntLinkedList.cpp 411, ObjectArrayList.cpp 431,
ObjectLinkedList.cpp 383). -/
def keyed (t : Option (Thing S)) : Option (Thing S) := t.filter (!·.isNone)

/-- The direction. The int lists without a key compare with 1 (IntArrayList.cpp 461, 468, BigIntArrayList.cpp 458, 465,
IntLinkedList.cpp 412); with a key, and in the object lists, `CPython_sort` gets the number and tests it (CPythonSort.c 1549,
1608). -/
def descending (c : Cls) (key : Option (Thing S)) (r : Int) : Bool :=
  match c with
  | .intArray | .bigIntArray | .intLinked => if key.isSome then r ≠ 0 else r = 1
  | .objArray | .objLinked => r ≠ 0

/-- The functions of the tables. `empty`: the list has no elements.
* `extend` (IntArrayList.cpp 243-248) and `pop` (296-334; emptiness is tested first: with one argument at most this is left to the
  models of `pop`, with more the test comes before the complaint about their number),
* `index` (344, `i|nn`, `L|nn` or `O|nn`), `insert` (402, `ni`, `nL`, `nO`), `from_range` (PythonUtils.h 70, `n|nn`),
* `sort` (450-470),
* functions of METH_O get one argument, those of METH_NOARGS none. -/
def enter (cls : Cls) (empty : Bool) (f : Fn) (c : Args S) : Except Exc (Request S) :=
  match f with
  | .toList => .ok .toList
  | .copy => .ok .copy
  | .reverse => .ok .reverse
  | .clear => .ok .clear
  | .reversed => .ok .reversed
  | .append => match c.pos with | x :: _ => .ok (.append x) | [] => .error .systemError
  | .count => match c.pos with | x :: _ => .ok (.count x) | [] => .error .systemError
  | .remove => match c.pos with | x :: _ => .ok (.remove x) | [] => .error .systemError
  | .resize => match c.pos with | x :: _ => .ok (.resize x) | [] => .error .systemError
  | .rmul => match c.pos with | x :: _ => .ok (.mul x) | [] => .error .systemError
  | .extend => match c.pos with | [x] => .ok (.extend x) | _ => .error .typeError
  | .pop =>
    match c.pos with
    | [] => .ok (.pop none)
    | [i] => .ok (.pop (some i))
    | _ => if empty then .error .indexError else .error .typeError
  | .index =>
    match counted ['O', '|', 'n', 'n'] c.pos, c.pos with
    | true, x :: r => .ok (.index x r[0]? r[1]?)
    | _, _ => .error .typeError
  | .insert =>
    match counted ['n', 'O'] c.pos, c.pos with
    | true, [i, x] => .ok (.insert i x)
    | _, _ => .error .typeError
  | .fromRange =>
    match counted ['n', '|', 'n', 'n'] c.pos, c.pos with
    | true, a :: r => .ok (.range a r[0]? r[1]?)
    | _, _ => .error .typeError
  | .sort =>
    match parseSort c with
    | .error e => .error e
    | .ok (k, r) => .ok (.sort (keyed k) (descending cls (keyed k) r))

/-- Calling conventions of the flags (`method_vectorcall_…` of CPython). -/
def callMethod (cls : Cls) (empty : Bool) (f : Fn) (fl : Flags) (c : Args S) : Except Exc (Request S) :=
  match fl with
  | .noargs => if c.kw.isEmpty && c.pos.isEmpty then enter cls empty f c else .error .typeError
  | .o => if c.kw.isEmpty && decide (c.pos.length = 1) then enter cls empty f c else .error .typeError
  | .fastcall | .varargs => if c.kw.isEmpty then enter cls empty f c else .error .typeError
  | .keywords => enter cls empty f c

/-- What a slot is asked for. Assignment without a value is deletion. (CPython's `wrap_*` functions and
IntArrayList.cpp 1203-1246.) -/
def slotRequest (name : Name) : Slot → List (Thing S) → Except Exc (Request S)
  | .tpRepr, [] => .ok .repr
  | .tpStr, [] => .ok .repr                                    -- 1149-1151
  | .tpIter, [] => .ok .iter
  | .mpLength, [] | .sqLength, [] => .ok .len
  | .mpSubscript, [k] | .sqItem, [k] => .ok (.get k)
  | .mpAssSubscript, [k] | .sqAssItem, [k] => .ok (.del k)
  | .mpAssSubscript, [k, x] | .sqAssItem, [k, x] => .ok (.set k x)
  | .sqConcat, [x] => .ok (.add x)
  | .sqRepeat, [n] => .ok (.mul n)
  | .sqContains, [x] => .ok (.contains x)
  | .sqInplaceConcat, [x] => .ok (.iadd x)
  | .sqInplaceRepeat, [n] => .ok (.imul n)
  | .tpRichcompare, [x] =>
    match name with
    | .lt => .ok (.cmp .lt x)
    | .le => .ok (.cmp .le x)
    | .eq => .ok (.cmp .eq x)
    | .ne => .ok (.cmp .ne x)
    | .gt => .ok (.cmp .gt x)
    | .ge => .ok (.cmp .ge x)
    | _ => .error .systemError
  | _, _ => .error .typeError

/-- Methods made from slots take no keywords and a fixed number of arguments. For `PyObject_HashNotImplemented` (1241) the
entry is `None`, which cannot be called. -/
def callSlot (name : Name) (s : Slot) (w : Wrap) (c : Args S) : Except Exc (Request S) :=
  if s = .tpHash then .error .typeError
  else if c.kw.isEmpty && decide (c.pos.length = (match w with | .none => 0 | .one => 1 | .two => 2)) then
    slotRequest name s c.pos
  else .error .typeError

/-- `l.name(*args, **kwargs)`; `none` is an AttributeError. (IntArrayList.cpp 1172-1246 by way of CPython's attribute
lookup.) -/
def request (cls : Cls) (empty : Bool) (name : Name) (c : Args S) : Option (Except Exc (Request S)) :=
  match (dict cls).lookup name with
  | none => none
  | some (.slot n s w) => some (callSlot n s w c)
  | some (.method f fl) => some (callMethod cls empty f fl c)

/-! ## Int lists -/

/-- The number that `wrap_indexargfunc` of CPython passes to `*` and `*=`. -/
def times (t : Thing S) : CRes := asLong t.arg

/-- Run a request on the contents of an array list; requests that other models treat (sorting C16 and C34, iterators C20 and
C21, ranges C09) are `none`. -/
def performArray (cfg : Cfg) (K : Kind) (l : List Int) (r : Request Src) : Option LOut :=
  match r with
  | .mul n => some (match times n with | (_, some e) => .exc l e | (n, none) => ArrayList.step cfg K l (.mul n))
  | .imul n => some (match times n with | (_, some e) => .exc l e | (n, none) => ArrayList.step cfg K l (.imul n))
  | r => r.op.map (ArrayList.step cfg K l)

/-- The class with elements of this kind (IntArrayList.cpp, BigIntArrayList.cpp). -/
def clsOf : Kind → Cls
  | .i32 => .intArray
  | .i64 => .bigIntArray

/-- A call by name on an array list. (IntArrayList.cpp 1172-1246.) -/
def callArray (cfg : Cfg) (K : Kind) (l : List Int) (name : Name) (c : Args Src) : Option LOut :=
  match request (clsOf K) l.isEmpty name c with
  | none => none
  | some (.error e) => some (.exc l e)
  | some (.ok r) => performArray cfg K l r

/-- The same for IntLinkedList. (IntLinkedList.cpp 1088-1155.) -/
def performLinked (cfg : Cfg) (strict : Bool) (s : LState Int) (r : Request Src) : Option (Out (LState Int) Ret) :=
  match r with
  | .mul n => some (match times n with | (_, some e) => .exc s e | (n, none) => LinkedList.step cfg strict s (.mul n))
  | .imul n => some (match times n with | (_, some e) => .exc s e | (n, none) => LinkedList.step cfg strict s (.imul n))
  | r => r.op.map (LinkedList.step cfg strict s)

/-- A call by name on an IntLinkedList. (IntLinkedList.cpp 1088-1155.) -/
def callLinked (cfg : Cfg) (strict : Bool) (s : LState Int) (name : Name) (c : Args Src) : Option (Out (LState Int) Ret) :=
  match request .intLinked s.vals.isEmpty name c with
  | none => none
  | some (.error e) => some (.exc s e)
  | some (.ok r) => performLinked cfg strict s r

end Verif.Methods
