import Verif.Model.IntArrayList

/-!
# The array lists of ints on a machine that can refuse memory

Model/IntArrayList lets every allocation succeed and every length be stored. Here the same functions of
ints/IntArrayList.cpp and ints/BigIntArrayList.cpp run on a `std::vector` with a capacity, a largest size, and an
allocator (utils/memory/AlignedAllocator.h 12-30: `throw std::bad_alloc()` when the C library returns null) that grants or
refuses each request. What counts is where the resulting C++ exception is caught: in the `try` of the function
(RuntimeError), with the interpreter lock released (`*` and `*=`, whose `resize` is between `Py_BEGIN_ALLOW_THREADS` and
`Py_END_ALLOW_THREADS`), or nowhere (`extend` and `+=`).

The vector is that of libstdc++ (`_M_check_len`, `reserve`, `_M_default_append`); allocations of the interpreter itself
(`to_list`, result objects) succeed. `size_t` has 64 bits.
-/

namespace Verif.Limits

/-- The machine: does the `t`-th request of the program, for `b` bytes, succeed? (AlignedAllocator.h 12-30.) -/
abbrev Machine := Nat → Nat → Bool

/-- A vector: its elements and its capacity; and the number of requests made so far. Scaffolding of the model, no
code of /repo. -/
structure St where
  l : List Int
  cap : Nat
  t : Nat
  deriving DecidableEq, Repr

/-- The exceptions a vector throws for want of room. (AlignedAllocator.h 12-30; libstdc++.) -/
inductive Thrown
  | lengthError | badAlloc
  deriving DecidableEq, Repr

/-- `vector::max_size()`: `PTRDIFF_MAX / sizeof(T)`. (libstdc++.) -/
def maxSize (K : Kind) : Nat := (2 ^ 63 - 1) / K.size

/-- utils/memory/AlignedAllocator.h 50-52 with 12-30: a block for `n` elements replaces the old one, or `bad_alloc` and
nothing has changed. -/
def getBlock (K : Kind) (m : Machine) (s : St) (n : Nat) : St × Option Thrown :=
  if m s.t (n * K.size) then ({ s with cap := n, t := s.t + 1 }, none) else ({ s with t := s.t + 1 }, some .badAlloc)

/-- libstdc++ `_M_check_len(n)`: `none` = `length_error`, otherwise the new capacity. (Through IntArrayList.cpp 78,
99, 230, 280, 771.) -/
def checkLen (K : Kind) (size n : Nat) : Option Nat :=
  if maxSize K - size < n then none else some (min (size + max size n) (maxSize K))

/-- Room for `n` more elements (`push_back`, `insert`, `resize`). (Through IntArrayList.cpp 78, 142, 175, 230, 280,
771.) -/
def makeRoom (K : Kind) (m : Machine) (s : St) (n : Nat) : St × Option Thrown :=
  if n ≤ s.cap - s.l.length then (s, none)
  else
    match checkLen K s.l.length n with
    | none => (s, some .lengthError)
    | some len => getBlock K m s len

/-- `vector::reserve(n)`. (Called at IntArrayList.cpp 53, 266, 757.) -/
def reserve (K : Kind) (m : Machine) (s : St) (n : Nat) : St × Option Thrown :=
  if maxSize K < n then (s, some .lengthError)
  else if n ≤ s.cap then (s, none)
  else getBlock K m s n

/-- `vector::resize(n)`; new elements are 0. (Called at IntArrayList.cpp 142, 175, 805, 847.) -/
def vresize (K : Kind) (m : Machine) (s : St) (n : Nat) : St × Option Thrown :=
  if n ≤ s.l.length then ({ s with l := s.l.take n }, none)
  else
    match makeRoom K m s (n - s.l.length) with
    | (s', some x) => (s', some x)
    | (s', none) => ({ s' with l := s'.l ++ List.replicate (n - s.l.length) 0 }, none)

/-- IntArrayList.cpp 221-237, `append`: `push_back` in a `try`. -/
def append (K : Kind) (m : Machine) (s : St) (a : Arg) : Out St Ret :=
  match toElem K a with
  | (_, some e) => .exc s e
  | (v, none) =>
    match makeRoom K m s 1 with
    | (s', some _) => .exc s' .runtimeError
    | (s', none) => .ok { s' with l := s'.l ++ [v] } .none

/-- Item loop of `extend` and `+=` (271-281, 762-772); the `push_back` is in no `try`. -/
def extendLoop (K : Kind) (m : Machine) : List Arg → St → Out St Unit
  | [], s => .ok s ()
  | a :: as, s =>
    match toElem K a with
    | (_, some e) => .exc s e
    | (v, none) =>
      match makeRoom K m s 1 with
      | (_, some _) => .ub .terminate
      | (s', none) => extendLoop K m as { s' with l := s'.l ++ [v] }

/-- The length hint of the operand (`PyObject_LengthHint(iterable, 0)`, 264, 755): the length of a sized object, whatever
an iterator answers (`hint`), 0 otherwise. Simplified: a `__length_hint__` that raises is the subject of C68. -/
def hintOf (s : Src) (hint : Nat) : Nat :=
  match s with
  | .list xs | .tuple xs | .seq xs => xs.length
  | .iter _ _ => hint
  | _ => 0

/-- The items of the operand and the exception after the last one. (IntArrayList.cpp 258-288.) -/
def itemsOf : Src → List Arg × Option Exc
  | .list xs | .tuple xs | .seq xs | .seqNoLen xs => (xs, none)
  | .iter xs f => (xs, f)
  | _ => ([], none)

/-- `extend` (239-290) and `+=` (738-782); nothing here is in a `try`. -/
def extendWith (K : Kind) (m : Machine) (s : St) (src : Src) (hint : Nat) (r : Ret) : Out St Ret :=
  match src with
  | .same v =>
    match makeRoom K m s v.length with
    | (_, some _) => .ub .terminate
    | (s', none) => .ok { s' with l := s'.l ++ v } .none
  | .self => .ub .badIterator
  | .notIterable => .exc s .typeError
  | src =>
    match (if 0 < hintOf src hint then reserve K m s (s.l.length + hintOf src hint) else (s, none)) with
    | (_, some _) => .ub .terminate
    | (s', none) =>
      match extendLoop K m (itemsOf src).1 s', (itemsOf src).2 with
      | .ok s'' _, none => .ok s'' r
      | .ok s'' _, some e => .exc s'' e
      | .exc s'' e, _ => .exc s'' e
      | .pending s'' _ e, _ => .pending s'' r e
      | .ub u, _ => .ub u

/-- IntArrayList.cpp 396-423, `insert`, in a `try` (413-418). -/
def insert (K : Kind) (m : Machine) (s : St) (i a : Arg) : Out St Ret :=
  match parseN i, parseElem K a with
  | (_, some e), _ => .exc s e
  | (_, none), (_, some e) => .exc s e
  | (i, none), (v, none) =>
    let n : Int := s.l.length
    let i := if i < 0 then max 0 (n + i) else if i > n then n else i
    if 0 ≤ i ∧ i ≤ n then
      match makeRoom K m s 1 with
      | (s', some _) => .exc s' .runtimeError
      | (s', none) => .ok { s' with l := s'.l.take i.toNat ++ v :: s'.l.drop i.toNat } .none
    else .ub .badIterator

/-- IntArrayList.cpp 160-182, `resize`, in a `try` (174-179). -/
def resize (K : Kind) (m : Machine) (s : St) (a : Arg) : Out St Ret :=
  match a with
  | .int v =>
    let n := (asSsize (.int v)).1
    if n < 0 then .exc s .valueError
    else
      match vresize K m s n.toNat with
      | (s', some _) => .exc s' .runtimeError
      | (s', none) => .ok s' .none
  | _ => .exc s .typeError

/-- Inserting loop of slice assignment (677-691), in the `try` of 630-697. -/
def insertLoop (cfg : Cfg) (K : Kind) (m : Machine) (src : Src) (start : Nat) : Nat → Nat → St → Out St Ret
  | 0, _, s => .ok s .none
  | n + 1, i, s =>
    match ArrayList.srcItem cfg K s.l src i with
    | none => .exc s .indexError
    | some (v, e) =>
      if start + i ≤ s.l.length then
        match makeRoom K m s 1 with
        | (s', some _) => .exc s' .runtimeError
        | (s', none) =>
          let s'' := { s' with l := s'.l.take (start + i) ++ v :: s'.l.drop (start + i) }
          match e with
          | some e => .exc s'' e
          | none => insertLoop cfg K m src start n (i + 1) s''
      else .ub .badIterator

/-- An outcome of the unlimited functions, in place. Scaffolding of the model, no code of /repo. -/
def inPlace (s : St) : Out (List Int) Ret → Out St Ret
  | .ok l r => .ok { s with l := l } r
  | .exc l e => .exc { s with l := l } e
  | .pending l r e => .pending { s with l := l } r e
  | .ub u => .ub u

/-- IntArrayList.cpp 600-700: assignment to a slice. Only the branch with more new elements than old ones (663-692)
inserts; the others overwrite and erase. -/
def setSlice (cfg : Cfg) (K : Kind) (m : Machine) (s : St) (k : SliceArg) (val : Arg ⊕ Src) : Out St Ret :=
  match sliceUnpack k with
  | .error e => .exc s e
  | .ok (start, stop, step) =>
    let (start', _, n) := adjustIndices s.l.length start stop step
    match val with
    | .inl _ => .exc s .typeError
    | .inr src =>
      if !src.isSequence then .exc s .typeError
      else if step ≠ 1 then .exc s .notImplementedError
      else if n < ArrayList.srcSize s.l src then
        match inPlace s (ArrayList.assignLoop cfg K src start'.toNat n.toNat 0 s.l) with
        | .ok s' _ => insertLoop cfg K m src start'.toNat (ArrayList.srcSize s.l src - n).toNat n.toNat s'
        | o => o
      else inPlace s (ArrayList.assSubscript cfg K s.l (.slice k) (some (.inr src)))

/-- IntArrayList.cpp 785-817, `*`: `selfSize * n` is computed in `size_t`; an exception of `resize` (805) reaches the
`catch` (812-816), which uses the C API, while the lock is released (804). -/
def mul (cfg : Cfg) (K : Kind) (m : Machine) (s : St) (n : Int) : Out St Ret :=
  let n := if n < 0 then 0 else n
  if n = 0 then .ok s (.newList [])
  else
    match vresize K m ⟨[], 0, s.t⟩ (s.l.length * n.toNat % 2 ^ 64) with
    | (_, some _) => .ub .noGil
    | (d, none) =>
      match ArrayList.mulLoop cfg K s.l n.toNat 0 d.l with
      | .error u => .ub u
      | .ok r => .ok { s with t := d.t } (.newList r)

/-- `l.__rmul__(a)`. The type has `sq_repeat` (`*`), for which CPython makes a method `__rmul__` before it looks at the
method table; as METH_COEXIST is not set, the entry for IntArrayList.cpp 819-831 is skipped. The made method passes
`PyNumber_AsSsize_t(a, PyExc_OverflowError)`. -/
def rmul (cfg : Cfg) (K : Kind) (m : Machine) (s : St) (a : Arg) : Out St Ret :=
  match asLong a with
  | (_, some e) => .exc s e
  | (n, none) => mul cfg K m s n

/-- IntArrayList.cpp 833-864, `*=`: as `*`, on the list itself. -/
def imul (cfg : Cfg) (K : Kind) (m : Machine) (s : St) (n : Int) : Out St Ret :=
  let n := if n < 0 then 0 else n
  if n = 0 then .ok { s with l := [] } .self
  else
    match vresize K m s (s.l.length * n.toNat % 2 ^ 64) with
    | (_, some _) => .ub .noGil
    | (d, none) =>
      match ArrayList.imulLoop cfg K s.l.length (n.toNat - 1) 1 d.l with
      | .error u => .ub u
      | .ok r => .ok { d with l := r } .self

/-- IntArrayList.cpp 204-219, `copy`: `vector = vector` in a `try`; as much as is needed is requested. -/
def copy (K : Kind) (m : Machine) (s : St) : Out St Ret :=
  if s.l.length = 0 then .ok s (.newList [])
  else
    match getBlock K m ⟨[], 0, s.t⟩ s.l.length with
    | (d, some _) => .exc { s with t := d.t } .runtimeError
    | (d, none) => .ok { s with t := d.t } (.newList s.l)

/-- One call; `hint` is what an iterator among the arguments answers to `__length_hint__`. (The functions of
IntArrayList.cpp, by call.) -/
def step (cfg : Cfg) (K : Kind) (m : Machine) (s : St) (op : Op) (hint : Nat) : Out St Ret :=
  match op with
  | .append a => append K m s a
  | .extend src => extendWith K m s src hint .none
  | .iadd src => extendWith K m s src hint .self
  | .insert i a => insert K m s i a
  | .resize a => resize K m s a
  | .set (.slice k) v => setSlice cfg K m s k v
  | .mul n => mul cfg K m s n
  | .rmul a => rmul cfg K m s a
  | .imul n => imul cfg K m s n
  | .copy => copy K m s
  | op => inPlace s (ArrayList.step cfg K s.l op)

/-- A history of calls, each with the hint; it ends where a call does not return. Scaffolding of the model, no code
of /repo. -/
def run (cfg : Cfg) (K : Kind) (m : Machine) : St → List (Op × Nat) → Option St
  | s, [] => some s
  | s, (op, hint) :: rest =>
    match (step cfg K m s op hint).state? with
    | some s' => run cfg K m s' rest
    | none => none

/-- Loop of the constructor over items (71-79, 91-101), in the `try` of 51-107. -/
def initLoop (K : Kind) (m : Machine) : List Arg → St → St × Option Exc
  | [], s => (s, none)
  | a :: as, s =>
    match (toElem K a).2 with
    | some _ => (s, some .runtimeError)
    | none =>
      match makeRoom K m s 1 with
      | (s', some _) => (s', some .runtimeError)
      | (s', none) => initLoop K m as { s' with l := s'.l ++ [(toElem K a).1] }

/-- IntArrayList.cpp 42-111: the constructor with the iterable `src` and the expected size `n`, `t` requests having been
made before. -/
def init (K : Kind) (m : Machine) (t : Nat) (src : Src) (n : Nat) : Out St Unit :=
  match (if 0 < n then reserve K m ⟨[], 0, t⟩ n else (⟨[], 0, t⟩, none)) with
  | (s, some _) => .exc s .runtimeError
  | (s, none) =>
    match src with
    | .same v =>
      if v.length ≤ s.cap then .ok { s with l := v } ()
      else
        match getBlock K m s v.length with
        | (s', some _) => .exc s' .runtimeError
        | (s', none) => .ok { s' with l := v } ()
    | .self => .ok s ()                                    -- not possible for a new object
    | .notIterable => .exc s .typeError
    | src =>
      match initLoop K m (itemsOf src).1 s, (itemsOf src).2 with
      | (s', some e), _ => .exc s' e
      | (s', none), none => .ok s' ()
      | (s', none), some e => .exc s' e

/-- IntArrayList.cpp 118-158, `from_range`, `t` requests having been made before: the `resize` (142) is in the `try` of 128-155.
After `.exc` there is no list. -/
def fromRange (K : Kind) (m : Machine) (t : Nat) (a1 : Arg) (a2 a3 : Option Arg) : Out St Unit :=
  match ArrayList.evalRange a1 a2 a3 with
  | .error e => .exc ⟨[], 0, t⟩ e
  | .ok (start, stop, step) =>
    match ArrayList.rangeCount start stop step with
    | .error u => .ub u
    | .ok none => .ok ⟨[], 0, t⟩ ()
    | .ok (some n) =>
      match vresize K m ⟨[], 0, t⟩ n.toNat with
      | (s, some _) => .exc s .runtimeError
      | (s, none) =>
        match ArrayList.rangeLoop K step n.toNat start with
        | .error u => .ub u
        | .ok l => .ok { s with l := l } ()

end Verif.Limits
