import Verif.Model.ObjLinkedList

/-!
# The lists of objects on a machine that can refuse memory

Model/ObjArrayList and Model/ObjLinkedList let every allocation succeed. Here the same functions of
objects/ObjectArrayList.cpp and objects/ObjectLinkedList.cpp run on a machine that grants or refuses each request: a
`std::vector` with a capacity and a largest size, a `std::list` that asks for every node. What counts is where the C++
exception is caught (in the `try` of the function: RuntimeError; in `extend` and `+=`: nowhere) and which references have
been counted, and which elements stored, by then. Methods that ask for nothing are those of the two models.

The containers are those of libstdc++ with `std::allocator` (both headers declare the default): `_M_check_len`, `reserve`,
range insertion with the strong guarantee (`std::list` builds the new nodes aside). Allocations of the interpreter itself
(`to_list`, result objects) succeed, and so does `Py_CreateObj`. `size_t` has 64 bits.
-/

namespace Verif.Refuse

variable {σ ρ α : Type}

/-- Carry an outcome of the unlimited model over; `r` is what the machine remembers. Scaffolding of the model, no
code of /repo. -/
def lift (r : ρ) : Out σ α → Out (σ × ρ) α
  | .ok s v => .ok (s, r) v
  | .exc s e => .exc (s, r) e
  | .pending s v e => .pending (s, r) v e
  | .ub u => .ub u

/-- A call that asks after checking its arguments and before it changes anything, inside its `try`
(`catch (const std::exception &e) { PyErr_SetString(PyExc_RuntimeError, e.what()); ...}`): `ask` is given the state
the call
would reach. (ObjectArrayList.cpp 137, 173, 193 and so on.) -/
def guarded (ask : σ → ρ → ρ × Bool) (s : σ) (r : ρ) (out : Out σ α) : Out (σ × ρ) α :=
  match out with
  | .ok s' v =>
    match ask s' r with
    | (r', true) => .ok (s', r') v
    | (r', false) => .exc (s, r') .runtimeError
  | out => lift r out

/-- A call whose requests are in no `try`: a refused request ends the process (`std::terminate`).
(ObjectArrayList.cpp 201-263, 697-744; ObjectLinkedList.cpp 153-201, 614-655.) -/
def orDie (ask : ρ → ρ × Bool) (r : ρ) (out : Out σ α) : Out (σ × ρ) α :=
  match out with
  | .ub u => .ub u
  | out =>
    match ask r with
    | (r', true) => lift r' out
    | (_, false) => .ub .terminate

/-- `push_back` repeated `k` times on a container of `size` elements. (libstdc++.) -/
def asks (one : Nat → ρ → ρ × Bool) : Nat → Nat → ρ → ρ × Bool
  | 0, _, r => (r, true)
  | k + 1, size, r =>
    match one size r with
    | (r', true) => asks one k (size + 1) r'
    | (r', false) => (r', false)

/-- Loop of `*` (ObjectArrayList.cpp 764-769, ObjectLinkedList.cpp 673-678): `push_back`, then `Py_INCREF`, for the
elements `os` in turn; `acc` is the result so far. A refused `push_back` releases the result and with it the references of
its elements (772-773, 681-682). -/
def mulPush (one : Nat → ρ → ρ × Bool) : List Obj → List Obj → Heap → ρ → Except UB (ρ × Heap × Option (List Obj))
  | [], acc, h, r => .ok (r, h, some acc)
  | o :: os, acc, h, r =>
    match one acc.length r with
    | (r', false) =>
      match h.decrefs acc with
      | .error u => .error u
      | .ok h => .ok (r', h, none)
    | (r', true) =>
      match h.incref o with
      | .error u => .error u
      | .ok h => mulPush one os (acc ++ [o]) h r'

/-- The elements of `l`, `n` times over. Scaffolding of the model, no code of /repo. -/
def times (l : List Obj) : Nat → List Obj
  | 0 => []
  | n + 1 => l ++ times l n

/-! ## ObjectArrayList -/

namespace Arr

/-- The machine: does the `t`-th request of the program, for `b` bytes, succeed? Scaffolding of the model, no code of
/repo. -/
abbrev Machine := Nat → Nat → Bool

/-- Capacity of the vector, and the number of requests made so far. Scaffolding of the model, no code of /repo. -/
structure Room where
  cap : Nat
  t : Nat
  deriving DecidableEq, Repr

/-- `vector::max_size()`: `PTRDIFF_MAX / sizeof(PyObject *)`. (libstdc++.) -/
def maxSize : Nat := (2 ^ 63 - 1) / 8

/-- `operator new` for `n` pointers: the new block replaces the old one, or `bad_alloc` and nothing has changed.
(libstdc++.) -/
def getBlock (m : Machine) (r : Room) (n : Nat) : Room × Bool :=
  if m r.t (n * 8) then (⟨n, r.t + 1⟩, true) else (⟨r.cap, r.t + 1⟩, false)

/-- Room for `n` more elements (`push_back`, `insert`, `resize`), with `_M_check_len` of libstdc++: `length_error`
beyond
`max_size`, otherwise the larger of doubling and what is needed. (Through ObjectArrayList.cpp 90, 111, 127, 191, 252,
732, 768, 811.) -/
def makeRoom (m : Machine) (n size : Nat) (r : Room) : Room × Bool :=
  if n ≤ r.cap - size then (r, true)
  else if maxSize - size < n then (r, false)
  else getBlock m r (min (size + max size n) maxSize)

/-- `vector::reserve(n)`. (Called at ObjectArrayList.cpp 53, 241, 719, 765, 808.) -/
def reserve (m : Machine) (n : Nat) (r : Room) : Room × Bool :=
  if maxSize < n then (r, false)
  else if n ≤ r.cap then (r, true)
  else getBlock m r n

/-- The vector of a new list takes `n` elements; the own vector keeps its capacity. (ObjectArrayList.cpp 157, 765.) -/
def elsewhere (m : Machine) (n : Nat) (r : Room) : Room × Bool :=
  if n = 0 then (r, true)
  else if maxSize < n then (r, false)
  else (⟨r.cap, r.t + 1⟩, m r.t (n * 8))

/-- State: the list and what the machine remembers. Scaffolding of the model, no code of /repo. -/
abbrev St := OState × Room

/-- `append` (182-199), `insert` (360-388) and `resize` (111-143): room for the new elements first. -/
def grow (m : Machine) (s : St) (out : OOut) : Out St OVal :=
  guarded (fun s' r => makeRoom m (s'.vec.length - s.1.vec.length) s.1.vec.length r) s.1 s.2 out

/-- Generic part of `extend` (231-251) and `+=` (711-733): `reserve` for the length hint, then `push_back` for every
item. -/
def askItems (m : Machine) (size hint n : Nat) (r : Room) : Room × Bool :=
  match (if 0 < hint then reserve m (size + hint) r else (r, true)) with
  | (r', false) => (r', false)
  | (r', true) => asks (makeRoom m 1) n size r'

/-- `PyObject_LengthHint(iterable, 0)` (238, 718): the length of a sized object, whatever an iterator answers (`hint`), 0
otherwise. Simplified: a `__length_hint__` that raises is not modelled. -/
def hintOf (src : OSrc) (hint : Nat) : Nat :=
  match src with
  | .list xs | .tuple xs | .seq xs => xs.length
  | .iter _ _ => hint
  | _ => 0

/-- ObjectArrayList.cpp 201-262, `extend`; no `try`. -/
def extend (m : Machine) (s : St) (src : OSrc) (hint : Nat) : Out St OVal :=
  match src with
  | .self | .notIterable => lift s.2 (ObjArray.extend s.1 src)
  | .same v => orDie (makeRoom m v.length s.1.vec.length) s.2 (ObjArray.extend s.1 src)
  | .list v => orDie (makeRoom m v.length s.1.vec.length) s.2 (ObjArray.extend s.1 src)
  | src => orDie (askItems m s.1.vec.length (hintOf src hint) (src.elems []).length) s.2 (ObjArray.extend s.1 src)

/-- ObjectArrayList.cpp 697-743, `+=`; no `try`. -/
def iadd (m : Machine) (s : St) (src : OSrc) (hint : Nat) : Out St OVal :=
  match src with
  | .self | .notIterable => lift s.2 (ObjArray.iadd s.1 src)
  | .same v => orDie (makeRoom m v.length s.1.vec.length) s.2 (ObjArray.iadd s.1 src)
  | src => orDie (askItems m s.1.vec.length (hintOf src hint) (src.elems []).length) s.2 (ObjArray.iadd s.1 src)

open ObjArray (Slots copyIn fast srcSlots finishSlots)

/-- The `catch` of slice assignment (650-653): the vector stays as it is. -/
def caught (v : Slots) (h : Heap) (r : Room) : Out St OVal :=
  match v.mapM id with
  | none => .ub .nullDeref
  | some l => .exc (⟨l, h⟩, r) .runtimeError

/-- Case 3, generic insertion (641-647): the item is fetched, then inserted; a refused insertion drops the only pointer to
the new reference. -/
def insertNew (m : Machine) (src : OSrc) (start : Nat) : Nat → Nat → Slots → Heap → Room → Out St OVal
  | 0, _, v, h, r => lift r (finishSlots v h none)
  | n + 1, i, v, h, r =>
    match (src.elems [])[i]? with
    | none => .ub .outOfBounds
    | some o =>
      if start + i ≤ v.length then
        match makeRoom m 1 v.length r with
        | (r', false) => caught v (h.gain o) r'
        | (r', true) =>
          insertNew m src start n (i + 1) (v.take (start + i) ++ some o :: v.drop (start + i)) (h.gain o) r'
      else .ub .badIterator

/-- Case 3 (617-649), for a value of `k` items that replaces `n` elements from `start` on. -/
def growSlice (m : Machine) (src : OSrc) (start n k : Int) (s : St) : Out St OVal :=
  match copyIn src start.toNat n.toNat (s.1.vec.map some) s.1.heap with
  | .error u => .ub u
  | .ok (v, h) =>
    if fast src then
      if src = .self then .ub .badIterator
      else if (start + n).toNat ≤ v.length then
        match makeRoom m (k - n).toNat v.length s.2 with
        | (r', false) => caught v h r'
        | (r', true) =>
          lift r' (finishSlots (v.take (start + n).toNat ++ ((srcSlots src v).take k.toNat).drop n.toNat ++
            v.drop (start + n).toNat) h none)
      else .ub .badIterator
    else insertNew m src start.toNat (k - n).toNat n.toNat v h s.2

/-- ObjectArrayList.cpp 533-656, slice assignment. -/
def setSlice (m : Machine) (s : St) (sl : SliceArg) (src : OSrc) : Out St OVal :=
  match sliceUnpack sl with
  | .error e => .exc s e
  | .ok (start, stop, step) =>
    let (start, stop, n) := adjustIndices s.1.vec.length start stop step
    if !src.isSequence then .exc s .typeError
    else if step ≠ 1 then .exc s .notImplementedError
    else if n < src.size s.1.vec then growSlice m src start n (src.size s.1.vec) s
    else lift s.2 (ObjArray.replace src start stop n (src.size s.1.vec) s.1)

/-- The byte count of `reserve(selfSize * n)` (763, 808) is a product of `size_t`. -/
def product (size : Nat) (n : Int) : Nat := size * n.toNat % 2 ^ 64

/-- ObjectArrayList.cpp 746-779, `*`. -/
def mul (m : Machine) (s : St) (n : Int) : Out St OVal :=
  let n := if n < 0 then 0 else n
  if n = 0 then .ok s (.newList [])
  else
    match reserve m (product s.1.vec.length n) ⟨0, s.2.t⟩ with
    | (r, false) => .exc (s.1, ⟨s.2.cap, r.t⟩) .runtimeError
    | (r, true) =>
      match mulPush (makeRoom m 1) (times s.1.vec n.toNat) [] s.1.heap r with
      | .error u => .ub u
      | .ok (r, h, none) => .exc (⟨s.1.vec, h⟩, ⟨s.2.cap, r.t⟩) .runtimeError
      | .ok (r, h, some l) => .ok (⟨s.1.vec, h⟩, ⟨s.2.cap, r.t⟩) (.newList l)

/-- `l.__rmul__(a)`. The type has `sq_repeat` (`*`), for which CPython makes a method `__rmul__` before it looks at the
method table; as METH_COEXIST is not set, the entry for ObjectArrayList.cpp 781-793 is skipped. The made method passes
`PyNumber_AsSsize_t(a, PyExc_OverflowError)`. -/
def rmul (m : Machine) (s : St) (a : Arg) : Out St OVal :=
  match asLong a with
  | (_, some e) => .exc s e
  | (n, none) => mul m s n

/-- Inner loop of `*=` (810-813); `none` = still running after `fuel` iterations, the flag is false after a refused
`push_back`. -/
def imulInner (m : Machine) : Nat → Nat → List Obj → Heap → Room → Option (Except UB (St × Bool))
  | 0, _, _, _, _ => none
  | fuel + 1, j, v, h, r =>
    match v[j]? with
    | none => some (.ok ((⟨v, h⟩, r), true))
    | some o =>
      match makeRoom m 1 v.length r with
      | (r', false) => some (.ok ((⟨v, h⟩, r'), false))
      | (r', true) =>
        match h.incref o with
        | .error u => some (.error u)
        | .ok h => imulInner m fuel (j + 1) (v ++ [o]) h r'

/-- Outer loop of `*=` (809-814). -/
def imulOuter (m : Machine) (fuel : Nat) : Nat → St → Option (Except UB (St × Bool))
  | 0, s => some (.ok (s, true))
  | k + 1, s =>
    match imulInner m fuel 0 s.1.vec s.1.heap s.2 with
    | some (.ok (s, true)) => imulOuter m fuel k s
    | r => r

/-- ObjectArrayList.cpp 795-823, `*=`; the elements stored before the refusal stay. -/
def imul (m : Machine) (fuel : Nat) (s : St) (n : Int) : Out St OVal :=
  let n := if n < 0 then 0 else n
  if n = 0 then .ok (⟨[], s.1.heap⟩, s.2) .self
  else
    match reserve m (product s.1.vec.length n) s.2 with
    | (r, false) => .exc (s.1, r) .runtimeError
    | (r, true) =>
      match imulOuter m fuel (n.toNat - 1) (s.1, r) with
      | none => .ub .neverReturns
      | some (.error u) => .ub u
      | some (.ok (s, true)) => .ok s .self
      | some (.ok (s, false)) => .exc s .runtimeError

/-- One call; `hint` is the answer of an iterator to `PyObject_LengthHint`. (The functions of Model/ObjArrayList and
Model/ObjLinkedList, by call.) -/
def step (cfg : Cfg) (H : OHost) (m : Machine) (fuel : Nat) (s : St) (op : OOp) (hint : Nat) : Out St OVal :=
  match op with
  | .append o => grow m s (ObjArray.append s.1 o)
  | .insert i o => grow m s (ObjArray.insert s.1 i o)
  | .resize a => grow m s (ObjArray.resize H s.1 a)
  | .copy => guarded (fun _ r => elsewhere m s.1.vec.length r) s.1 s.2 (ObjArray.copy s.1)
  | .extend src => extend m s src hint
  | .iadd src => iadd m s src hint
  | .setSlice sl src => setSlice m s sl src
  | .mul n => mul m s n
  | .rmul a => rmul m s a
  | .imul n => imul m fuel s n
  | op => lift s.2 (ObjArray.step cfg H fuel s.1 op)

/-- Pushing loop of the constructor (88-90): a refused `push_back` drops the only pointer to the new reference. -/
def initPush (m : Machine) : List Obj → St → St × Bool
  | [], s => (s, true)
  | o :: os, s =>
    match makeRoom m 1 s.1.vec.length s.2 with
    | (r', false) => ((⟨s.1.vec, s.1.heap.gain o⟩, r'), false)
    | (r', true) => initPush m os (⟨s.1.vec ++ [o], s.1.heap.gain o⟩, r')

/-- ObjectArrayList.cpp 42-101, constructor with an iterable and the expected size `n`, for a program that has made `t`
requests. `.exc` carries the half-built object, which is then destroyed. Simplified: the reference to the sequence or
iterator itself, which is not released after a refusal either (78, 91 are skipped), is not tracked. -/
def init (m : Machine) (h : Heap) (t : Nat) (src : OSrc) (n : Nat) : Out St Unit :=
  match (if 0 < n then reserve m n ⟨0, t⟩ else (⟨0, t⟩, true)) with
  | (r, false) => .exc (⟨[], h⟩, r) .runtimeError
  | (r, true) =>
    match src with
    | .same v =>
      match (if v.length ≤ r.cap then (r, true) else getBlock m r v.length) with
      | (r, false) => .exc (⟨[], h⟩, r) .runtimeError
      | (r, true) => .ok (⟨v, h⟩, r) ()
    | .self => .ok (⟨[], h⟩, r) ()
    | .list xs | .tuple xs =>
      match h.increfs xs with
      | .error u => .ub u
      | .ok h =>
        match makeRoom m xs.length 0 r with
        | (r, false) => .exc (⟨[], h⟩, r) .runtimeError
        | (r, true) => .ok (⟨xs, h⟩, r) ()
    | .seq xs | .seqNoLen xs =>
      match initPush m xs (⟨[], h⟩, r) with
      | (s, true) => .ok s ()
      | (s, false) => .exc s .runtimeError
    | .iter xs f =>
      match initPush m xs (⟨[], h⟩, r), f with
      | (s, false), _ => .exc s .runtimeError
      | (s, true), none => .ok s ()
      | (s, true), some e => .exc s e
    | .notIterable => .exc (⟨[], h⟩, r) .typeError

end Arr

/-! ## ObjectLinkedList -/

namespace Lnk

/-- The machine: does the `t`-th request of the program, for a node, succeed? Scaffolding of the model, no code of
/repo. -/
abbrev Machine := Nat → Bool

/-- `operator new` for one node. (libstdc++; through ObjectLinkedList.cpp 56, 70, 142, 189, 643.) -/
def node (m : Machine) (_ : Nat) (t : Nat) : Nat × Bool := (t + 1, m t)

/-- State: the list and what the machine remembers. Scaffolding of the model, no code of /repo. -/
abbrev St := OLState × Nat

/-- `n` nodes. (libstdc++; through ObjectLinkedList.cpp 189, 643, 676, 718.) -/
def nodes (m : Machine) (n : Nat) (t : Nat) : Nat × Bool := asks (node m) n 0 t

open ObjLinked (vec)

/-- ObjectLinkedList.cpp 153-200, `extend`, and 614-654, `+=`; no `try`. `out` is the outcome with all nodes. -/
def extendWith (m : Machine) (s : St) (src : OSrc) (out : OLOut) : Out St OVal :=
  match src with
  | .notIterable => lift s.2 out
  | src => orDie (nodes m (src.elems (vec s.1)).length) s.2 out

/-- Growing loop of slice assignment (543-550): a refused node gives the item back (568) and leaves the nodes inserted
so far; the flag is false after a refusal. -/
def growLoop (m : Machine) (src : OSrc) : Nat → Nat → Nat → St → Except UB (St × Bool)
  | 0, _, _, s => .ok (s, true)
  | n + 1, i, p, s =>
    match (src.elems (vec s.1))[i]? with
    | none => .error .outOfBounds
    | some o =>
      if p ≤ s.1.list.size then
        match node m 0 s.2 with
        | (t, true) => growLoop m src n (i + 1) (p + 1) (⟨s.1.list.insert p o, s.1.heap.gain o⟩, t)
        | (t, false) =>
          match (s.1.heap.gain o).decref o with
          | .error u => .error u
          | .ok h => .ok ((⟨s.1.list, h⟩, t), false)
      else .error .badIterator

/-- ObjectLinkedList.cpp 541-572 when the value has more items than the slice: grow, then overwrite. -/
def growSlice (m : Machine) (src : OSrc) (start stop step n k : Int) (s : St) : Out St OVal :=
  match (if stop < 0 then .ok s.1.list.size else listAt s.1.list.size stop.toNat) with
  | .error u => .ub u
  | .ok p =>
    match growLoop m src (k - n).toNat n.toNat p s with
    | .error u => .ub u
    | .ok (s, false) => .exc s .runtimeError
    | .ok (s, true) =>
      match ObjLinked.overwrite src start step k.toNat 0 s.1 with
      | .error u => .ub u
      | .ok s' => .ok (s', s.2) .none

/-- ObjectLinkedList.cpp 506-573, slice assignment. -/
def setSlice (m : Machine) (s : St) (sl : SliceArg) (src : OSrc) : Out St OVal :=
  match sliceUnpack sl with
  | .error e => .exc s e
  | .ok (start, stop, step) =>
    let (start, stop, n) := adjustIndices s.1.list.size start stop step
    if !src.isSequence then .exc s .typeError
    else if src.size (vec s.1) < 0 then .exc s .typeError
    else if n < src.size (vec s.1) then growSlice m src start stop step n (src.size (vec s.1)) s
    else
      match ObjLinked.replace src start stop step n (src.size (vec s.1)) s.1 with
      | .error u => .ub u
      | .ok s' => .ok (s', s.2) .none

/-- ObjectLinkedList.cpp 657-687, `*`. -/
def mul (m : Machine) (s : St) (n : Int) : Out St OVal :=
  let n := if n < 0 then 0 else n
  if n = 0 then .ok s (.newList [])
  else
    match mulPush (node m) (times (vec s.1) n.toNat) [] s.1.heap s.2 with
    | .error u => .ub u
    | .ok (t, h, none) => .exc (⟨s.1.list, h⟩, t) .runtimeError
    | .ok (t, h, some l) => .ok (⟨s.1.list, h⟩, t) (.newList l)

/-- `l.__rmul__(a)`. The type has `sq_repeat` (`*`), for which CPython makes a method `__rmul__` before it looks at the
method table; as METH_COEXIST is not set, the entry for ObjectLinkedList.cpp 689-701 is skipped. The made method passes
`PyNumber_AsSsize_t(a, PyExc_OverflowError)`. -/
def rmul (m : Machine) (s : St) (a : Arg) : Out St OVal :=
  match asLong a with
  | (_, some e) => .exc s e
  | (n, none) => mul m s n

/-- Inner loop of `*=` (718-721). -/
def imulInner (m : Machine) : Nat → Nat → St → Except UB (St × Bool)
  | 0, _, s => .ok (s, true)
  | n + 1, j, s =>
    match (vec s.1)[j]? with
    | none => .error .badIterator
    | some o =>
      match node m 0 s.2 with
      | (t, false) => .ok ((s.1, t), false)
      | (t, true) =>
        match s.1.heap.incref o with
        | .error u => .error u
        | .ok h => imulInner m n (j + 1) (⟨s.1.list.push o, h⟩, t)

/-- Outer loop of `*=` (716-722). -/
def imulOuter (m : Machine) (size : Nat) : Nat → St → Except UB (St × Bool)
  | 0, s => .ok (s, true)
  | k + 1, s =>
    match imulInner m size 0 s with
    | .ok (s, true) => imulOuter m size k s
    | r => r

/-- ObjectLinkedList.cpp 703-730, `*=`; the nodes added before the refusal stay. -/
def imul (m : Machine) (s : St) (n : Int) : Out St OVal :=
  let n := if n < 0 then 0 else n
  if n = 0 then .ok (⟨s.1.list.clear, s.1.heap⟩, s.2) .self
  else
    match imulOuter m s.1.list.size (n.toNat - 1) s with
    | .error u => .ub u
    | .ok (s, true) => .ok s .self
    | .ok (s, false) => .exc s .runtimeError

/-- One call. (The functions of Model/ObjArrayList and Model/ObjLinkedList, by call.) -/
def step (H : OHost) (strict : Bool) (m : Machine) (s : St) (op : OOp) : Out St OVal :=
  match op with
  | .append o => guarded (fun _ t => node m 0 t) s.1 s.2 (ObjLinked.append s.1 o)
  | .insert i o => guarded (fun _ t => node m 0 t) s.1 s.2 (ObjLinked.insert s.1 i o)
  | .copy => guarded (fun _ t => nodes m s.1.list.size t) s.1 s.2 (ObjLinked.copy s.1)
  | .extend src => extendWith m s src (ObjLinked.extend strict s.1 src)
  | .iadd src => extendWith m s src (ObjLinked.iadd strict s.1 src)
  | .setSlice sl src => setSlice m s sl src
  | .mul n => mul m s n
  | .rmul a => rmul m s a
  | .imul n => imul m s n
  | op => lift s.2 (ObjLinked.step H strict s.1 op)

/-- Pushing loop of the constructor over a list or tuple (52-57: `Py_INCREF`, then `push_back`). -/
def initCounted (m : Machine) : List Obj → St → Except UB (St × Bool)
  | [], s => .ok (s, true)
  | o :: os, s =>
    match s.1.heap.incref o with
    | .error u => .error u
    | .ok h =>
      match node m 0 s.2 with
      | (t, false) => .ok ((⟨s.1.list, h⟩, t), false)
      | (t, true) => initCounted m os (⟨s.1.list.push o, h⟩, t)

/-- Pushing loop of the constructor over an iterator (67-69). -/
def initPush (m : Machine) : List Obj → St → St × Bool
  | [], s => (s, true)
  | o :: os, s =>
    match node m 0 s.2 with
    | (t, false) => ((⟨s.1.list, s.1.heap.gain o⟩, t), false)
    | (t, true) => initPush m os (⟨s.1.list.push o, s.1.heap.gain o⟩, t)

/-- ObjectLinkedList.cpp 23-81, constructor, for a program that has made `t` requests. `.exc` carries the half-built object,
which is then destroyed. Simplified: the reference to the sequence or iterator itself, which is not released after a refusal
either (58, 70 are skipped), is not tracked. -/
def init (m : Machine) (h : Heap) (t : Nat) (src : OSrc) : Out St Unit :=
  let empty : OLState := ⟨⟨[], 0, 0⟩, h⟩
  match src with
  | .same v =>
    match nodes m v.length t with
    | (t, false) => .exc (empty, t) .runtimeError
    | (t, true) => .ok (⟨LState.pushAll ⟨[], 0, 0⟩ v, h⟩, t) ()
  | .self => .ok (empty, t) ()
  | .list xs | .tuple xs =>
    match initCounted m xs (empty, t) with
    | .error u => .ub u
    | .ok (s, true) => .ok s ()
    | .ok (s, false) => .exc s .runtimeError
  | .seq xs | .seqNoLen xs =>
    match initPush m xs (empty, t) with
    | (s, true) => .ok s ()
    | (s, false) => .exc s .runtimeError
  | .iter xs f =>
    match initPush m xs (empty, t), f with
    | (s, false), _ => .exc s .runtimeError
    | (s, true), none => .ok s ()
    | (s, true), some e => .exc s e
  | .notIterable => .exc (empty, t) .typeError

end Lnk
end Verif.Refuse
