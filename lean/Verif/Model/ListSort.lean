import Verif.Model.CPySort
import Verif.Model.IntLinkedList

/-!
# `sort` of the list classes, as far as it goes through `CPython_sort`

ints/IntArrayList.cpp 450-499, ints/BigIntArrayList.cpp 446-496, ints/IntLinkedList.cpp 400-447 (these three
with a key function), objects/ObjectArrayList.cpp 417-432, objects/ObjectLinkedList.cpp 357-394. The callbacks do
not touch the list being sorted. `reverse` is the C truth value `reverseInt != 0` that `CPython_sort` tests.
-/

namespace Verif.ListSort

open Verif.CPySort (Caller Fault sortKeyed sortPlain)

variable {σ κ ν : Type}

/-- Element of an int list back from its object: `PyFast_AsInt` (IntArrayList.cpp 485, IntLinkedList.cpp 438) /
`PyLong_AsLongLong` (BigIntArrayList.cpp 484). -/
def unbox (K : Kind) (py : PyVer) (p : PyLong) : CRes :=
  match K with
  | .i32 => asInt py p
  | .i64 => if FitsS 64 p.value then (p.value, none) else (-1, some .overflowError)

/-- The loop that writes the sorted objects back (IntArrayList.cpp 484-487, BigIntArrayList.cpp 483-486,
IntLinkedList.cpp 436-440). Conversion errors are not looked at; a later one replaces an earlier one. -/
def writeBack (K : Kind) (py : PyVer) : List PyLong → Option Exc → List Int × Option Exc
  | [], e => ([], e)
  | p :: ps, e =>
    let (v, x) := unbox K py p
    let (vs, e) := writeBack K py ps (x.or e)
    (v :: vs, e)

/-- Result of the three int classes: `None`, whatever the error indicator says (the result of `CPython_sort`
is dropped: IntArrayList.cpp 482, BigIntArrayList.cpp 481, IntLinkedList.cpp 432-434). -/
def finish (l : List Int) : Option Exc → Out (List Int) Unit
  | none => .ok l ()
  | some e => .pending l () e

/-- `IntArrayList.sort(key=f, reverse=r)` / `BigIntArrayList.sort(key=f, reverse=r)` (IntArrayList.cpp 470-491). -/
def intArray (K : Kind) (py : PyVer) (c : Caller σ κ PyLong) (env : σ) (l : List Int) (reverse : Bool) :
    Except Fault (Out (List Int) Unit × σ) :=
  match c.malloc env l.length with
  | (false, env) => .ok (.exc l .memoryError, env)
  | (true, env) => do
    let (_, slots, env, err) ← sortKeyed c env (l.map (box K py)) reverse
    let (l', e) := writeBack K py slots err
    pure (finish l' e, env)

/-- `IntLinkedList.sort(key=f, reverse=r)` (IntLinkedList.cpp 417-443): the values are rewritten in place and
`modCount` is incremented. -/
def intLinked (py : PyVer) (c : Caller σ κ PyLong) (env : σ) (s : LState Int) (reverse : Bool) :
    Except Fault (Out (LState Int) Unit × σ) := do
  let (o, env) ← intArray .i32 py c env s.vals reverse
  pure (match o with
    | .exc _ e => .exc s e
    | .ok l a => .ok { s with nodes := s.ids.zip l, modCount := s.modCount + 1 } a
    | .pending l a e => .pending { s with nodes := s.ids.zip l, modCount := s.modCount + 1 } a e
    | .ub u => .ub u, env)

/-- `CPython_sort` with or without a key function (`key=None` means none). -/
inductive Call (σ κ ν : Type)
  | keyed (c : Caller σ κ ν)
  | plain (c : Caller σ ν ν)

/-- The allocator of the call. (PyMem_Malloc at CPythonSort.c 812, 1424-1429.) -/
def Call.malloc : Call σ κ ν → σ → Nat → Bool × σ
  | .keyed c => c.malloc
  | .plain c => c.malloc

/-- `CPython_sort(items, size, keyfunc, reverse)`. -/
def Call.sort (c : Call σ κ ν) (env : σ) (l : List ν) (reverse : Bool) :
    Except Fault (Bool × List ν × σ × Option Exc) :=
  match c with
  | .keyed c => sortKeyed c env l reverse
  | .plain c => sortPlain c env l reverse

/-- `ObjectArrayList.sort(key=…, reverse=…)` (ObjectArrayList.cpp 417-432): returns what `CPython_sort` returns.
A NULL result without an exception would be a SystemError. -/
def objArray (c : Call σ κ ν) (env : σ) (l : List ν) (reverse : Bool) : Except Fault (Out (List ν) Unit × σ) := do
  let (ok, slots, env, err) ← c.sort env l reverse
  pure (match ok, err with
    | true, none => .ok slots ()
    | true, some e => .pending slots () e
    | false, some e => .exc slots e
    | false, none => .exc slots .systemError, env)

/-- `ObjectLinkedList.sort(key=…, reverse=…)` (ObjectLinkedList.cpp 357-394): sorts a copy and writes it back, drops
the result of `CPython_sort`, increments `modCount`. -/
def objLinked (c : Call σ κ ν) (env : σ) (s : LState ν) (reverse : Bool) : Except Fault (Out (LState ν) Unit × σ) :=
  match c.malloc env s.size with
  | (false, env) => .ok (.exc s .memoryError, env)
  | (true, env) => do
    let (_, slots, env, err) ← c.sort env s.vals reverse
    let s' := { s with nodes := s.ids.zip slots, modCount := s.modCount + 1 }
    pure (match err with
      | none => .ok s' ()
      | some e => .pending s' () e, env)

end Verif.ListSort
