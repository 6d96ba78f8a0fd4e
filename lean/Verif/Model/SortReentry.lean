import Verif.Model.ListSort
import Verif.Model.Store

/-!
# Sorting while callbacks or other threads use the list

Here the key function (and whatever else runs Python code during a sort) may operate on the very list being sorted, and
a sort that has released the interpreter lock runs beside other threads. What is modelled is where the sort keeps
looking: at the storage the list had when the sort began.
-/

namespace Verif.Reentry

open Verif.Store
open Verif.CPySort (Caller Fault sortKeyed keysOf)
open Verif.ListSort (writeBack Call)

variable {σ κ ν : Type}

/-- `vecData[i] = …` for all `i < vecSize` (IntArrayList.cpp 484-487, BigIntArrayList.cpp 483-486), `vecData` pointing to
`blk`. -/
def writeBlock (w : World) (blk : Option Nat) (l : List Int) : Except UB World :=
  if l = [] then .ok w
  else
    match blk with
    | none => .error .nullDeref
    | some b =>
      match w.mem b with
      | none => .error .useAfterFree
      | some cs =>
        if l.length ≤ cs.length then .ok { w with mem := upd w.mem b (some (l ++ cs.drop l.length)) }
        else .error .outOfBounds

/-- `IntArrayList.sort(key=f, reverse=r)` / `BigIntArrayList.sort(key=f, reverse=r)` on the list `o` (IntArrayList.cpp
470-491): size and storage are looked up once (472-473), the callbacks work on the whole memory, and the result goes to
the storage of the beginning. -/
def sortIn (K : Kind) (py : PyVer) (c : Caller World κ PyLong) (w : World) (o : Nat) (reverse : Bool) :
    Except Fault (Out World Unit) :=
  match w.objs o with
  | none => .ok (.exc w .typeError)
  | some v =>
    match cells w v with
    | none => .ok (.ub .useAfterFree)
    | some cs =>
      match c.malloc w (cs.take v.size).length with
      | (false, w) => .ok (.exc w .memoryError)
      | (true, w) => do
        let (_, slots, w, err) ← sortKeyed c w ((cs.take v.size).map (box K py)) reverse
        let (l', e) := writeBack K py slots err
        pure (match writeBlock w v.blk l' with
          | .error u => .ub u
          | .ok w =>
            match e with
            | none => .ok w ()
            | some e => .pending w () e)

/-- `*iter = …` for the first nodes (IntLinkedList.cpp 436-440, ObjectLinkedList.cpp 385-388): behind the last node the
iterator is not dereferenceable. -/
def rewrite (s : LState ν) (l : List ν) : Except UB (LState ν) :=
  if l.length ≤ s.nodes.length then
    .ok { s with nodes := (s.ids.take l.length).zip l ++ s.nodes.drop l.length }
  else .error .badIterator

/-- `IntLinkedList.sort(key=f, reverse=r)` (IntLinkedList.cpp 417-443) with callbacks that may change the list. -/
def intLinkedIn (py : PyVer) (c : Caller (LState Int) κ PyLong) (s : LState Int) (reverse : Bool) :
    Except Fault (Out (LState Int) Unit) :=
  match c.malloc s s.size with
  | (false, s) => .ok (.exc s .memoryError)
  | (true, s1) => do
    let (_, slots, s2, err) ← sortKeyed c s1 (s.vals.map (box .i32 py)) reverse
    let (l', e) := writeBack .i32 py slots err
    pure (match rewrite s2 l' with
      | .error u => .ub u
      | .ok s3 =>
        let s3 := { s3 with modCount := s3.modCount + 1 }
        match e with
        | none => .ok s3 ()
        | some e => .pending s3 () e)

/-- `ObjectLinkedList.sort(key=…, reverse=…)` (ObjectLinkedList.cpp 357-394) with callbacks that may change the list.
Simplified: reference counts (an element removed by a callback may be gone when its pointer is written back). -/
def objLinkedIn (c : Call (LState ν) κ ν) (s : LState ν) (reverse : Bool) : Except Fault (Out (LState ν) Unit) :=
  match c.malloc s s.size with
  | (false, s) => .ok (.exc s .memoryError)
  | (true, s1) => do
    let (_, slots, s2, err) ← c.sort s1 s.vals reverse
    pure (match rewrite s2 slots with
      | .error u => .ub u
      | .ok s3 =>
        let s3 := { s3 with modCount := s3.modCount + 1 }
        match err with
        | none => .ok s3 ()
        | some e => .pending s3 () e)

/-! ## Object array lists: sorted in place -/

/-- The vector of an ObjectArrayList: which allocation it is in, capacity and elements. (ObjectArrayList.h:
`vector`.) -/
structure OVec (ν : Type) where
  blk : Nat
  cap : Nat
  items : List ν

/-- `vector.push_back(x)` (ObjectArrayList.cpp, `append`): a full vector moves to another allocation. -/
def OVec.push (grow : Nat → Nat) (v : OVec ν) (x : ν) : OVec ν :=
  if v.items.length < v.cap then { v with items := v.items ++ [x] }
  else ⟨v.blk + 1, grow v.cap, v.items ++ [x]⟩

/-- `saved_ob_item[i]` where `saved_ob_item` points into the allocation `b` (CPythonSort.c 1433). Behind the size the
reference is no longer the list's. -/
def OVec.access (v : OVec ν) (b i : Nat) : Except UB ν :=
  if v.blk ≠ b then .error .useAfterFree
  else
    match v.items[i]? with
    | none => .error .useAfterFree
    | some x => .ok x

/-- The key loop of `CPython_sort` (CPythonSort.c 1432-1441) on the vector's own storage (ObjectArrayList.cpp 429): `n`
elements from index `i` on. `vec` is the vector as part of the callbacks' state. -/
def keysIn (c : Caller σ κ ν) (vec : σ → OVec ν) (b : Nat) : σ → Nat → Nat → Except UB (Except Exc (List κ) × σ)
  | env, _, 0 => .ok (.ok [], env)
  | env, i, n + 1 => do
    let x ← (vec env).access b i
    match c.key env x with
    | (.error e, env) => pure (.error e, env)
    | (.ok k, env) =>
      match ← keysIn c vec b env (i + 1) n with
      | (.error e, env) => pure (.error e, env)
      | (.ok ks, env) => pure (.ok (k :: ks), env)

/-! ## `sort()` without a key: other threads run -/

/-- One access of `simdsort` to element `i` of the storage `blk` it was called with (BitonicSort.cpp 453-559). -/
def accessBlock (w : World) (blk : Option Nat) (i : Nat) : Except UB Int :=
  match blk with
  | none => .error .nullDeref
  | some b =>
    match w.mem b with
    | none => .error .useAfterFree
    | some cs =>
      match cs[i]? with
      | none => .error .outOfBounds
      | some v => .ok v

/-- What can happen to the memory between two accesses of a sort (IntArrayList.cpp 466-468, the lock is released): the
sort stores an element, or another thread runs an operation that `ok` admits. -/
inductive Raced (cfg : Cfg) (K : Kind) (grow : Nat → Nat → Nat) (ok : World → Ev → World → Prop) (blk : Option Nat) :
    World → World → Prop
  | refl (w : World) : Raced cfg K grow ok blk w w
  | store (w w' : World) (b : Nat) (cs : List Int) (i : Nat) (v : Int) (hw : Raced cfg K grow ok blk w w')
      (hb : blk = some b) (hm : w'.mem b = some cs) :
      Raced cfg K grow ok blk w { w' with mem := upd w'.mem b (some (cs.set i v)) }
  | other (w w' w'' : World) (e : Ev) (hw : Raced cfg K grow ok blk w w')
      (hs : (Store.step cfg K grow w' e).state? = some w'') (he : ok w' e w'') : Raced cfg K grow ok blk w w''

end Verif.Reentry
