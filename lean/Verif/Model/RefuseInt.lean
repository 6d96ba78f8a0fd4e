import Verif.Model.IntLinkedList
import Verif.Model.Refuse

/-!
# IntLinkedList on a machine that can refuse memory

Model/IntLinkedList lets every node be allocated. Here the same functions of ints/IntLinkedList.cpp run on a machine that
grants or refuses each node, with the C++ exception caught where the code has a `try` (RuntimeError) and ending the process
where it has none (`extend`, `+=`). A range insertion or assignment of `std::list` builds the new nodes aside and splices
them in, so a refusal in the middle of it changes nothing. Allocations of the interpreter itself succeed, and so does
`Py_CreateObj`.
-/

namespace Verif.RefuseInt

open Verif.LinkedList (S LLOut)
open Verif.Refuse (lift orDie)
open Verif.Refuse.Lnk (Machine node nodes)

/-- The list, and the number of nodes asked for so far by the program. Scaffolding of the model, no code of /repo. -/
abbrev St := S × Nat

/-- A call that asks for `k` nodes inside its `try`, after checking its arguments (`exc`) and before it changes
anything.
An exception of a conversion that was not checked (`pending`) is replaced by the handler's. (The `try` blocks of
IntLinkedList.cpp.) -/
def guarded (m : Machine) (k : Nat) (s : St) (out : LLOut) : Out St Ret :=
  match out with
  | .ok s' v =>
    match nodes m k s.2 with
    | (t, true) => .ok (s', t) v
    | (t, false) => .exc (s.1, t) .runtimeError
  | .pending s' v e =>
    match nodes m k s.2 with
    | (t, true) => .pending (s', t) v e
    | (t, false) => .exc (s.1, t) .runtimeError
  | .exc s' e => .exc (s', s.2) e
  | .ub u => .ub u

/-- Number of `push_back`s of the item loop of `extend` and `+=` (221-230, 716-725): an item is pushed before the error of
its conversion is noticed. -/
def pushes : List Arg → Nat
  | [] => 0
  | a :: as =>
    match (toElem .i32 a).2 with
    | none => pushes as + 1
    | some _ => 1

/-- Number of nodes `extend` and `+=` ask for. (IntLinkedList.cpp 194-241, 699-737.) -/
def asked (s : S) : Src → Nat
  | .same v => v.length
  | .self => s.size
  | .list xs | .tuple xs | .seq xs | .seqNoLen xs | .iter xs _ => pushes xs
  | .notIterable => 0

/-- IntLinkedList.cpp 194-240, `extend`, and 699-736, `+=`; no `try`. `out` is the outcome with all nodes. -/
def extendWith (m : Machine) (s : St) (src : Src) (out : LLOut) : Out St Ret :=
  orDie (nodes m (asked s.1 src)) s.2 out

/-- Inserting loop of slice assignment (642-653): the item is converted (648), then its node is asked for. A refusal leaves
what has been inserted. Simplified: the reference to the item, not released then (649 is skipped), is not tracked. -/
def insertLoop (m : Machine) (cfg : Cfg) (src : Src) (p : Nat) : Nat → Nat → St → Out St Ret
  | 0, _, cur => .ok cur .none
  | n + 1, i, cur =>
    match LinkedList.srcItem cfg cur.1 src i with
    | none => .exc cur .indexError
    | some (v, e) =>
      if p + i ≤ cur.1.size then
        match node m 0 cur.2 with
        | (t, false) => .exc (cur.1, t) .runtimeError
        | (t, true) =>
          match e with
          | some e => .exc (cur.1.insert (p + i) v, t) e
          | none => insertLoop m cfg src p n (i + 1) (cur.1.insert (p + i) v, t)
      else .ub .badIterator

/-- IntLinkedList.cpp 626-653: more items than the slice has. -/
def growSlice (m : Machine) (cfg : Cfg) (src : Src) (p : Nat) (n k : Int) (s : St) : Out St Ret :=
  match LinkedList.assignLoop cfg src p n.toNat 0 s.1 with
  | .ok s' _ => insertLoop m cfg src p (k - n).toNat n.toNat (s', s.2)
  | out => lift s.2 out

/-- IntLinkedList.cpp 566-661, assignment to a slice; the other cases ask for nothing. -/
def setSlice (m : Machine) (cfg : Cfg) (s : St) (sl : SliceArg) (src : Src) : Out St Ret :=
  let other := lift s.2 (LinkedList.assSubscript cfg s.1 (.slice sl) (some (.inr src)))
  match sliceUnpack sl with
  | .error _ => other
  | .ok (start, stop, step) =>
    let (start, _, n) := adjustIndices s.1.size start stop step
    if !src.isSequence then other
    else if step ≠ 1 then other
    else if ArrayList.srcSize s.1.vals src ≤ n then other
    else
      match listAt s.1.size start.toNat with
      | .error u => .ub u
      | .ok p => growSlice m cfg src p n (ArrayList.srcSize s.1.vals src) s

/-- IntLinkedList.cpp 739-766, `*`: a refusal releases the result (762-763). -/
def mul (m : Machine) (s : St) (n : Int) : Out St Ret := guarded m (s.1.size * n.toNat) s (LinkedList.mul s.1 n)

/-- `l.__rmul__(a)`. The type has `sq_repeat` (`*`), for which CPython makes a method `__rmul__` before it looks at the
method table; as METH_COEXIST is not set, the entry for IntLinkedList.cpp 768-780 is skipped. The made method passes
`PyNumber_AsSsize_t(a, PyExc_OverflowError)`. -/
def rmul (m : Machine) (s : St) (a : Arg) : Out St Ret :=
  match asLong a with
  | (_, some e) => .exc s e
  | (n, none) => mul m s n

/-- Loop of `*=` (794-796): the rounds done before a refusal stay; the flag is false after a refusal. -/
def imulLoop (m : Machine) (strict : Bool) : Nat → St → Except UB (St × Bool)
  | 0, s => .ok (s, true)
  | k + 1, s =>
    if strict then .error .badIterator
    else
      match nodes m s.1.size s.2 with
      | (t, true) => imulLoop m strict k (s.1.pushAll s.1.vals, t)
      | (t, false) => .ok ((s.1, t), false)

/-- IntLinkedList.cpp 782-806, `*=`. -/
def imul (m : Machine) (strict : Bool) (s : St) (n : Int) : Out St Ret :=
  let n := if n < 0 then 0 else n
  if n = 0 then .ok (s.1.clear, s.2) .self
  else
    match imulLoop m strict (n.toNat - 1) s with
    | .error u => .ub u
    | .ok (s', true) => .ok s' .self
    | .ok (s', false) => .exc s' .runtimeError

/-- One call: `append` (175-192), `insert` (344-372) and `copy` (158-173) ask in their `try`; calls not listed ask for
nothing. -/
def step (m : Machine) (cfg : Cfg) (strict : Bool) (s : St) (op : Op) : Out St Ret :=
  match op with
  | .append a => guarded m 1 s (LinkedList.append s.1 a)
  | .insert i a => guarded m 1 s (LinkedList.insert s.1 i a)
  | .copy => guarded m s.1.size s (LinkedList.step cfg strict s.1 .copy)
  | .extend src => extendWith m s src (LinkedList.extendWith strict true s.1 src .none)
  | .iadd src => extendWith m s src (LinkedList.extendWith strict false s.1 src .self)
  | .set (.slice sl) (.inr src) => setSlice m cfg s sl src
  | .mul n => mul m s n
  | .rmul a => rmul m s a
  | .imul n => imul m strict s n
  | op => lift s.2 (LinkedList.step cfg strict s.1 op)

/-- Number of `push_back`s of the constructor (54-60, 73-81): a value is pushed after its conversion was checked. -/
def initPushes : List Arg → Nat
  | [] => 0
  | a :: as =>
    match (toElem .i32 a).2 with
    | none => initPushes as + 1
    | some _ => 0

/-- IntLinkedList.cpp 23-93, constructor, for a program that has asked for `t` nodes; everything is inside the `try`
(37-87). After `.exc` there is no list. -/
def init (m : Machine) (t : Nat) (arg : Option (Int ⊕ Src)) : Out St Unit :=
  let k := match arg with
    | none | some (.inl _) | some (.inr .self) | some (.inr .notIterable) => 0
    | some (.inr (.same v)) => v.length
    | some (.inr (.list xs)) | some (.inr (.tuple xs)) | some (.inr (.seq xs)) | some (.inr (.seqNoLen xs))
    | some (.inr (.iter xs _)) => initPushes xs
  match nodes m k t with
  | (t, true) => lift t (LinkedList.init arg)
  | (t, false) => .exc (⟨[], 0, 0⟩, t) .runtimeError

/-- Item loop of `from_range` (124-128): a node, then the signed addition. The nodes asked for, and the elements (`none`: a
node was refused). -/
def rangeLoop (m : Machine) (step : Int) : Nat → Int → Nat → Except UB (Nat × Option (List Int))
  | 0, _, t => .ok (t, some [])
  | n + 1, cur, t =>
    match node m 0 t with
    | (t, false) => .ok (t, none)
    | (t, true) =>
      if FitsS 64 (cur + step) then
        match rangeLoop m step n (cur + step) t with
        | .ok (t, some l) => .ok (t, some (wrapS 32 cur :: l))
        | r => r
      else .error .signedOverflow

/-- IntLinkedList.cpp 100-138, `from_range` (the `try` is 110-130), for a program that has asked for `t` nodes. -/
def fromRange (m : Machine) (t : Nat) (a1 : Arg) (a2 a3 : Option Arg) : Out Nat (List Int) :=
  match ArrayList.evalRange a1 a2 a3 with
  | .error e => .exc t e
  | .ok (start, stop, step) =>
    match ArrayList.rangeCount start stop step with
    | .error u => .ub u
    | .ok none => .ok t []
    | .ok (some n) =>
      match rangeLoop m step n.toNat start t with
      | .error u => .ub u
      | .ok (t, none) => .exc t .runtimeError
      | .ok (t, some l) => .ok t l

end Verif.RefuseInt
